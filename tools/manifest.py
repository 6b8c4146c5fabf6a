#!/usr/bin/env python3
"""Build MANIFEST.json; theorem
names are collected from lean/Verif/Props/*.lean by their Cnn_ prefix."""
import json,re,glob,os
root=os.path.dirname(os.path.dirname(os.path.abspath(__file__)))
props=[json.loads(l)['id'] for l in open(f'{root}/properties.jsonl')]
# notes: the row of the plan table of DESIGN.md, and whether a counterexample to the plain claim is proved
rows={}
for line in open(f'{root}/DESIGN.md'):
    m=re.match(r'\| (C\d\d\d?[^|]*) \| (.*) \| (.*) \|$',line)
    if m:
        for part in m.group(1).split(','):
            ids=re.findall(r'C(\d+)',part)
            for k in (range(int(ids[0]),int(ids[-1])+1) if ids else []):
                rows['C%02d'%k]=f'Modelled: {m.group(2)}. Proof: {m.group(3)}.'
ths={}
for f in sorted(glob.glob(f'{root}/lean/Verif/Props/*.lean')):
    ns=None
    for line in open(f):
        m=re.match(r'namespace (\S+)',line)
        if m: ns=m.group(1)
        m=re.match(r'(?:private )?theorem (C\d\d\d?\w*)',line)
        if m and not line.startswith('private'):
            n=m.group(1); ths.setdefault(n.split('_')[0],[]).append(f'{ns}.{n}')
out=[]
for p in props:
    t=ths.get(p,[])
    note=rows.get(p,'')
    ce=[x.split('.')[-1] for x in t if 'counterexample' in x]
    if ce: note+=' Where the plain claim fails of the code, proved as: '+', '.join(ce)+'.'
    n={'note':note.strip()}
    if not t: 
        continue
    st=n.get('status') or ('partial' if any(x.endswith('_partial') for x in t) else 'proved')
    out.append({"property":p,"status":st,"theorems":t,"note":n.get('note','')})
json.dump({"claims":out},open(f'{root}/MANIFEST.json','w'),indent=1)
print({p:len(ths.get(p,[])) for p in props})

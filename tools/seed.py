#!/usr/bin/env python3
"""run.py mutations.json : apply each mutation in a scratch copy and find which C-theorems lose their proof."""
import json,os,re,subprocess,sys,time,shutil
SRC='/tmp/mutsrc'; S='/tmp/scratch/lean'
ENV=dict(os.environ)
KW=re.compile(r'^(/--|/-!|@\[|set_option .* in$|theorem |lemma |def |noncomputable |abbrev |structure |inductive |instance |example|section|namespace|end |open |variable|private |macro|syntax|elab|local |universe|#|import |deriving|attribute|mutual|scoped|notation|infix)')
def chunks(text):
    lines=text.split('\n'); out=[]; cur=[]; incomment=False; attach=False
    for l in lines:
        start = (not incomment) and KW.match(l) is not None
        if start and not attach:
            if cur: out.append(cur)
            cur=[l]
        else: cur.append(l)
        # attach: doc comment or attribute or set_option in => next chunk joined
        if not incomment and l.startswith('/-') : 
            incomment = '-/' not in l
            isdoc=l.startswith('/--')
            if not incomment: attach=isdoc
            continue
        if incomment:
            if '-/' in l: incomment=False; attach=isdoc
            continue
        if start or attach:
            attach = bool(re.match(r'^(@\[[^\]]*\]|set_option .* in)\s*$',l))
    if cur: out.append(cur)
    return out
OPEN='([{⟨'; CLOSE=')]}⟩'
def proofstart(t):
    # skip docstring
    i=0
    m=re.search(r'^(?:private |noncomputable |protected )*(theorem|lemma|example|def|instance|abbrev)\b',t,re.M)
    if not m: return None
    i=m.end(); d=0
    while i<len(t):
        c=t[i]
        if c=='"':
            i+=1
            while t[i]!='"': i+=2 if t[i]=='\\' else 1
        elif c in OPEN: d+=1
        elif c in CLOSE: d-=1
        elif d==0 and t.startswith(':=',i) and not re.search(r'\blet [^\n]*$',t[:i]): return i
        elif d==0 and t.startswith('\n  | ',i): return i
        i+=1
    return None
def build(targets):
    r=subprocess.run(['lake','build']+targets,cwd=S,capture_output=True,text=True,timeout=3000)
    return r.returncode, r.stdout+r.stderr
def errs(out):
    e={}
    for m in re.finditer(r'^error: (Verif/\S+\.lean):(\d+):(\d+): (.*)$',out,re.M):
        e.setdefault(m[1],[]).append((int(m[2]),m[4]))
    return e
def sync():
    src={}
    for d,_,fs in os.walk(SRC+'/Verif'):
        for f in fs:
            if f.endswith('.lean'): src[os.path.relpath(os.path.join(d,f),SRC)]=1
    src['Verif.lean']=1
    for p in src:
        a=open(os.path.join(SRC,p)).read(); q=os.path.join(S,p); os.makedirs(os.path.dirname(q),exist_ok=True)
        if not os.path.exists(q) or open(q).read()!=a: open(q,'w').write(a)
    for d,_,fs in os.walk(S+'/Verif'):
        for f in fs:
            if f.endswith('.lean') and os.path.relpath(os.path.join(d,f),S) not in src: os.remove(os.path.join(d,f))
def patch(path,linenos,log):
    p=os.path.join(S,path); text=open(p).read(); cs=chunks(text)
    pos=1; changed=False; fatal=[]
    out=[]
    for c in cs:
        n=len(c); rng=range(pos,pos+n); hit=[l for l in linenos if l in rng]
        t='\n'.join(c)
        if hit:
            m=re.search(r'^(?:private |protected |noncomputable )*(theorem|lemma|example)\b\s*(\S*)',t,re.M)
            if m:
                if m[1]=='example':
                    log.append(path+':example'); 
                    t='\n'.join('' for _ in c)
                else:
                    ps=proofstart(t)
                    if ps is None or 'by sorry' in t[ps:ps+14]: fatal.append((path,m[2],hit))
                    else:
                        t=t[:ps]+':= by sorry\n'
                        log.append(m[2])
                changed=True
            else: fatal.append((path,t[:80],hit))
        out.append(t); pos+=n
    open(p,'w').write('\n'.join(out))
    return fatal
def ctheorems():
    names=[]
    for f in sorted(os.listdir(SRC+'/Verif/Props')):
        ns=None
        for l in open(SRC+'/Verif/Props/'+f):
            m=re.match(r'namespace (\S+)',l)
            if m: ns=m[1]
            m=re.match(r'(?:private |protected )?theorem (C\d\d\d?_\w+)',l)
            if m: names.append((ns+'.'+m[1],'Verif.Props.'+f[:-5]))
    return names
def run(mut):
    sync()
    for ed in mut['edits']:
        p=os.path.join(S,'Verif',ed['file']); t=open(p).read()
        if t.count(ed['old'])<1: return {'error':'pattern not found: '+ed['old']}
        k=ed.get('nth'); 
        if t.count(ed['old'])>1 and k is None: return {'error':'pattern ambiguous %d: %s'%(t.count(ed['old']),ed['old'])}
        if k is None: t=t.replace(ed['old'],ed['new'])
        else:
            parts=t.split(ed['old']); t=ed['old'].join(parts[:k+1])+ed['new']+ed['old'].join(parts[k+1:])
        open(p,'w').write(t)
    broken=[]; t0=time.time()
    allc=ctheorems()
    claims=set(re.findall(r'C\d\d\d?',mut['claim']))
    mods=sorted({m for n,m in allc if n.split('.')[-1].split('_')[0] in claims})
    names=[n for n,m in allc if m in mods]
    for it in range(40):
        rc,out=build(mods)
        e=errs(out)
        if rc==0: break
        if not e: return {'error':'build failed: '+out[-1500:],'broken':broken}
        fatal=[]
        for path,ls in e.items():
            fatal+=patch(path,[l for l,_ in ls],broken)
        if fatal:
            return {'error':'fatal '+str(fatal)+' '+str({p:l[:2] for p,l in e.items()})[:600],'broken':broken}
    chk=''.join('import %s\n'%m for m in mods)+'\n'.join('#print axioms %s'%n for n in names)
    open('/tmp/scratch/ax.lean','w').write(chk)
    r=subprocess.run(['lake','env','lean','/tmp/scratch/ax.lean'],cwd=S,capture_output=True,text=True)
    o=r.stdout+r.stderr
    o=re.sub(r'\n\s+',' ',o)
    failed=[]
    for m in re.finditer(r"'(\S+)' depends on axioms: \[([^\]]*)\]",o):
        if 'sorryAx' in m[2]: failed.append(m[1].split('.')[-1])
    return {'broken':broken,'modules':mods,'failed':failed,'iters':it+1,'time':round(time.time()-t0)}
if __name__=='__main__':
    muts=json.load(open(sys.argv[1])); only=sys.argv[3:] 
    done={}
    outp=sys.argv[2]
    if os.path.exists(outp):
        for l in open(outp): d=json.loads(l); done[d['id']]=1
    for m in muts:
        if m['id'] in done or (only and m['id'] not in only): continue
        try: r=run(m)
        except Exception as ex: r={'error':'exc '+repr(ex)}
        r['id']=m['id']
        open(outp,'a').write(json.dumps(r)+'\n')
        print(m['id'],r.get('error','ok')[:300],len(r.get('broken',[])),[x for x in r.get('failed',[])][:40],r.get('time'),flush=True)

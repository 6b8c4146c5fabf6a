import ast
src=open('/repo/src/pynmeagps/nmeatypes_decodes.py').read()
t=ast.parse(src)
def lit(s): return 'py!"%s"'%s
out=['''import Verif.Model.Values
/-!
# Model of the decode tables (/repo/src/pynmeagps/nmeatypes_decodes.py)

Generated by `tools/gen_decodes.py` from the source text. `d[key]` is modelled by `decodeInt`, `decodeStr` and
`decodePair` for the keys that attributes of messages can be: `int` and `str` (that Python also finds `1` under
`1.0` and `True` is left out).
-/
namespace Nmea
open Py
''']
for n in t.body:
    if not isinstance(n,ast.Assign): continue
    name=n.targets[0].id; d=n.value
    rows=[];kt=None
    for k,v in zip(d.keys,d.values):
        k=ast.literal_eval(k);v=ast.literal_eval(v)
        if isinstance(k,int): kt='Int';ks=str(k)
        elif isinstance(k,str): kt='Str';ks=lit(k)
        else: kt='(Str × Str)';ks='(%s, %s)'%(lit(k[0]),lit(k[1]))
        vs=lit(v) if isinstance(v,str) else '(%s, %s)'%(lit(v[0]),lit(v[1]))
        vt='Str' if isinstance(v,str) else '(Str × Str)'
        rows.append(f'({ks}, {vs})')
    al=''.join(f', also called `{x.id}`' for x in n.targets[1:])
    out.append(f'/-- `{name}`{al} (/repo/src/pynmeagps/nmeatypes_decodes.py:{n.lineno}-{n.end_lineno}). -/\ndef {name} : List ({kt} × {vt}) :=\n  ['+',\n   '.join(rows)+']\n')
out.append('''/-- `d[v]` for a dictionary with integer keys. -/
def decodeInt {α} (d : List (Int × α)) : PyVal → Except Err α
  | .int n => match d.lookup n with
    | some x => .ok x
    | none => .error .key
  | _ => .error .key

/-- `d[v]` for a dictionary with text keys. -/
def decodeStr {α} (d : List (Str × α)) : PyVal → Except Err α
  | .str s => match d.lookup s with
    | some x => .ok x
    | none => .error .key
  | _ => .error .key

/-- `d[(v, w)]` for a dictionary whose keys are pairs of texts. -/
def decodePair {α} (d : List ((Str × Str) × α)) : PyVal → PyVal → Except Err α
  | .str s, .str t => match d.lookup (s, t) with
    | some x => .ok x
    | none => .error .key
  | _, _ => .error .key

end Nmea''')
open('/verif/lean/Verif/Model/Decodes.lean','w').write('\n'.join(out)+'\n')

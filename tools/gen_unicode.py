"""Generates lean/Verif/Py/UnicodeData.lean from CPython 3.11's unicodedata (Unicode 14.0.0)."""
import unicodedata as u, sys
N = 0x110000
def ranges(pred):
    r=[]; lo=None
    for c in range(N+1):
        ok = c<N and pred(chr(c))
        if ok and lo is None: lo=c
        if not ok and lo is not None: r.append((lo,c-1)); lo=None
    return r
zeros=[c for c in range(N) if u.decimal(chr(c),None)==0]
for z in zeros:
    for i in range(10): assert u.decimal(chr(z+i))==i
assert sum(1 for c in range(N) if u.decimal(chr(c),None) is not None)==10*len(zeros)
spaces=[c for c in range(127,N) if chr(c).isspace()]
digit=ranges(str.isdigit); num=ranges(str.isnumeric)
up={}
for c in range(128,N):
    m=chr(c).upper()
    if m!=chr(c): up[c]=[ord(x) for x in m]
multi=[(c,m) for c,m in up.items() if len(m)>1]
single=[(c,m[0]) for c,m in up.items() if len(m)==1]
runs=[]  # (lo,hi,step,src-dst sign) 
for c,m in single:
    if runs:
        lo,hi,st,de=runs[-1]
        if m-c==de:
            if lo==hi and c-hi in (1,2): runs[-1]=(lo,c,c-hi,de); continue
            if lo!=hi and c-hi==st: runs[-1]=(lo,c,st,de); continue
    runs.append((c,c,1,m-c))
def fmt(xs,f,w=6):
    out=[]
    for i in range(0,len(xs),w): out.append("   "+", ".join(f(x) for x in xs[i:i+w]))
    return "[\n"+",\n".join(out)+"]"
o=f"""/-!
# Unicode tables (generated by tools/gen_unicode.py from CPython {sys.version.split()[0]}, Unicode {u.unidata_version})

Data used by `str.upper`, `str.isdigit`, `str.isnumeric`, and by `int()`/`float()` on non-ASCII text.
-/
namespace Py.Uni

/-- Code points of the digit zero of every decimal-digit block (general category Nd). -/
def decimalZeros : List Nat := {fmt(zeros,str,10)}

/-- Non-ASCII white space. -/
def spacesHi : List Nat := {fmt(spaces,str,10)}

/-- Closed ranges of characters for which `str.isdigit` holds. -/
def digitRanges : List (Nat × Nat) := {fmt(digit,lambda p:f"({p[0]}, {p[1]})")}

/-- Closed ranges of characters for which `str.isnumeric` holds. -/
def numericRanges : List (Nat × Nat) := {fmt(num,lambda p:f"({p[0]}, {p[1]})")}

/-- Single-character upper-case mappings above ASCII as runs `(lo, hi, step, delta)`. -/
def upperRuns : List (Nat × Nat × Nat × Int) := {fmt(runs,lambda p:f"({p[0]}, {p[1]}, {p[2]}, {p[3]})",4)}

/-- Multi-character upper-case mappings. -/
def upperMulti : List (Nat × List Nat) := {fmt(multi,lambda p:f"({p[0]}, {p[1]})",4)}

end Py.Uni
"""
open("/verif/lean/Verif/Py/UnicodeData.lean","w").write(o)
print(len(zeros),len(spaces),len(digit),len(num),len(runs),len(multi))

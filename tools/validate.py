"""Model validation: run the Lean model on the log files in /repo/tests and compare with the
expected strings written in the test sources (read as text; nothing of the project is run)."""
import ast, subprocess, os
T="/repo/tests"
NAMES={"GET":0,"SET":1,"POLL":2,"ERR_RAISE":2,"ERR_LOG":1,"ERR_IGNORE":0,"VALCKSUM":1,"VALNONE":0,"VALMSGID":2}
def val(n):
    if isinstance(n,ast.Constant): return int(n.value)
    if isinstance(n,ast.Name): return NAMES[n.id]
    if isinstance(n,ast.BinOp): return val(n.left)|val(n.right)
    raise ValueError(ast.dump(n))
os.chdir("/verif/lean")
tot=bad=0
for fn in ("test_stream.py","test_quectel.py"):
    tree=ast.parse(open(f"{T}/{fn}",encoding="utf-8").read())
    for f in ast.walk(tree):
        if not isinstance(f,ast.FunctionDef): continue
        exp=None;log=None;kw={}
        for n in ast.walk(f):
            if isinstance(n,ast.Assign) and isinstance(n.targets[0],ast.Name) and n.targets[0].id.startswith("EXPECTED_RESULT"):
                try: exp=ast.literal_eval(n.value)
                except Exception: pass
            if isinstance(n,ast.Constant) and isinstance(n.value,str) and n.value.endswith(".log"): log=n.value
            if isinstance(n,ast.Call) and isinstance(n.func,ast.Name) and n.func.id=="NMEAReader":
                for k in n.keywords:
                    try: kw[k.arg]=val(k.value)
                    except Exception as e: kw[k.arg]=None
        if not exp or not log or kw.get("userdefined",0) is None: 
            if log: print("skip",f.name,log,kw); 
            continue
        if isinstance(exp,str): exp=[exp]
        r=subprocess.run(["lake","env","lean","--run","../tools/run_model.lean.txt",f"{T}/{log}",str(kw.get("msgmode",0)),str(kw.get("validate",1)),str(kw.get("nmeaonly",0)),str(kw.get("quitonerror",1))],capture_output=True,text=True)
        out=r.stdout.split("\n")
        res=[l for l in out if not l.startswith(("LOG","END"))and l]
        nb=sum(1 for a,b in zip(res,exp) if a!=b)
        tot+=len(exp); bad+=nb+(max(0,len(exp)-len(res)))
        print(f.name,log,kw,len(exp),len(res),"mismatch",nb,[l for l in out if l.startswith(("LOG","END"))],r.stderr[:300])
        for a,b in zip(res,exp):
            if a!=b: print("  M",a[:300]); print("  E",b[:300])
print("total",tot,"bad",bad)

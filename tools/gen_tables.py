"""Generate lean/Verif/Model/Tables*.lean from the table literals of /repo (read as text with
the ast module; the project is never imported or executed). Run: python3 tools/gen_tables.py"""
import ast, os, re, sys
sys.path.insert(0, os.path.dirname(__file__))
import tables
SRC = tables.SRC
OUT = os.path.join(os.path.dirname(__file__), "..", "lean", "Verif", "Model")

def lit(s):
    return 'py!"' + s.replace("\\", "\\\\").replace('"', '\\"') + '"'

TY = set(tables.TYPES)

def pd(d):
    if not d:
        return ".nil"
    out = []
    for k, v in d.items():
        if isinstance(v, tuple):
            n, b = v
            if isinstance(n, int):
                rep = f"(.fixed {n})" if n >= 0 else f"(.fixed ({n}))"
            elif n == "None":
                rep = ".indet"
            else:
                rep = f"(.named {lit(n)})"
            out.append(f".group {lit(k)} {rep} ({pd(b)})")
        else:
            out.append(f".single {lit(k)} {v if v in TY else lit(v)}")
    return " <| ".join(out) + " <| .nil" 

def san(k):
    return re.sub(r"[^A-Za-z0-9_]", "_", k)

def entry_lines():
    """line range of each top-level dict entry of each table"""
    res = {}
    for fn in ["get", "get_prop", "poll", "poll_prop", "set", "set_prop"]:
        p = os.path.join(SRC, f"nmeatypes_{fn}.py")
        tree = ast.parse(open(p, encoding="utf-8").read())
        for st in tree.body:
            if isinstance(st, ast.Assign) and isinstance(st.value, ast.Dict):
                n = st.targets[0].id
                for k, v in zip(st.value.keys, st.value.values):
                    if isinstance(k, ast.Constant):
                        res[(n, k.value)] = (f"nmeatypes_{fn}.py", k.lineno, v.end_lineno)
    return res

HEAD = "/- Generated by tools/gen_tables.py from the source text of /repo/src/pynmeagps. -/\n"

def main():
    env, lines = tables.load()
    el = entry_lines()
    get = dict(env["NMEA_PAYLOADS_GET"])
    src = {k: "NMEA_PAYLOADS_GET" for k in get}
    # nmeatypes_get.py:1424  NMEA_PAYLOADS_GET.update / merge of the UNICORE block
    for k, v in env["NMEA_PAYLOADS_GET_UNICORE"].items():
        get[k] = v; src[k] = "NMEA_PAYLOADS_GET_UNICORE"
    full = {"GET": (get, src)}
    for t in ["GET_PROP", "POLL", "POLL_PROP", "SET", "SET_PROP"]:
        d = env["NMEA_PAYLOADS_" + t]
        full[t] = (d, {k: "NMEA_PAYLOADS_" + t for k in d})
    # core tables
    with open(os.path.join(OUT, "TablesCore.lean"), "w") as f:
        f.write("import Verif.Py.Base\n" + HEAD + "namespace Nmea\nopen Py\n\n")
        def c(n): 
            a = lines[n]; return f"/repo/src/pynmeagps/{a[0]}:{a[1]}-{a[2]}"
        f.write(f"/-- Keys of `NMEA_TALKERS` ({c('NMEA_TALKERS')}). -/\ndef NMEA_TALKERS : List Str := [\n  ")
        f.write(",\n  ".join(lit(k) for k in env["NMEA_TALKERS"]) + "]\n\n")
        for n in ("NMEA_MSGIDS", "NMEA_MSGIDS_PROP"):
            f.write(f"/-- `{n}` with descriptions ({c(n)}). -/\ndef {n} : List (Str × Str) := [\n  ")
            f.write(",\n  ".join(f"({lit(k)}, {lit(v)})" for k, v in env[n].items()) + "]\n\n")
        f.write(f"/-- `NMEA_PREFIX_PROP` ({c('NMEA_PREFIX_PROP')}). -/\ndef NMEA_PREFIX_PROP : List Str := [")
        f.write(", ".join(lit(k) for k in env["NMEA_PREFIX_PROP"]) + "]\n\nend Nmea\n")
    for t, (d, s) in full.items():
        nm = "Tables" + "".join(w.capitalize() for w in t.split("_"))
        with open(os.path.join(OUT, nm + ".lean"), "w") as f:
            f.write("import Verif.Model.Types\n" + HEAD + "namespace Nmea\nopen Py\n\n")
            names = []
            for k, v in d.items():
                a = el[(s[k], k)]
                n = f"{t}.{san(k)}"
                names.append(n)
                f.write(f"/-- `{s[k]}[\"{k}\"]` (/repo/src/pynmeagps/{a[0]}:{a[1]}-{a[2]}). -/\n")
                f.write(f"def {n} : PDict := {pd(v)}\n\n")
            a = lines["NMEA_PAYLOADS_" + t]
            extra = ", with the UNICORE block merged at nmeatypes_get.py:1424" if t == "GET" else ""
            f.write(f"/-- `NMEA_PAYLOADS_{t}` (/repo/src/pynmeagps/{a[0]}:{a[1]}-{a[2]}{extra}). -/\n")
            f.write(f"def NMEA_PAYLOADS_{t} : List (Str × PDict) := [\n  " if d else f"def NMEA_PAYLOADS_{t} : List (Str × PDict) := [")
            f.write(",\n  ".join(f"({lit(k)}, {n})" for k, n in zip(d, names)) + "]\n\nend Nmea\n")
            assert len(set(names)) == len(names)

main()

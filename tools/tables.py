"""Read the table literals of /repo/src/pynmeagps/nmeatypes_*.py as TEXT (ast only;
the project is never imported or executed)."""
import ast, os
SRC = "/repo/src/pynmeagps"
TYPES = {t: t for t in "CH DE DT DTL DM HX IN LA LAD LN LND QS ST TM".split()}

def ev(node, env):
    if isinstance(node, ast.Constant):
        return node.value
    if isinstance(node, ast.Name):
        return env[node.id]
    if isinstance(node, ast.Tuple):
        return tuple(ev(e, env) for e in node.elts)
    if isinstance(node, ast.Dict):
        d = {}
        for k, v in zip(node.keys, node.values):
            if k is None:
                d.update(ev(v, env))
            else:
                kk = ev(k, env)
                if kk in d:
                    DUPS.append((kk, node.lineno))
                d[kk] = ev(v, env)
        return d
    if isinstance(node, ast.Subscript):
        return ev(node.value, env)[ev(node.slice, env)]
    raise ValueError(ast.dump(node))

DUPS = []
def load():
    env = dict(TYPES)
    lines = {}
    for fn in ["core", "get", "get_prop", "poll", "poll_prop", "set", "set_prop"]:
        p = os.path.join(SRC, f"nmeatypes_{fn}.py")
        tree = ast.parse(open(p, encoding="utf-8").read())
        for st in tree.body:
            if isinstance(st, ast.Assign) and isinstance(st.targets[0], ast.Name):
                n = st.targets[0].id
                if n.startswith("NMEA_") and n != "NMEA_HDR" or n in ("VALID_TYPES",):
                    try:
                        env[n] = ev(st.value, env)
                    except Exception as e:
                        print("skip", n, e); continue
                    lines[n] = (f"nmeatypes_{fn}.py", st.lineno, st.end_lineno)
    return env, lines

if __name__ == "__main__":
    env, lines = load()
    for n, l in lines.items():
        print(n, l, len(env[n]) if hasattr(env[n], "__len__") else env[n])
    print("dups", DUPS)

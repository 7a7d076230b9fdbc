"""Writes lean/Verif/Data/Tables.lean: the hand-written name dictionaries and the constants of /repo, read as text."""
import ast, os
U = "/repo/UnicodeData/"
OUT = os.path.join(os.path.dirname(os.path.abspath(__file__)), "..", "lean", "Verif", "Data", "Tables.lean")

def value(x, env):
    if isinstance(x, ast.Constant):
        return x.value
    if isinstance(x, ast.Name):
        return env[x.id]
    if isinstance(x, ast.Tuple):
        return tuple(value(y, env) for y in x.elts)
    if isinstance(x, ast.UnaryOp) and isinstance(x.op, ast.USub):
        return -value(x.operand, env)
    if isinstance(x, ast.Call) and x.func.id == "U_MASK":
        return 1 << value(x.args[0], env)
    if isinstance(x, ast.BinOp):
        a, b = value(x.left, env), value(x.right, env)
        return {"Add": lambda: a + b, "Sub": lambda: a - b, "Mult": lambda: a * b, "LShift": lambda: a << b, "RShift": lambda: a >> b,
                "BitOr": lambda: a | b, "BitAnd": lambda: a & b}[type(x.op).__name__]()
    raise ValueError(ast.unparse(x))

def read(fname):
    env, dicts = {}, {}
    for n in ast.parse(open(U + fname).read()).body:
        if isinstance(n, ast.Assign) and isinstance(n.targets[0], ast.Name):
            if isinstance(n.value, ast.Dict):
                dicts[n.targets[0].id] = ([(value(k, env), value(v, env)) for k, v in zip(n.value.keys, n.value.values)], n.lineno, n.end_lineno)
            else:
                env[n.targets[0].id] = value(n.value, env)
    return env, dicts

def key(k):
    if isinstance(k, tuple):
        return ".tuple " + str(k[0])
    return ".int " + (str(k) if k >= 0 else "(%d)" % k)

HAND = ["Blocks", "Boundaries", "CharDirection", "DecompositionType", "EastAsianWidth", "GeneralCategories", "JoiningTypesAndGroups",
        "LayoutTypes", "Scripts"]
header = {**read("uchar_h.py")[0], **read("uscript_h.py")[0]}
out = []
rows = []
for f in HAND:
    env, dicts = read(f + ".py")
    for name, (entries, a, b) in dicts.items():
        body = ",\n  ".join('(%s, "%s")' % (key(k), v) for k, v in entries)
        out.append("/-- UnicodeData/%s.py:%d-%d `%s`. -/\ndef %s : List (Key × String) :=\n [%s]" % (f, a, b, name, name, body))
    for k, v in env.items():
        h = k if k in header else "U_" + k if f == "GeneralCategories" and "U_" + k in header else \
            "U_" + k[3:] if f == "GeneralCategories" else "U_" + k if "U_" + k in header else None
        if h in header:
            rows.append('("%s", %s, %s)' % (k, key(v), key(header[h])))
        else:
            print(f, k)
chunks = [rows[i:i + 64] for i in range(0, len(rows), 64)]
for i, c in enumerate(chunks):
    out.append("/-- Constants of the hand-written modules with their values there and in uchar_h.py or uscript_h.py, part %d. -/\n"
               "def constants%d : List (String × Key × Key) :=\n [%s]" % (i, i, ",\n  ".join(c)))
out.append("/-- UnicodeData/Blocks.py, Boundaries.py, CharDirection.py, DecompositionType.py, EastAsianWidth.py, GeneralCategories.py,\n"
           "JoiningTypesAndGroups.py, LayoutTypes.py and Scripts.py: the constants uchar_h.py and uscript_h.py define as well (the names of the\n"
           "header have the prefix `U_` in some cases). -/\n"
           "def constants : List (String × Key × Key) :=\n  %s" % " ++ ".join("constants%d" % i for i in range(len(chunks))))
with open(OUT, "w") as f:
    f.write("import Verif.Model.Dictionary\n/-!\n# The hand-written name dictionaries and constants\n\nGenerated by tools/gen_tables.py from the text of /repo.\n-/\n"
            "namespace Verif.Data.Hand\n\n" + "\n\n".join(out) + "\n\nend Verif.Data.Hand\n")
print(len(rows))

"""Writes lean/Verif/Data/Text.lean: the lines of the header modules and of UCDTypeDictionaries.py in /repo, and the constants of the header
modules with their values. Names are written as numbers like in Keys.lean, lines with the first character as the highest digit."""
import ast, os
U = "/repo/UnicodeData/"
OUT = os.path.join(os.path.dirname(os.path.abspath(__file__)), "..", "lean", "Verif", "Data", "Text.lean")

def num(s):
    return hex(int.from_bytes(s.encode("ascii"), "little"))

def line(s):
    """The characters of a line are written the other way round: the kernel hashes a number by its low bits, and lines begin alike."""
    return hex(int.from_bytes(s.encode("ascii"), "big"))

def value(e, names):
    """The value of an integer expression of these modules; None for a text."""
    if isinstance(e, ast.Constant):
        return e.value if isinstance(e.value, int) else None
    if isinstance(e, ast.Name):
        return names[e.id]
    if isinstance(e, ast.UnaryOp) and isinstance(e.op, ast.USub):
        return -value(e.operand, names)
    if isinstance(e, ast.Call) and e.func.id == "U_MASK":
        return 1 << value(e.args[0], names)
    l, r = value(e.left, names), value(e.right, names)
    return {ast.BitOr: l | r, ast.Add: l + r, ast.Sub: l - r, ast.Mult: l * r, ast.RShift: l >> max(r, 0)}[type(e.op)]

out = []
for f in ("ucase_h", "uprops_h", "uscript_h", "uchar_h", "UCDTypeDictionaries"):
    t = open(U + f + ".py").read()
    lines = t.split("\n")
    assert max(map(len, lines)) <= 128
    out.append("/-- UnicodeData/%s.py:1-%d the lines of the file. -/\ndef %s : List Nat :=\n [%s]" % (f, len(lines), f, ",\n  ".join(map(line, lines))))
    if f == "UCDTypeDictionaries":
        continue
    names = {}
    rows = []
    for n in ast.parse(t).body:
        if isinstance(n, ast.Assign):
            names[n.targets[0].id] = v = value(n.value, names)
            if v is not None:
                rows.append("(%s, %s)" % (num(n.targets[0].id), v if v >= 0 else "-%d" % -v))
    out.append("/-- UnicodeData/%s.py: the integer constants with their values. -/\ndef %sConstants : List (Nat × Int) :=\n [%s]" % (
        f, f[:-2], ",\n  ".join(rows)))
with open(OUT, "w") as g:
    g.write("import Verif.Model.Names\n/-!\n# Texts of modules\n\nGenerated by tools/gen_text.py from the text of /repo. Lines and names are written as numbers, see\nModel/Lines.lean and Model/Names.lean.\n-/\n"
            "namespace Verif.Data.Text\n\n" + "\n\n".join(out) + "\n\nend Verif.Data.Text\n")

"""Writes lean/Verif/Data/Keys.lean: the names of the constants that UCDTypeDictionaries.py uses as keys, and the names of the constants
of uchar_h.py and uscript_h.py, read as text. A name is written as a number: its characters are the digits to base 256, the first one is
the lowest."""
import ast, os
U = "/repo/UnicodeData/"
OUT = os.path.join(os.path.dirname(os.path.abspath(__file__)), "..", "lean", "Verif", "Data", "Keys.lean")

def codes(s):
    return hex(int.from_bytes(s.encode("ascii"), "little"))

def tree(l):
    """A balanced search tree."""
    if not l:
        return ".leaf"
    m = len(l) // 2
    return "(.node %s %s %s)" % (tree(l[:m]), hex(l[m]), tree(l[m + 1:]))

out = []
used = set()
names = []
for n in ast.parse(open(U + "UCDTypeDictionaries.py").read()).body:
    if isinstance(n, ast.Assign) and isinstance(n.value, ast.Dict):
        name = n.targets[0].id
        ks = [k.id for k in n.value.keys]
        used |= set(ks)
        names.append(name)
        out.append("/-- UnicodeData/UCDTypeDictionaries.py:%d-%d the names of the keys of `%s`: %s, ... -/\ndef %s : List Nat :=\n [%s]" % (
            n.lineno, n.end_lineno, name, ks[0], name, ",\n  ".join(codes(k) for k in ks)))
out.append("/-- UnicodeData/UCDTypeDictionaries.py: its dictionaries with the names of their keys, in the order of the file. -/\n"
           "def dictionaries : List (Str × List Nat) :=\n [%s]" % ",\n  ".join("(txt \"%s\", %s)" % (n, n) for n in names))
for f in ("uchar_h", "uscript_h"):
    consts = []
    for n in ast.parse(open(U + f + ".py").read()).body:
        if isinstance(n, ast.Assign) and isinstance(n.targets[0], ast.Name):
            consts.append(n.targets[0].id)
    missing = {c for c in used if c.startswith("USCRIPT") == (f == "uscript_h")} - set(consts)
    assert not missing, missing
    nums = sorted(int(codes(c), 16) for c in set(consts))
    out.append("/-- UnicodeData/%s.py: the names of the constants it assigns. -/\ndef %s : NameTree :=\n %s" % (
        f, "charHeader" if f == "uchar_h" else "scriptHeader", tree(nums).replace(") 0x", ")\n  0x")))
with open(OUT, "w") as g:
    g.write("import Verif.Model.Names\n/-!\n# Names of constants\n\nGenerated by tools/gen_keys.py from the text of /repo. A name is written as a number, see\nModel/Names.lean.\n-/\n"
            "namespace Verif.Data.Keys\n\n" + "\n\n".join(out) + "\n\nend Verif.Data.Keys\n")

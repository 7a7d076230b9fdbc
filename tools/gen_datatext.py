"""Writes lean/Verif/Data/DataText.lean: the lines of BidiPropsData.py, CasePropsData.py, CharPropsData.py and Norm2NFCData.py in /repo, and the
tables of these files that are not in the other modules of Data. A line is a number, its first character the highest digit."""
import os
from gen_data import t, sc
U = "/repo/UnicodeData/"
OUT = os.path.join(os.path.dirname(os.path.abspath(__file__)), "..", "lean", "Verif", "Data", "DataText.lean")

def line(s):
    return hex(int.from_bytes(s.encode("ascii"), "big"))

def main():
    out = []
    for f, name in (("BidiPropsData", "bidi"), ("CasePropsData", "case"), ("CharPropsData", "char"), ("Norm2NFCData", "nfc")):
        lines = open(U + f + ".py").read().split("\n")
        assert max(map(len, lines)) < 192
        # rows of numbers in pieces of 256 lines, counted from the beginning of the array, the other lines between them
        segs, start = [], 0
        while start < len(lines):
            row = lines[start].startswith("    ")
            end = start + 1
            while end < len(lines) and lines[end].startswith("    ") == row and not (row and end - start == 256):
                end += 1
            segs.append((start, end))
            start = end
        names = []
        for k, (a, b) in enumerate(segs):
            names.append("%sText%d" % (name, k))
            out.append("/-- UnicodeData/%s.py:%d-%d the lines. -/\ndef %s : List Nat :=\n [%s]" % (f, a + 1, b, names[-1], ",\n  ".join(map(line, lines[a:b]))))
        out.append("/-- UnicodeData/%s.py:1-%d all lines. -/\ndef %sText : List Nat :=\n %s" % (f, len(lines), name, " ++ (".join(names) + ")" * (len(names) - 1)))
        print(name, [(k, a, b) for k, (a, b) in enumerate(segs)])
    out += [t("caseIndexes", "CasePropsData.py", "ucase_props_indexes", 32), t("caseUnfold", "CasePropsData.py", "ucase_props_unfold", 16),
            t("nfcSmallFCD", "Norm2NFCData.py", "norm2_nfc_data_smallFCD", 8)]
    with open(OUT, "w") as g:
        g.write("import Verif.Model.Table\n/-!\n# Texts of the data modules\n\nGenerated by tools/gen_datatext.py from the text of /repo. Lines are written as numbers, see Model/Lines.lean;\n"
                "rows of tables hold 64 entries, least significant first.\n-/\nnamespace Verif.Data\n\nlocal notation \"l\" => Tree.leaf\nlocal notation \"n\" => Tree.node\n\n"
                + "\n\n".join(out) + "\n\nend Verif.Data\n")

if __name__ == "__main__":
    main()

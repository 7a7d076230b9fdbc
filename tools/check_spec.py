"""Compares the lists of the standard in lean/Verif/Spec with the Unicode 15.0 tables of Perl (ucd.pl).

Unicode 13.0 is what 15.0 says of the code points of age 13.0 or less, except for the changes listed here (CHANGED). A code
point that is not assigned in 13.0 has the default value (DEFAULT: those of the headers of the 13.0 files)."""
import os, re, subprocess
from fractions import Fraction

here = os.path.dirname(os.path.abspath(__file__))
spec = os.path.join(here, "..", "lean", "Verif", "Spec")
LAST = 0x10FFFF

def lean(name):
    """The definitions of a file as Python values."""
    text = open(os.path.join(spec, name + ".lean")).read()
    out = {}
    for m in re.finditer(r"^def (\w+) : List [^\n]*:=\n(.*?)(?=^\s*$)", text, re.M | re.S):
        body = m[2].replace("⟨", "(").replace("⟩", ")").replace("++", "+")
        out[m[1]] = eval("(" + body + ")", {}, dict(out))
    return out

binary = lean("BinarySets")["binarySets"]
derived = lean("DerivedSets")
names = [s[0] for s in binary + derived["derivedSets"]] + ["Noncharacter_Code_Point", "Bidi_Mirrored"]
tables, alias = {}, {}
for line in subprocess.run(["perl", os.path.join(here, "ucd.pl")] + names, capture_output=True, text=True, check=True).stdout.splitlines():
    f = line.split("\t")
    if f[0] == "alias":
        alias[f[1], f[4]] = f[5]
    else:
        tables.setdefault(f[0], []).append((int(f[2]), int(f[3]), f[4]))

def values(p):
    d = [None] * (LAST + 1)
    for a, b, v in tables[p]:
        for c in range(a, b + 1):
            d[c] = v
    return d

age = [0] * (LAST + 1)
for a, b, v in tables["Age"]:
    m = re.match(r"V?(\d+)[_.](\d+)", v)
    for c in range(a, b + 1):
        age[c] = int(m[1]) * 10 + int(m[2]) if m else 0
known = [0 < a <= 130 for a in age]

CHANGED = {
    "General_Category": {0x1734: "Mn"},
    "Bidi_Class": {0x1734: "NSM"},
    "Joining_Type": {0x1734: "T"},
    "Script": {0x16FE2: "Zyyy", 0x16FE3: "Zyyy"},
    "Line_Break": {0x1DCD: "CM", 0x1DFC: "CM", 0x2057: "AL"},
    "Sentence_Break": {0x10FC: "LE", 0xAB69: "LE"},
    "Grapheme_Cluster_Break": {0x1734: "EX", 0x11720: "SM", 0x11721: "SM"},
}
CJK = [(0x3400, 0x4DBF), (0x4E00, 0x9FFF), (0xF900, 0xFAFF), (0x20000, 0x2FFFD), (0x30000, 0x3FFFD)]
AL = [(0x600, 0x7BF), (0x860, 0x86F), (0x8A0, 0x8FF), (0xFB50, 0xFDCF), (0xFDF0, 0xFDFF), (0xFE70, 0xFEFF), (0x10D00, 0x10D3F), (0x10F30, 0x10F6F),
      (0x1EC70, 0x1ECBF), (0x1ED00, 0x1ED4F), (0x1EE00, 0x1EEFF)]
R = [(0x590, 0x5FF), (0x7C0, 0x85F), (0x870, 0x89F), (0xFB1D, 0xFB4F), (0x10800, 0x10CFF), (0x10D40, 0x10F2F), (0x10F70, 0x10FFF), (0x1E800, 0x1EC6F),
     (0x1ECC0, 0x1ECFF), (0x1ED50, 0x1EDFF), (0x1EF00, 0x1EFFF)]
IGNORABLE = [(0xFFF0, 0xFFF8), (0xE0000, 0xE0FFF)]
IGNORABLE1 = IGNORABLE + [(0x2065, 0x2065)]
DEFAULT = {
    "General_Category": ("Cn", []), "Script": ("Zzzz", []), "Grapheme_Cluster_Break": ("XX", [("CN", IGNORABLE1)]),
    "Word_Break": ("XX", []), "Sentence_Break": ("XX", []), "Decomposition_Type": ("none", []), "Joining_Type": ("U", []),
    "Joining_Group": ("No Joining Group", []),
    "East_Asian_Width": ("N", [("W", CJK)]),
    "Line_Break": ("XX", [("ID", CJK + [(0x1F000, 0x1FAFF), (0x1FC00, 0x1FFFD)]), ("PR", [(0x20A0, 0x20CF)])]),
    "Bidi_Class": ("L", [("BN", IGNORABLE1), ("AL", AL), ("R", R), ("ET", [(0x20A0, 0x20CF)])]),
}
DT = {"circle": "enc", "canonical": "can", "compat": "com", "final": "fin", "fraction": "fra", "initial": "init", "isolated": "iso",
      "medial": "med", "narrow": "nar", "nobreak": "nb", "small": "sml", "square": "sqr", "super": "sup", "vertical": "vert"}
TAILORED = {"perl tailored hspace": None, "extpict xx": "xx", "extpict le": "le"}

def norm(p, v):
    v = alias.get((p, v), v).lower().replace("_", " ")
    return DT.get(v, v) if p == "Decomposition_Type" else v

def standard(p):
    """The value of every code point in 13.0, in lower case."""
    d, (rest, special) = values(p), DEFAULT[p]
    out = []
    for c in range(LAST + 1):
        if c in CHANGED.get(p, {}):
            v = CHANGED[p][c]
        elif known[c]:
            v = d[c]
        else:
            v = next((v for v, rs in special if any(a <= c <= b for a, b in rs)), rest)
        v = norm(p, v)
        if p in ("Word_Break", "Grapheme_Cluster_Break"):
            # Perl's own classes: horizontal space and extended pictographic
            v = TAILORED.get(v, v)
            if v is None:
                v = "wsegspace" if c in (0x20, 0x1680, 0x205F, 0x3000) or 0x2000 <= c <= 0x200A and c != 0x2007 else "xx"
        out.append(v)
    return out

bad = 0
def report(what, cs):
    global bad
    if cs:
        bad += 1
        print("DIFFERENT", what, [c if isinstance(c, str) else hex(c) for c in cs[:20]], len(cs))
    else:
        print("same", what)

def spread(runs, default):
    d = [default] * (LAST + 1)
    for a, b, v in runs:
        for c in range(a, b + 1):
            d[c] = v
    return d

std = {p: standard(p) for p in DEFAULT}
for f, p, t, default in (("CategoryMap", "General_Category", "category", 0), ("ScriptMap", "Script", "script", 103),
        ("ClusterMaps", "Grapheme_Cluster_Break", "grapheme", 0), ("ClusterMaps", "Word_Break", "word", 0),
        ("SentenceMap", "Sentence_Break", "sentence", 0), ("LineMap", "Line_Break", "line", 0),
        ("WidthMaps", "East_Asian_Width", "width", 0), ("WidthMaps", "Decomposition_Type", "decomposition", 0),
        ("BidiMaps", "Bidi_Class", "class", 0), ("BidiMaps", "Joining_Type", "joining", 0), ("BidiMaps", "Joining_Group", "group", 0)):
    L = lean(f)
    legend = {k: v.lower().replace("_", " ") for k, v in L[t + "Legend"]}
    mine = spread(L[t + "Runs"], default)
    report(p, [c for c in range(LAST + 1) if legend[mine[c]] != std[p][c]])

report("Age", [c for c, v in enumerate(spread(lean("AgeMap")["ageRuns"], 0)) if v != (age[c] // 10 * 10 + age[c] % 10 if known[c] else 0)])

L = lean("NumericMap")
mine = spread(L["numericRuns"], 0)
kind = values("Numeric_Type")
number = {}
for a, b, v in tables["Numeric_Value"]:
    if v != "NaN":
        for c in range(a, b + 1):
            number[c] = Fraction(v) + (c - a)
def numeric(c):
    k = {"None": 0, "Decimal": 1, "Digit": 2, "Numeric": 3, "De": 1, "Di": 2, "Nu": 3}[kind[c]] if known[c] else 0
    return (k, number[c].numerator, number[c].denominator) if k else None
report("Numeric_Value", [c for c in range(LAST + 1) if (L["numericValues"][mine[c] - 1] if mine[c] else None) != numeric(c)])

def members(ranges):
    return {c for a, b in ranges for c in range(a, b + 1)}

# Properties that include unassigned code points; the same in 13.0 and 15.0.
OPEN = {"Noncharacter_Code_Point", "Default_Ignorable_Code_Point", "Pattern_Syntax", "Extended_Pictographic"}
# Code points that were in the set in 13.0 but are not in 15.0, and the other way.
CHANGED_SETS = {"Default_Ignorable_Code_Point": {0x180F}, "Alphabetic": {0xC04, 0xF82, 0xF83, 0x11080, 0x11081},
    "Diacritic": {0x1714, 0x1ABE, 0x1DFB, 0x1DFC, 0x11046}, "Grapheme_Extend": {0x1734}, "Grapheme_Base": {0x1734}}
# Deprecated and no longer in Perl: the code points of combining class 9.
tables["Grapheme_Link"] = [(a, b, "Y") for a, b, v in tables["Canonical_Combining_Class"] if v in ("Virama", "9", "VR")]
for s in binary + derived["derivedSets"] + [("Noncharacter_Code_Point", 1, 12, derived["noncharacterCodePointRanges"])]:
    perl = {c for a, b, v in tables.get(s[0], []) for c in range(a, b + 1) if known[c] or s[0] in OPEN}
    report(s[0], sorted(members(s[3]) ^ perl ^ CHANGED_SETS.get(s[0], set())))

L = lean("CategorySets")
for sets, p in ((L["categorySets"], "General_Category"), (L["bidiSets"], "Bidi_Class")) + tuple(
        (lean("BreakSets")[t + "Sets"], p) for t, p in (("grapheme", "Grapheme_Cluster_Break"), ("word", "Word_Break"),
        ("sentence", "Sentence_Break"), ("line", "Line_Break"), ("width", "East_Asian_Width"), ("decomposition", "Decomposition_Type"))):
    for n, rs in sets:
        m = members(rs)
        report(p + " " + n, [c for c in range(LAST + 1) if (c in m) != (std[p][c] == n.lower())])
bpt = values("Bidi_Paired_Bracket_Type")
for n, t in (("openBrackets", ("O", "o")), ("closeBrackets", ("C", "c"))):
    m = members(L[n])
    report(n, [c for c in range(LAST + 1) if (c in m) != (known[c] and bpt[c] in t)])

# Blocks: the ranges are compared, without the names. A block with a code point of 13.0 is a block of 13.0.
blocks = {(a, b) for a, b, v in tables["Block"] if v not in ("No_Block", "NB") and any(known[a:b + 1])}
CHANGED_BLOCKS = {0x1174F: 0x1173F, 0x1345F: 0x1343F, 0x18D7F: 0x18D8F}
blocks = {(a, CHANGED_BLOCKS.get(b, b)) for a, b in blocks}
mine = {(a, b) for n, a, b in lean("Blocks")["blockRanges"]}
report("Block", sorted(a for a, b in blocks ^ mine))

L = lean("CaseMaps")
for k, p in (("Lower", "Lowercase"), ("Upper", "Uppercase"), ("Title", "Titlecase")):
    perl, full = {}, {}
    for a, b, v in tables["Simple_" + p + "_Mapping"]:
        if v != "0":
            perl.update({c: int(v) + c - a for c in range(a, b + 1) if known[c]})
    for a, b, v in tables[p + "_Mapping"]:
        if v.startswith("["):
            full.update({c: [int(x) for x in v[1:-1].split()] for c in range(a, b + 1) if known[c]})
    mine = {c: t + c - a for g in L["simple" + k] for a, b, s, t in g for c in range(a, b + 1, s)}
    report("simple " + p, [c for c in range(LAST + 1) if mine.get(c, c) != perl.get(c, c)])
    report("special " + p, [c for c in range(LAST + 1) if dict(L["special" + k]).get(c) != full.get(c)])

L = lean("Mirrors")
mirrored = {c for a, b, v in tables["Bidi_Mirrored"] for c in range(a, b + 1) if known[c]}
report("Bidi_Mirrored", sorted(members(L["mirroredRanges"]) ^ mirrored))
glyph = {c: int(v) for a, b, v in tables["Bidi_Mirroring_Glyph"] if v for c in range(a, b + 1) if known[c]}
report("Bidi_Mirroring_Glyph", [c for c in range(LAST + 1) if dict(L["mirroringGlyphs"]).get(c) != glyph.get(c)])
other = values("Bidi_Paired_Bracket")
pairs = {(c, int(other[c])) for c in range(LAST + 1) if known[c] and bpt[c] in ("O", "o")}
report("Bidi_Paired_Bracket", sorted(a for a, b in pairs ^ set(L["bracketPairs"])))

L = lean("Decompositions")
mine = dict(e for g in L["decompositionGroups"] for e in g)
canonical = values("Decomposition_Type")
perl = {}
for a, b, v in tables["Decomposition_Mapping"]:
    for c in range(a, b + 1):
        if known[c] and canonical[c].lower() in ("canonical", "can") and not 0xAC00 <= c <= 0xD7A3:
            # a single number stands for a run of code points with successive mappings
            perl[c] = [int(x) for x in v[1:-1].split()] if v.startswith("[") else [int(v) + c - a]
report("Decomposition_Mapping", sorted(c for c in set(mine) | set(perl) if mine.get(c) != perl.get(c)))
excluded = {c for a, b, v in tables["Full_Composition_Exclusion"] if v in ("Y", "Yes") for c in range(a, b + 1) if len(perl.get(c, [])) == 2}
report("Composition exclusions", sorted(excluded ^ set(L["compositionExclusions"])))
classes = values("Canonical_Combining_Class")
report("Canonical_Combining_Class", [c for c, v in enumerate(spread(L["combiningRuns"], 0)) if v != (int(classes[c]) if known[c] else 0)])

L = lean("ValueNames")
out = subprocess.run(["perl", "-MUnicode::UCD=prop_values,prop_value_aliases,charblocks", "-e", """
for my $p (qw(gc bc jt jg GCB WB SB lb ea dt sc)) { print join("\t", $p, prop_value_aliases($p, $_)), "\n" for prop_values($p) }
my $b = charblocks();
for my $n (keys %$b) { print join("\t", "blk", $_->[0], $_->[1], prop_value_aliases("blk", $n)), "\n" for @{$b->{$n}} }
"""], capture_output=True, text=True, check=True).stdout
rows = [line.split("\t") for line in out.splitlines()]
for p, name in (("gc", "category"), ("bc", "class"), ("jt", "joining"), ("jg", "group"), ("GCB", "grapheme"), ("WB", "word"), ("SB", "sentence"),
                ("lb", "line"), ("ea", "width"), ("dt", "decomposition"), ("sc", "script")):
    long = {(r[1].lower() if p == "dt" else r[1].replace("_", " ")): r[2] for r in rows if r[0] == p and len(r) > 2}
    if p == "sc":
        long["Hrkt"] = "Katakana_Or_Hiragana"  # no code point has this value, and Perl does not list it
    report("names " + p, [s for s, l in L[name + "Aliases"] if long.get(s) != l])
RESIZED = {0x11700, 0x13430, 0x18D00}  # blocks with another end in 15.0
perl = {int(r[1]): (int(r[2]), r[3].replace("_", " "), r[4]) for r in rows if r[0] == "blk" and r[3] != "NB"}
report("blocks", [a for a, b, s, l in L["blocks"] if perl.get(a, ())[1:] != (s, l) or perl[a][0] != b and a not in RESIZED])
print(bad, "differences")

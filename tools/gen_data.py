"""Writes lean/Verif/Data/*.lean from the numeric tables of /repo (read as text)."""
import os
from tables import table, scalar, consts, dictionary

OUT = os.path.join(os.path.dirname(os.path.abspath(__file__)), "..", "lean", "Verif", "Data")
ROW = 64

def tree(rows):
    if len(rows) == 1:
        return "(l 0x%x)" % rows[0]
    h = len(rows) // 2
    return "(n " + tree(rows[:h]) + "\n " + tree(rows[h:]) + ")"

def emit_table(name, nums, bits, cite, extra=0):
    assert all(0 <= x < 1 << bits for x in nums), name
    rows = []
    for i in range(0, len(nums), ROW):
        w = 0
        for j, x in enumerate(nums[i:i + ROW]):
            w |= x << (bits * j)
        rows.append(w)
    depth = 0
    while 1 << depth < len(rows):
        depth += 1
    rows += [0] * ((1 << depth) - len(rows))
    # sub-trees of 64 rows each are separate definitions
    out = []
    CH = 64
    if len(rows) <= CH:
        top = tree(rows)
    else:
        names = []
        for k in range(0, len(rows), CH):
            nm = "%s_rows%d" % (name, k // CH)
            names.append(nm)
            out.append("/-- Rows %d..%d of `%s`. -/\ndef %s : Tree :=\n %s" % (k, k + CH - 1, name, nm, tree(rows[k:k + CH])))
        def comb(ns):
            if len(ns) == 1:
                return ns[0]
            h = len(ns) // 2
            return "(n " + comb(ns[:h]) + " " + comb(ns[h:]) + ")"
        top = comb(names)
    out.append("/-- %s: %d entries of %d bits. -/\ndef %s : Table :=\n { size := %d, bits := %d, depth := %d, rows := %s }"
               % (cite, len(nums), bits, name, len(nums), bits, depth, top))
    return "\n\n".join(out)

def write(mod, doc, parts):
    os.makedirs(OUT, exist_ok=True)
    with open(os.path.join(OUT, mod + ".lean"), "w") as f:
        f.write("import Verif.Model.Table\n/-!\n# %s\n\nGenerated by tools/gen_data.py from the text of /repo. Rows hold %d entries, least significant first.\n-/\n" % (doc, ROW))
        f.write("namespace Verif.Data\n\nlocal notation \"l\" => Tree.leaf\nlocal notation \"n\" => Tree.node\n\n")
        f.write("\n\n".join(parts))
        f.write("\n\nend Verif.Data\n")

def t(name, fname, sym, bits):
    nums, (a, b) = table(fname, sym)
    return emit_table(name, nums, bits, "UnicodeData/%s:%d-%d `%s`" % (fname, a, b, sym))

def sc(name, fname, sym):
    v, line = scalar(fname, sym)
    return "/-- UnicodeData/%s:%d `%s`. -/\ndef %s : Nat := 0x%x" % (fname, line, sym, name, v)

def trie(prefix, fname, sym, pre):
    return [t(prefix + "Index", fname, sym, 16)] + [
        sc(prefix + a, fname, pre + b) for a, b in [
            ("IndexLength", "index_length"), ("Index2NullOffset", "index_2_null_offset"),
            ("DataNullOffset", "data_null_offset"), ("HighStart", "high_start"), ("HighValueIndex", "high_value_index")]]

def names(name, sym, env):
    d, (a, b) = dictionary("UCDTypeDictionaries.py", sym, env)
    body = ",\n  ".join("(%d, \"%s\")" % kv for kv in d)
    return "/-- UnicodeData/UCDTypeDictionaries.py:%d-%d `%s`, keys resolved with uchar_h.py and uscript_h.py. -/\ndef %s : List (Nat × String) :=\n [%s]" % (a, b, sym, name, body)

def main():
    write("Bidi", "Tables of `UnicodeData/BidiPropsData.py`",
        trie("bidi", "BidiPropsData.py", "ubidi_props_trieIndex", "ubidi_props_trie_") + [
        t("bidiMirrors", "BidiPropsData.py", "ubidi_props_mirrors", 32),
        t("bidiJg1", "BidiPropsData.py", "ubidi_props_jgArray", 8),
        t("bidiJg2", "BidiPropsData.py", "ubidi_props_jgArray2", 8),
        t("bidiIndexes", "BidiPropsData.py", "ubidi_props_indexes", 32),
    ])
    write("Case", "Tables of `UnicodeData/CasePropsData.py` and `flagsOffset` of `UnicodeData/CaseProps.py`",
        trie("case", "CasePropsData.py", "ucase_props_trieIndex", "ucase_props_trie_") + [
        t("caseExceptions", "CasePropsData.py", "ucase_props_exceptions", 16),
        t("caseFlagsOffset", "CaseProps.py", "flagsOffset", 8),
    ])
    write("CharProps", "Tables of `UnicodeData/CharPropsData.py`",
        trie("props", "CharPropsData.py", "propsTrie_index", "propsTrie_") +
        trie("propsVectors", "CharPropsData.py", "propsVectorsTrie_index", "propsVectorsTrie_") + [
        t("propsVectorsTable", "CharPropsData.py", "propsVectors", 32),
        sc("propsVectorsColumns", "CharPropsData.py", "propsVectorsColumns"),
        t("scriptExtensions", "CharPropsData.py", "scriptExtensions", 16),
    ])
    write("Norm2", "Tables of `UnicodeData/Norm2NFCData.py`", [
        t("nfcTrieIndex", "Norm2NFCData.py", "norm2_nfc_data_trieIndex", 16),
        t("nfcTrieData", "Norm2NFCData.py", "norm2_nfc_data_trieData", 16),
        t("nfcExtraData", "Norm2NFCData.py", "norm2_nfc_data_extraData", 16),
        t("nfcIndexes", "Norm2NFCData.py", "norm2_nfc_data_indexes", 32)] + [
        sc("nfc" + b[0].upper() + b[1:], "Norm2NFCData.py", "norm2_nfc_data_" + b) for b in
            ("highStart", "shifted12HighStart", "type", "valueWidth", "index3NullOffset", "dataNullOffset")])
    env = consts("uchar_h.py", "uscript_h.py")
    write("Names", "Name dictionaries of `UnicodeData/UCDTypeDictionaries.py`", [names(n, n, env) for n in (
        "bidiClassNames blockNames decompositionTypeNames eastAsianWidthNames generalCategoryNames "
        "graphemeClusterBreakNames hangulSyllableTypeNames indicPositionalCategoryNames indicSyllabicCategoryNames "
        "joiningGroupNames joiningTypeNames lineBreakNames numberTypeNames sentenceBreakNames scriptNames "
        "verticalOrientationNames wordBreakNames").split()])

if __name__ == "__main__":
    main()

/-! # Groups of general categories

The letters in the name of a mask say which categories it stands for: two letters a category, one letter the categories whose
names begin with it, and LC the cased letters.
-/
namespace Verif.Uchar.Spec

/-- The groups of general categories of the standard (UAX #44, table 12), by the letters used in the names of masks. -/
def categoryGroups : List (String × List String) := [
  ("CN", ["Cn"]), ("LU", ["Lu"]), ("LL", ["Ll"]), ("LT", ["Lt"]), ("LM", ["Lm"]), ("LO", ["Lo"]), ("MN", ["Mn"]), ("ME", ["Me"]),
  ("MC", ["Mc"]), ("ND", ["Nd"]), ("NL", ["Nl"]), ("NO", ["No"]), ("ZS", ["Zs"]), ("ZL", ["Zl"]), ("ZP", ["Zp"]), ("CC", ["Cc"]),
  ("CF", ["Cf"]), ("CO", ["Co"]), ("CS", ["Cs"]), ("PD", ["Pd"]), ("PS", ["Ps"]), ("PE", ["Pe"]), ("PC", ["Pc"]), ("PO", ["Po"]),
  ("SM", ["Sm"]), ("SC", ["Sc"]), ("SK", ["Sk"]), ("SO", ["So"]), ("PI", ["Pi"]), ("PF", ["Pf"]),
  ("L", ["Lu", "Ll", "Lt", "Lm", "Lo"]), ("LC", ["Lu", "Ll", "Lt"]), ("M", ["Mn", "Mc", "Me"]), ("N", ["Nd", "Nl", "No"]),
  ("Z", ["Zs", "Zl", "Zp"]), ("C", ["Cc", "Cf", "Cs", "Co", "Cn"]), ("P", ["Pc", "Pd", "Ps", "Pe", "Pi", "Pf", "Po"]),
  ("S", ["Sm", "Sc", "Sk", "So"])]

end Verif.Uchar.Spec

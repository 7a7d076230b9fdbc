import Verif.Model.Csv
/-! # Specification of files with fields between semicolons -/
namespace Verif.Csv.Spec

/-- A field of such a file: neither a semicolon nor the end of a line in it, and no quotation mark at its beginning. -/
def PlainField (f : Str) : Prop := (∀ c ∈ f, c ≠ 59 ∧ c ≠ 10 ∧ c ≠ 13) ∧ f.head? ≠ some 34

/-- The text of a line with some fields. -/
def lineText : List Str → Str
  | [] => []
  | [f] => f
  | f :: fs => f ++ 59 :: lineText fs

/-- Ends of lines. -/
def IsEnd (e : Str) : Prop := e = [10] ∨ e = [13, 10]

/-- A file of lines, each with its fields and its end, and a last line without an end. -/
def fileText : List (List Str × Str) → List Str → Str
  | [], last => lineText last
  | (fs, e) :: rest, last => lineText fs ++ e ++ fileText rest last

/-- The row of a line: its fields, and no fields for an empty line. -/
def row (fs : List Str) : List Str := if lineText fs = [] then [] else fs

end Verif.Csv.Spec

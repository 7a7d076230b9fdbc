import Verif.Spec.Csv
/-! # Specification of files some of whose fields are between quotation marks -/
namespace Verif.Csv.Spec

/-- A text with its quotation marks doubled. -/
def doubled : Str → Str
  | [] => []
  | c :: s => if c = 34 then 34 :: 34 :: doubled s else c :: doubled s

/-- A field: written as it is, or between quotation marks. -/
inductive Field
  | plain (f : Str)
  | quoted (f : Str)
  deriving DecidableEq, Repr

/-- How a field is written. -/
def Field.text : Field → Str
  | .plain f => f
  | .quoted f => 34 :: doubled f ++ [34]

/-- What a field says. -/
def Field.value : Field → Str
  | .plain f => f
  | .quoted f => f

/-- Between quotation marks everything can be written. -/
def Field.Ok : Field → Prop
  | .plain f => PlainField f
  | .quoted _ => True

/-- The text of a line. -/
def fieldsText (fs : List Field) : Str := lineText (fs.map Field.text)

/-- The text of some lines, each with its fields and its end. -/
def linesText : List (List Field × Str) → Str
  | [] => []
  | (fs, e) :: rest => fieldsText fs ++ e ++ linesText rest

/-- The row of a line: what its fields say, and no fields for an empty line. -/
def fieldsRow (fs : List Field) : List Str := if fieldsText fs = [] then [] else fs.map Field.value

end Verif.Csv.Spec

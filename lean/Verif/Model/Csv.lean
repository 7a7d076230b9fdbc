import Verif.Model.PyStr
/-!
# The reader of Python's `csv` module as `UCDReader.py` uses it

UCDReader.py:155-156: the file is opened with `newline=""`, so that its lines end with a line feed, a carriage return or both, which stay;
`csv.reader(file, delimiter=";")` has the quotation mark `"` (doubled inside a quoted field), no escape character, and is not
strict. The model follows the state machine of CPython's `_csv.c`, of which nothing is in `/repo`. The limit of 131072 characters in a field
and the refusal of NUL characters in older versions are left out.
-/
namespace Verif.Csv

/-- The lines of a text file that was opened with `newline=""`. -/
def fileLines : Str → List Str
  | [] => []
  | c :: cs =>
    if c = 10 then [c] :: fileLines cs
    else if c = 13 then
      match cs with
      | 10 :: cs' => [13, 10] :: fileLines cs'
      | cs => [13] :: fileLines cs
    else
      match fileLines cs with
      | [] => [[c]]
      | l :: ls => (c :: l) :: ls

/-- The states of the parser (`ParserState` in `_csv.c`) that can occur without an escape character. -/
inductive State
  | startRecord | startField | inField | inQuotedField | quoteInQuotedField | eatCrnl
  deriving DecidableEq, Repr

/-- The parser: `self->state`, `self->field` and `self->fields`. -/
structure Parser where
  state : State
  field : Str
  fields : List Str
  deriving DecidableEq, Repr

/-- `parse_reset`. -/
def Parser.start : Parser := ⟨.startRecord, [], []⟩

/-- `parse_save_field`. -/
def Parser.save (p : Parser) (s : State) : Parser := ⟨s, [], p.fields ++ [p.field]⟩
/-- `parse_add_char`. -/
def Parser.add (p : Parser) (c : Nat) (s : State) : Parser := { p with field := p.field ++ [c], state := s }

/-- The end of a line as an event, and the characters. -/
def isEnd : Option Nat → Bool
  | none => true
  | some c => c == 10 || c == 13

/-- The state after a field that an end of line has closed. -/
def afterEnd : Option Nat → State
  | none => .startRecord
  | some _ => .eatCrnl

/-- `case START_FIELD` of `parse_process_char`. -/
def startField (p : Parser) (c : Option Nat) : Parser :=
  if isEnd c then p.save (afterEnd c)
  else
    match c with
    | none => p
    | some c =>
      if c = 34 then { p with state := .inQuotedField }
      else if c = 59 then p.save .startField
      else p.add c .inField

/-- `parse_process_char`; `none` is the end of a line, and the result `none` is `csv.Error`. -/
def process (p : Parser) (c : Option Nat) : Option Parser :=
  match p.state with
  | .startRecord =>
    match c with
    | none => some p
    | some d => if d = 10 ∨ d = 13 then some { p with state := .eatCrnl } else some (startField p c)
  | .startField => some (startField p c)
  | .inField =>
    if isEnd c then some (p.save (afterEnd c))
    else
      match c with
      | none => some p
      | some c => if c = 59 then some (p.save .startField) else some (p.add c .inField)
  | .inQuotedField =>
    match c with
    | none => some p
    | some c => if c = 34 then some { p with state := .quoteInQuotedField } else some (p.add c .inQuotedField)
  | .quoteInQuotedField =>
    if isEnd c then some (p.save (afterEnd c))
    else
      match c with
      | none => some p
      | some c =>
        if c = 34 then some (p.add c .inQuotedField)
        else if c = 59 then some (p.save .startField)
        else some (p.add c .inField)
  | .eatCrnl =>
    match c with
    | none => some { p with state := .startRecord }
    | some c => if c = 10 ∨ c = 13 then some p else none

/-- The inner loop of `Reader_iternext`: the characters of a line and its end. -/
def processLine (p : Parser) (line : Str) : Option Parser := do
  let p ← line.foldlM (fun p c => process p (some c)) p
  process p none

/-- All rows: `Reader_iternext` again and again. -/
def readRows (p : Parser) : List Str → Option (List (List Str))
  | [] => if p.field ≠ [] ∨ p.state = .inQuotedField then some [p.fields ++ [p.field]] else some []
  | line :: lines => do
    let p ← processLine p line
    if p.state = .startRecord then
      let rows ← readRows .start lines
      return p.fields :: rows
    else readRows p lines

/-- UCDReader.py:155-156 and 159: the rows of a file; `none` is `csv.Error`. -/
def rows (text : Str) : Option (List (List Str)) := readRows .start (fileLines text)

end Verif.Csv

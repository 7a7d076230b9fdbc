import Verif.Spec.UCDReader
/-!
# Specification: a Python text of dictionaries

A reader for the small part of Python that a text of assignments `name = {name: "text", …}` needs. A text literal with a backslash or the
end of a line in it is outside this part and refused.
-/
namespace Verif.UCDReader.Spec

/-- White space between the parts: spaces and line feeds. -/
def isBlank (c : Nat) : Bool := c == 32 || c == 10

/-- The characters of a name: letters, digits and the underscore of ASCII. -/
def isNameChar (c : Nat) : Bool := (65 ≤ c && c ≤ 90) || (97 ≤ c && c ≤ 122) || (48 ≤ c && c ≤ 57) || c == 95

/-- A name, and what follows it. -/
def readName (s : Str) : Option (Str × Str) :=
  let n := s.takeWhile isNameChar
  match n with
  | [] => none
  | c :: _ => if 48 ≤ c ∧ c ≤ 57 then none else some (n, s.dropWhile isNameChar)

/-- A text literal between quotation marks, without its opening mark, and what follows it. -/
def readText : Str → Option (Str × Str)
  | [] => none
  | c :: s =>
    if c = 34 then some ([], s)
    else if c = 92 ∨ c = 10 ∨ c = 13 then none
    else (readText s).map (fun p => (c :: p.1, p.2))

/-- An entry `name: "text"`, and what follows it. -/
def readEntry (s : Str) : Option ((Str × Str) × Str) := do
  let (k, s) ← readName (s.dropWhile isBlank)
  match s with
  | 58 :: s =>
    match s.dropWhile isBlank with
    | 34 :: s =>
      let (v, s) ← readText s
      some ((k, v), s)
    | _ => none
  | _ => none

/-- The entries up to the closing brace, at most `n` of them, and what follows it. -/
def readEntries : Nat → Str → Option (List (Str × Str) × Str)
  | 0, _ => none
  | n + 1, s =>
    match s.dropWhile isBlank with
    | 125 :: s => some ([], s)
    | _ => do
      let (e, s) ← readEntry s
      match s.dropWhile isBlank with
      | 125 :: s => some ([e], s)
      | 44 :: s =>
        let (es, s) ← readEntries n s
        some (e :: es, s)
      | _ => none

/-- The assignments up to the end, at most `n` of them. -/
def readAssignments : Nat → Str → Option (List (Str × List (Str × Str)))
  | 0, _ => none
  | n + 1, s =>
    match s.dropWhile isBlank with
    | [] => some []
    | s => do
      let (name, s) ← readName s
      match s.dropWhile isBlank with
      | 61 :: s =>
        match s.dropWhile isBlank with
        | 123 :: s =>
          let (es, s) ← readEntries s.length s
          let ds ← readAssignments n s
          some ((name, es) :: ds)
        | _ => none
      | _ => none

/-- The dictionaries of a text: their names and entries in order; `none` if it is not of this form. -/
def readDictionaries (s : Str) : Option (List (Str × List (Str × Str))) := readAssignments (s.length + 1) s

/-- The entry for a value row of the given type: the constant and its short name. -/
def rowEntry (upper lower : Str → Str) (type : Str) (row : List Str) : Option (Str × Str) :=
  match row with
  | k :: type' :: shortName :: longName :: _ =>
    if k = txt "value" ∧ type' = type then
      match prefixes.find? (fun p => p.1 = type) with
      | none => none
      | some (_, t) => (constantName upper t longName).map (fun key => (t.pre ++ txt "_" ++ key, shortText lower t shortName))
    else none
  | _ => none

/-- The dictionaries that the rows describe: one for each type that occurs, with an entry for each value row. -/
def entriesOf (upper lower : Str → Str) (rows : List (List Str)) : List (Str × List (Str × Str)) :=
  (firsts (rows.filterMap knownType)).map (fun type => (dictionaryName type, rows.filterMap (rowEntry upper lower type)))

/-- The constant of an entry is made of the characters of names, and its text needs no escapes. -/
def PlainEntry (e : Str × Str) : Prop := (∀ c ∈ e.1, isNameChar c = true) ∧ ∀ c ∈ e.2, c ≠ 34 ∧ c ≠ 92 ∧ c ≠ 10 ∧ c ≠ 13

end Verif.UCDReader.Spec

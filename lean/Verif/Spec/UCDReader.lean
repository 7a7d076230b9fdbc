import Verif.Model.UCDReader
/-!
# Specification of the generated dictionaries

`prefixes` and its mapping tables are the program's own tables; nothing else of the model is used.
-/
namespace Verif.UCDReader.Spec
open Verif.UCDReader (TypeEntry ShortNames prefixes)

/-- The rows that the reader rejects: a version row without version, a value row with fewer than three further fields. -/
def Short (row : List Str) : Prop :=
  (row.head? = some (txt "ucd") ∧ row.length < 2) ∨ (row.head? = some (txt "value") ∧ row.length < 4)

/-- The distinct elements of a list in the order of their first occurrences. -/
def firsts : List Str → List Str
  | [] => []
  | x :: xs => x :: (firsts xs).filter (· ≠ x)

/-- The type of a value row, if it is one of those that get a dictionary. -/
def knownType (row : List Str) : Option Str :=
  match row with
  | k :: type :: _ :: _ :: _ => if k = txt "value" ∧ type ∈ prefixes.map (·.1) then some type else none
  | _ => none

/-- The name of the constant for a long name: the table's, else the long name in upper case; `none` when the table's is
empty. -/
def constantName (upper : Str → Str) (t : TypeEntry) (longName : Str) : Option Str :=
  match t.mappings.find? (fun p => p.1 = longName) with
  | some (_, []) => none
  | some (_, key) => some key
  | none => some (upper longName)

/-- The text for a short name. -/
def shortText (lower : Str → Str) (t : TypeEntry) (shortName : Str) : Str :=
  match t.short with
  | .lower => lower shortName
  | .copy => shortName
  | .spaces => shortName.map (fun c => if c = 95 then 32 else c)

/-- The line for a value row of the given type. -/
def rowLine (upper lower : Str → Str) (type : Str) (row : List Str) : Option Str :=
  match row with
  | k :: type' :: shortName :: longName :: _ =>
    if k = txt "value" ∧ type' = type then
      match prefixes.find? (fun p => p.1 = type) with
      | none => none
      | some (_, t) =>
        match constantName upper t longName with
        | none => none
        | some key => some (txt "    " ++ t.pre ++ txt "_" ++ key ++ txt ": \"" ++ shortText lower t shortName ++ txt "\"")
    else none
  | _ => none

/-- The version given by the last version row. -/
def version (rows : List (List Str)) : Option Str :=
  (rows.filterMap (fun row => match row with | k :: v :: _ => if k = txt "ucd" then some v else none | _ => none)).getLast?

/-- The dictionaries: one for each type that occurs, in the order of first occurrence, with one line for each value row. -/
def dictionaries (upper lower : Str → Str) (rows : List (List Str)) : List (Str × List Str) :=
  (firsts (rows.filterMap knownType)).map (fun type => (type, rows.filterMap (rowLine upper lower type)))

/-- The name of the dictionary of a type. -/
def dictionaryName (type : Str) : Str :=
  match prefixes.find? (fun p => p.1 = type) with
  | some (_, t) => t.name ++ txt "Names"
  | none => []

/-- The text of a dictionary. -/
def dictionaryText (d : Str × List Str) : Str :=
  dictionaryName d.1 ++ txt " = {\n" ++ (txt ",\n").intercalate d.2 ++ txt "\n}\n\n"

end Verif.UCDReader.Spec

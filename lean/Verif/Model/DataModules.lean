import Verif.Model.PyLists
import Verif.Model.Utrie2
/-!
# The tries made from the names of a data module

BidiProps.py, CaseProps.py and CharProps.py import a data module and pass its names to the constructor of `UTrie2`.
-/
namespace Verif.DataModules
open Verif.PyLists

/-- The number that a name stands for; `none` when it stands for none. -/
def intOf (env : List (Str × Val)) (n : Str) : Option Nat :=
  match lookup env n with
  | some (.int v) => some v
  | _ => none

/-- The list that a name stands for. -/
def listOf (env : List (Str × Val)) (n : Str) : Option (List Nat) :=
  match lookup env n with
  | some (.list l) => some l
  | _ => none

/-- BidiProps.py:69-70, CaseProps.py:313-314, CharProps.py:13-14 and 16-17: the trie with the index `index` and the constants that begin
with `pre`. The names are different in the four places, the order of the arguments is the same. Utrie2.py:42-50. -/
def trieOf (env : List (Str × Val)) (index pre : Str) : Option UTrie2 := do
  let l ← listOf env index
  let a ← intOf env (pre ++ txt "_index_length")
  let b ← intOf env (pre ++ txt "_index_2_null_offset")
  let c ← intOf env (pre ++ txt "_data_null_offset")
  let d ← intOf env (pre ++ txt "_high_start")
  let e ← intOf env (pre ++ txt "_high_value_index")
  some { index := Arr.ofList l, indexLength := a, index2NullOffset := b, dataNullOffset := c, highStart := d, highValueIndex := e }

end Verif.DataModules

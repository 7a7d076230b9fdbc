import Verif.Model.Py
/-! # Functions on code points as lists of ranges with values, as in the files of the Unicode character database -/
namespace Verif.Spec

/-- The value of `c`: that of the range `first, last, value` it lies in, or `default`. -/
def valueIn (default : Nat) (runs : List (Nat × Nat × Nat)) (c : Nat) : Nat :=
  match runs.find? (fun r => decide (r.1 ≤ c ∧ c ≤ r.2.1)) with
  | some r => r.2.2
  | none => default

/-- `get` returns, for every code point, its value in the list of ranges, and `legend` names the values as the library does. -/
def MapIs (get : Nat → Py Nat) (names : List (Nat × String)) (default : Nat) (runs : List (Nat × Nat × Nat)) (legend : List (Nat × String)) :
    Prop :=
  (∀ c ≤ 0x10FFFF, get c = .ok (valueIn default runs c)) ∧ ∀ e ∈ legend, names.lookup e.1 = some e.2

end Verif.Spec

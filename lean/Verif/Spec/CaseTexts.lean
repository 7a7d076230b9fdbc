import Verif.Model.Py
/-! # Specification: texts in one case -/
namespace Verif.Spec

/-- `"".join(f(ord(c)) for c in s)`: the mapping of a text. -/
def mapText (f : Nat → Py (List Nat)) : List Nat → Py (List Nat)
  | [] => .ok []
  | c :: s => do
    let x ← f c
    let y ← mapText f s
    .ok (x ++ y)

/-- A text: its characters are code points. -/
def IsText (s : List Nat) : Prop := ∀ c ∈ s, c ≤ 0x10FFFF

end Verif.Spec

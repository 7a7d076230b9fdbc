import Verif.Model.Table
/-!
# Python text and indexing vocabulary

A Python `str` is the list of its code points (surrogate code points may occur in it).
-/
namespace Verif

/-- Python `str`. -/
abbrev Str := List Nat

/-- `chr(i)`: `ValueError` outside the code points (for huge numbers Python raises `OverflowError`, not distinguished). -/
def chr (i : Int) : Py Nat := if 0 ≤ i ∧ i ≤ 0x10FFFF then .ok i.toNat else .error .valueError

/-- `a[i]` with any int: negative indices count from the end. -/
def Arr.getI (a : Arr) (i : Int) : Py Nat :=
  if 0 ≤ i then a.get i.toNat
  else if -(a.size : Int) ≤ i then a.get (a.size + i).toNat
  else .error .indexError

/-- `a[n:]`: a negative `n` counts from the end. -/
def Arr.sliceFrom (a : Arr) (n : Int) : Arr :=
  let k := if 0 ≤ n then n.toNat else (a.size + n).toNat
  ⟨a.size - k, fun i => a.at' (k + i)⟩

end Verif

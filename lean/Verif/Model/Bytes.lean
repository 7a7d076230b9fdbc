import Verif.Model.Table
/-!
# Python `bytes`, `struct` and slices

A `bytes` object is the list of its bytes. `struct` formats without a byte order character are native; the model is for a
little-endian machine, where `H`, `I`, `i`, `h`, `B` have sizes 2, 4, 4, 2, 1. Formats of the code never need padding.
-/
namespace Verif

/-- `b[i:j]` for `0 ≤ i`, `0 ≤ j`. -/
def slice {α : Type} (b : List α) (i j : Nat) : List α := (b.drop i).take (j - i)

/-- The unsigned number with the given bytes, least significant first. -/
def leValue : List Nat → Nat
  | [] => 0
  | b :: bs => b + 256 * leValue bs

/-- `struct.unpack(f"{n}X", b)` for an unsigned format `X` of `w` bytes. -/
def unpack (w n : Nat) (b : List Nat) : Py (List Nat) :=
  if b.length = w * n then .ok ((List.range n).map fun i => leValue (slice b (w * i) (w * i + w))) else .error .structError

end Verif

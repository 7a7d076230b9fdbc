/-! # Sets of code points as lists of ranges -/
namespace Verif.Spec

/-- `c` lies in one of the ranges `first, last`. -/
def InRanges (R : List (Nat × Nat)) (c : Nat) : Prop := ∃ r ∈ R, r.1 ≤ c ∧ c ≤ r.2

instance (R : List (Nat × Nat)) (c : Nat) : Decidable (InRanges R c) :=
  decidable_of_iff (R.any fun r => decide (r.1 ≤ c ∧ c ≤ r.2)) (by simp [InRanges])

end Verif.Spec

/-!
# Specification vocabulary for sets of code points

Written without reference to the model of the merge loops.
-/
namespace Verif.Spec

/-- A legal Unicode code point: U+0000 … U+10FFFF. -/
def IsCodePoint (c : Int) : Prop := 0 ≤ c ∧ c ≤ 0x10FFFF

instance (c : Int) : Decidable (IsCodePoint c) := inferInstanceAs (Decidable (_ ∧ _))

/-- Well-formed range list: boundaries in ascending order (equal neighbours allowed), all between 0 and
0x110000, the last one being 0x110000. Every list the API can produce from legal arguments has this form
(`reachable_wellFormed`). -/
def WellFormed (l : List Int) : Prop :=
  l.Pairwise (· ≤ ·) ∧ (∀ x ∈ l, 0 ≤ x ∧ x ≤ 0x110000) ∧ l.getLast? = some 0x110000

instance (l : List Int) : Decidable (WellFormed l) := inferInstanceAs (Decidable (_ ∧ _ ∧ _))

/-- Canonical range list: well-formed and strictly ascending, i.e. non-empty, disjoint and
non-adjacent ranges. -/
def Canonical (l : List Int) : Prop := WellFormed l ∧ l.Pairwise (· < ·)

instance (l : List Int) : Decidable (Canonical l) := inferInstanceAs (Decidable (_ ∧ _))

/-- All code points in ascending order. -/
def codePoints : List Int := (List.range 0x110000).map Int.ofNat

/-- The members of a set of code points in ascending order, the set given by its characteristic
function. -/
def membersOf (P : Int → Bool) : List Int := codePoints.filter P

end Verif.Spec

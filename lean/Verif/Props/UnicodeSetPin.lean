import Verif.Model.UnicodeSet
import Verif.Spec.CodePointSet
/-!
# Arguments outside the code space and empty ranges (C82)
-/
namespace Verif.USet.Props
open Verif.USet Verif.Spec

/-- The code point nearest to an integer. -/
def nearest (c : Int) : Int := max 0 (min c 0x10FFFF)

/-- A range is empty after its ends have been moved to the nearest code points, or has one element. -/
theorem pin_not_lt {s e : Int} (h : e ≤ s ∨ (s ≤ 0 ∧ e ≤ 0) ∨ (0x10FFFF ≤ s ∧ 0x10FFFF ≤ e)) : ¬ pinCodePoint s < pinCodePoint e := by
  unfold pinCodePoint LOW HIGH
  split <;> split <;> (try split) <;> (try split) <;> omega

/-- C82 in part. A range whose end is before its start is empty: the four range calls with it change nothing. The same holds
for ranges that lie before 0 or behind 0x10FFFF; `addRange(c, c)` is `add(c)`. Missing: ranges that overlap the code space and
go beyond it, and `add` of an integer outside; see the refutations. -/
theorem pinned_ranges_partial (l : List Int) {s e : Int} :
    (e < s → addRange l s e = .ok l ∧ removeRange l s e = .ok l ∧ retainRange l s e = .ok l ∧ complementRange l s e = .ok l) ∧
    (s < e → e ≤ 0 ∨ 0x10FFFF ≤ s →
      addRange l s e = .ok l ∧ removeRange l s e = .ok l ∧ retainRange l s e = .ok l ∧ complementRange l s e = .ok l) ∧
    addRange l s s = add l s := by
  have key : s ≠ e → ¬ pinCodePoint s < pinCodePoint e →
      addRange l s e = .ok l ∧ removeRange l s e = .ok l ∧ retainRange l s e = .ok l ∧ complementRange l s e = .ok l := by
    intro hne h
    refine ⟨?_, ?_, ?_, ?_⟩
    · unfold addRange addRangeRet
      rw [if_neg h, if_neg hne]
      rfl
    · unfold removeRange; rw [if_neg h]
    · unfold retainRange; rw [if_neg h]
    · unfold complementRange; rw [if_neg h]
  refine ⟨fun h => key (by omega) (pin_not_lt (by omega)), fun h h' => key (by omega) (pin_not_lt (by omega)), ?_⟩
  unfold addRange addRangeRet
  rw [if_neg (Int.lt_irrefl _), if_pos rfl]
  cases add l s <;> rfl

/-- Ranges behind the code space, before it and backwards. -/
example : ((0x10FFFF : Int) < 0x110005 ∧ (0x10FFFF : Int) ≤ 0x10FFFF) ∧ ((-5 : Int) < 0 ∧ (0 : Int) ≤ 0) ∧ (3 : Int) < 7 ∧
    removeRange [5, 0x110000] 0x10FFFF 0x110005 = .ok [5, 0x110000] := by decide

/-- C82 fails. A call with an end outside the code space does not act like the call with the nearest code point: the unmoved
values get into the list of the set, where -1 becomes a member and the boundaries are no longer in order, and when the end of a
range is above 0x10FFFF, removing, retaining and complementing raise `IndexError`. -/
theorem pinned_ranges_refuted :
    (add [0x110000] (-1) = .ok [-1, 0, 0x110000] ∧ add [0x110000] (nearest (-1)) = .ok [0, 1, 0x110000] ∧
      contains [-1, 0, 0x110000] (-1) = .ok true) ∧
    (addRange [0x110000] (-1) 5 = .ok [-1, 6, 0x110000] ∧ addRange [0x110000] (nearest (-1)) 5 = .ok [0, 6, 0x110000]) ∧
    (∃ l, add [0x110000] 0x110005 = .ok l ∧ ¬ WellFormed l) ∧
    (∃ l, addRange [0x30, 0x40, 0x110000] 0x35 0x110005 = .ok l ∧ ¬ WellFormed l) ∧
    removeRange [0, 0x110000] 0x35 0x110005 = .error .indexError ∧
    retainRange [0, 0x110000] 0x35 0x110005 = .error .indexError ∧
    complementRange [0, 0x110000] 0x35 0x110005 = .error .indexError ∧
    removeRange [0, 0x110000] 0x35 (nearest 0x110005) = .ok [0, 0x35, 0x110000] := by
  refine ⟨⟨by decide, by decide, by decide⟩, ⟨by decide, by decide⟩, ⟨_, rfl, by decide⟩, ⟨_, rfl, by decide⟩, by decide, by decide,
    by decide, by decide⟩

end Verif.USet.Props

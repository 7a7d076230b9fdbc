import Verif.Lemmas.CharData
import Verif.Lemmas.RunScan
import Verif.Spec.Ranges
/-!
# The code points whose trie value has a given bit, for large sets

Bit `i` of the field of a code point tells whether it is in set `i`. `setsCheck` compares the sets with lists of ranges in ascending
order: the bit of every code point of a range is 1 and that of every code point of a gap is 0.
-/
namespace Verif
open Verif.Spec Verif.Char
set_option maxRecDepth 100000

namespace UTrie2

/-- The list of ranges as a list of ranges with the value 1. -/
def onRanges (R : List (Nat × Nat)) : List (Nat × Nat × Nat) := R.map fun r => (r.1, r.2, 1)

theorem onRanges_valueIn (R : List (Nat × Nat)) (c : Nat) : valueIn 0 (onRanges R) c = 1 ↔ InRanges R c := by
  unfold valueIn onRanges InRanges
  induction R with
  | nil => simp
  | cons r R ih =>
    rw [List.map_cons, List.find?_cons]
    by_cases h : r.1 ≤ c ∧ c ≤ r.2
    · simp [h]
    · simp only [h, decide_false]
      rw [ih]
      simp [h]

/-- Bit `i` of the fields of the code points, in the bits 0 of the fields, against list `i` of the sets. -/
noncomputable def setRuns (t : UTrie2) (k m : Nat) (F v0 : Nat) (sets : List (List (Nat × Nat))) : Nat → Bool :=
  List.rec (fun _ => true) (fun R _ ih i =>
    and (t.runsAre k m (fun b => Nat.land (Nat.shiftRight (t.slice k F b) i) m) (Nat.land (Nat.shiftRight v0 i) 1) 0 (onRanges R) 0)
      (force (Nat.succ i) ih)) sets

noncomputable def setsCheck (t : UTrie2) (f : Nat → Nat) (k : Nat) (sets : List (List (Nat × Nat))) : Bool :=
  force (copies 1 k) fun m => force (t.valueFields f k) fun F => force (f t.initialValue) fun v0 => t.setRuns k m F v0 sets 0

theorem setRuns_spec {t : UTrie2} {k m F v0 : Nat} : ∀ {sets : List (List (Nat × Nat))} {s : Nat}, t.setRuns k m F v0 sets s = true →
    ∀ (i : Nat) (R : List (Nat × Nat)), sets[i]? = some R →
    t.runsAre k m (fun b => Nat.land (Nat.shiftRight (t.slice k F b) (s + i)) m) (Nat.land (Nat.shiftRight v0 (s + i)) 1) 0 (onRanges R) 0 = true
  | [], _, _, i, R, hR => by simp at hR
  | Q :: sets, s, h, i, R, hR => by
    have h : and (t.runsAre k m (fun b => Nat.land (Nat.shiftRight (t.slice k F b) s) m) (Nat.land (Nat.shiftRight v0 s) 1) 0 (onRanges Q) 0)
      (force (Nat.succ s) (t.setRuns k m F v0 sets)) = true := h
    rw [Bool.and_eq_true, force_eq] at h
    cases i with
    | zero =>
      have : Q = R := by simpa using hR
      subst this; exact h.1
    | succ i =>
      have := setRuns_spec h.2 i R (by simpa using hR)
      rw [show s + (i + 1) = s.succ + i by omega]
      exact this

/-- A successful check: bit `i` of the field is set for exactly the code points of list `i`. -/
theorem Full.sets {t : UTrie2} (h : Full t) {f : Nat → Nat} {k : Nat} (hk : k ≤ 32) (hf : ∀ v, f v < 2 ^ k)
    {sets : List (List (Nat × Nat))} (hs : t.setsCheck f k sets = true) {i : Nat} {R : List (Nat × Nat)} (hR : sets[i]? = some R)
    (hlen : sets.length ≤ k) {c : Nat} (hc : c < 0x10FFFF) : (f (t.getv c)).testBit i = true ↔ InRanges R c := by
  unfold setsCheck at hs
  simp only [force_eq] at hs
  have hik : i < k := by
    have := (List.getElem?_eq_some_iff.mp hR).1
    omega
  have hr := setRuns_spec hs i R hR
  rw [Nat.zero_add] at hr
  have hbit : ∀ v, (f v >>> i &&& 1) < 2 := fun v => Nat.lt_of_le_of_lt Nat.and_le_right (by decide)
  have hS : ∀ c < 0x10FFFF, field k ((fun b => Nat.land (Nat.shiftRight (t.slice k (t.valueFields f k) b) i) (copies 1 k)) (c / 32)) (c % 32) =
      (fun v => f v >>> i &&& 1) (t.getv c) := by
    intro c hc
    have hsl := h.slice_spec hk hf hc
    have hone : 1 < 2 ^ k := Nat.lt_of_lt_of_le (by decide) (Nat.pow_le_pow_right (by decide) (show 1 ≤ k by omega))
    show field k ((t.slice k (t.valueFields f k) (c / 32)) >>> i &&& copies 1 k) (c % 32) = f (t.getv c) >>> i &&& 1
    rw [field_and, copies_field (by omega) hone (by omega), ← hsl]
    apply Nat.eq_of_testBit_eq
    intro j
    rw [Nat.testBit_and, Nat.testBit_and, field_testBit, Nat.testBit_shiftRight, Nat.testBit_shiftRight, field_testBit]
    by_cases hj : j = 0
    · subst hj
      simp only [Nat.add_zero, show 0 < k by omega, hik, decide_true, Bool.true_and, Nat.add_comm, Nat.zero_add]
    · have : Nat.testBit 1 j = false := by
        rw [show (1 : Nat) = 2 ^ 0 by rfl, Nat.testBit_two_pow]; simp [Ne.symm hj]
      simp [this]
  have key := (h.runsAre_spec (f := fun v => f v >>> i &&& 1) (by omega) hS (Nat.two_pow_pos k) (onRanges R) 0 hr).1 c (Nat.zero_le c) hc
  rw [← onRanges_valueIn, ← key]
  show _ ↔ f (t.getv c) >>> i &&& 1 = 1
  rw [Nat.testBit, bne_iff_ne]
  rw [Nat.and_comm]
  have := hbit (t.getv c)
  rw [Nat.and_comm] at this ⊢
  omega

end UTrie2
end Verif

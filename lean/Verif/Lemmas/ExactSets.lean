import Verif.Lemmas.CharData
import Verif.Spec.Ranges
/-!
# The code points whose trie value has a given bit

Bit `i` of the field of a code point tells whether it is in set `i`. `exactCheck` compares the sets with lists of ranges: every bit
that is set belongs to a range, and every code point of a range has its bit.
-/
namespace Verif
open Verif.Spec Verif.Char
set_option maxRecDepth 100000

/-- `c` is in one of the ranges. -/
noncomputable def inR (c : Nat) (R : List (Nat × Nat)) : Bool :=
  List.rec false (fun r _ ih => cond (and (Nat.ble r.1 c) (Nat.ble c r.2)) true ih) R

theorem inR_iff {c : Nat} {R : List (Nat × Nat)} : inR c R = true ↔ InRanges R c := by
  induction R with
  | nil =>
    refine ⟨fun h => ?_, fun h => ?_⟩
    · cases h
    · obtain ⟨r, hr, _⟩ := h
      simp at hr
  | cons r R ih =>
    have e : inR c (r :: R) = cond (and (Nat.ble r.1 c) (Nat.ble c r.2)) true (inR c R) := rfl
    rw [e]
    constructor
    · intro h
      cases hc : and (Nat.ble r.1 c) (Nat.ble c r.2) with
      | true =>
        rw [Bool.and_eq_true, Nat.ble_eq, Nat.ble_eq] at hc
        exact ⟨r, by simp, hc⟩
      | false =>
        rw [hc] at h
        obtain ⟨q, hq, h'⟩ := ih.mp h
        exact ⟨q, by simp [hq], h'⟩
    · rintro ⟨q, hq, h1, h2⟩
      rcases List.mem_cons.mp hq with rfl | hq
      · rw [Nat.ble_eq_true_of_le h1, Nat.ble_eq_true_of_le h2]; rfl
      · rw [ih.mpr ⟨q, hq, h1, h2⟩]
        cases and (Nat.ble r.1 c) (Nat.ble c r.2) <;> rfl

/-- One of the ranges has all code points from `c` to `d`. -/
noncomputable def coverR (c d : Nat) (R : List (Nat × Nat)) : Bool :=
  List.rec false (fun r _ ih => cond (and (Nat.ble r.1 c) (Nat.ble d r.2)) true ih) R

theorem coverR_mem {c d x : Nat} {R : List (Nat × Nat)} (h : coverR c d R = true) (h1 : c ≤ x) (h2 : x ≤ d) : InRanges R x := by
  induction R with
  | nil => cases h
  | cons r R ih =>
    have h : cond (and (Nat.ble r.1 c) (Nat.ble d r.2)) true (coverR c d R) = true := h
    cases hc : and (Nat.ble r.1 c) (Nat.ble d r.2) with
    | true =>
      rw [Bool.and_eq_true, Nat.ble_eq, Nat.ble_eq] at hc
      exact ⟨r, by simp, by omega, by omega⟩
    | false =>
      rw [hc] at h
      obtain ⟨q, hq, h'⟩ := ih h
      exact ⟨q, by simp [hq], h'⟩

namespace UTrie2

/-- The bits of set 0 in `w` that are set belong to `R`. -/
noncomputable def bitsIn (k m b : Nat) (R : List (Nat × Nat)) (w : Nat) : Bool :=
  force (Nat.land w m) fun x => or (Nat.beq x 0) (or (coverR (Nat.mul 32 b) (Nat.add (Nat.mul 32 b) 31) R)
    (allB (fun j => or (not (bitAt x (Nat.mul k j))) (inR (Nat.add (Nat.mul 32 b) j) R)) 5 0))

/-- The same for all sets. -/
noncomputable def allBitsIn (k m b : Nat) (sets : List (List (Nat × Nat))) : Nat → Bool :=
  List.rec (fun _ => true) (fun R _ ih w => and (bitsIn k m b R w) (force (Nat.shiftRight w 1) ih)) sets

noncomputable def exactRel (k m M : Nat) (sets : List (List (Nat × Nat))) (_F b w : Nat) : Bool :=
  force (Nat.land w M) fun w => or (Nat.beq w 0) (allBitsIn k m b sets w)

/-- The code points of block `b` from `lo` to `hi` are in set `i`. -/
noncomputable def blockHas (t : UTrie2) (k m F i lo hi b : Nat) : Bool :=
  force (Nat.land (Nat.shiftRight (t.slice k F b) i) m) fun x => or (Nat.beq x m)
    (allB (fun j => or (or (Nat.blt (Nat.add (Nat.mul 32 b) j) lo) (Nat.blt hi (Nat.add (Nat.mul 32 b) j))) (bitAt x (Nat.mul k j))) 5 0)

/-- The same for `n` blocks from `b` on. -/
noncomputable def blocksHave (t : UTrie2) (k m F i lo hi b n : Nat) : Bool :=
  Nat.rec true (fun n ih => and (force (Nat.add b n) (t.blockHas k m F i lo hi)) ih) n

noncomputable def rangesHave (t : UTrie2) (k m F i : Nat) (R : List (Nat × Nat)) : Bool :=
  List.rec true (fun r _ ih => and (force (Nat.div r.1 32) fun b => force (Nat.sub (Nat.add (Nat.div r.2 32) 1) b) fun n =>
    t.blocksHave k m F i r.1 r.2 b n) ih) R

noncomputable def setsHave (t : UTrie2) (k m F : Nat) (sets : List (List (Nat × Nat))) : Nat → Bool :=
  List.rec (fun _ => true) (fun R _ ih i => and (t.rangesHave k m F i R) (force (Nat.succ i) ih)) sets

noncomputable def exactCheck (t : UTrie2) (f : Nat → Nat) (k : Nat) (sets : List (List (Nat × Nat))) : Bool :=
  force (copies 1 k) fun m => force (Nat.sub (Nat.pow 2 (Nat.mul 32 k)) 1) fun M =>
  force (t.valueFields f k) fun F => and (allB (scan1 t k (fun _ => true) (exactRel k m M sets) F) 10 0) (t.setsHave k m F sets 0)

theorem allBitsIn_spec {k b : Nat} : ∀ {sets : List (List (Nat × Nat))} {w : Nat}, allBitsIn k (copies 1 k) b sets w = true →
    (∀ j < 32, (copies 1 k).testBit (k * j) = true) → ∀ (i : Nat) (R : List (Nat × Nat)), sets[i]? = some R → ∀ j < 32,
    w.testBit (k * j + i) = true → InRanges R (32 * b + j) := by
  intro sets
  induction sets with
  | nil => intro w _ _ i R hR; simp at hR
  | cons S sets ih =>
    intro w h hm i R hR j hj hw
    have h : and (bitsIn k (copies 1 k) b S w) (force (Nat.shiftRight w 1) (allBitsIn k (copies 1 k) b sets)) = true := h
    rw [Bool.and_eq_true, force_eq] at h
    cases i with
    | succ i =>
      refine ih h.2 hm i R (by simpa using hR) j hj ?_
      show (w >>> 1).testBit _ = true
      rw [Nat.testBit_shiftRight, ← hw]
      congr 1
      omega
    | zero =>
      have : S = R := by simpa using hR
      subst this
      have hx : (w &&& copies 1 k).testBit (k * j) = true := by rw [Nat.testBit_and, hm j hj]; simpa using hw
      have h := h.1
      unfold bitsIn at h
      rw [force_eq, Bool.or_eq_true, Bool.or_eq_true] at h
      rcases h with h | h | h
      · have : w &&& copies 1 k = 0 := Nat.eq_of_beq_eq_true h
        rw [this] at hx
        simp at hx
      · exact coverR_mem h (by show 32 * b ≤ _; omega) (by show _ ≤ 32 * b + 31; omega)
      · have := allB_range h (lo := 0) (hi := 32) rfl rfl j (by omega) hj
        rw [Bool.or_eq_true, bitAt_eq, Bool.not_eq_true'] at this
        rcases this with h' | h'
        · have h' : (w &&& copies 1 k).testBit (k * j) = false := h'
          rw [hx] at h'
          cases h'
        · exact inR_iff.mp h'

theorem blocksHave_spec {t : UTrie2} {k m F i lo hi b : Nat} : ∀ {n : Nat}, t.blocksHave k m F i lo hi b n = true →
    ∀ x, b ≤ x → x < b + n → t.blockHas k m F i lo hi x = true := by
  intro n
  induction n with
  | zero => intro _ x h1 h2; omega
  | succ n ih =>
    intro h x h1 h2
    have h : and (force (Nat.add b n) (t.blockHas k m F i lo hi)) (t.blocksHave k m F i lo hi b n) = true := h
    rw [Bool.and_eq_true, force_eq] at h
    by_cases hx : x = b + n
    · subst hx; exact h.1
    · exact ih h.2 x h1 (by omega)

theorem rangesHave_spec {t : UTrie2} {k m F i : Nat} : ∀ {R : List (Nat × Nat)}, t.rangesHave k m F i R = true →
    ∀ r ∈ R, ∀ x, r.1 / 32 ≤ x → x ≤ r.2 / 32 → t.blockHas k m F i r.1 r.2 x = true := by
  intro R
  induction R with
  | nil => intro _ r hr; simp at hr
  | cons q R ih =>
    intro h r hr x h1 h2
    have h : and (force (Nat.div q.1 32) fun b => force (Nat.sub (Nat.add (Nat.div q.2 32) 1) b) fun n =>
      t.blocksHave k m F i q.1 q.2 b n) (t.rangesHave k m F i R) = true := h
    rw [Bool.and_eq_true, force_eq, force_eq] at h
    rcases List.mem_cons.mp hr with rfl | hr
    · refine blocksHave_spec h.1 x h1 ?_
      show x < r.1 / 32 + (r.2 / 32 + 1 - r.1 / 32)
      omega
    · exact ih h.2 r hr x h1 h2

theorem setsHave_spec {t : UTrie2} {k m F : Nat} : ∀ {sets : List (List (Nat × Nat))} {s : Nat}, t.setsHave k m F sets s = true →
    ∀ (i : Nat) (R : List (Nat × Nat)), sets[i]? = some R → t.rangesHave k m F (s + i) R = true := by
  intro sets
  induction sets with
  | nil => intro s _ i R hR; simp at hR
  | cons S sets ih =>
    intro s h i R hR
    have h : and (t.rangesHave k m F s S) (force (Nat.succ s) (t.setsHave k m F sets)) = true := h
    rw [Bool.and_eq_true, force_eq] at h
    cases i with
    | zero => have : S = R := by simpa using hR
              subst this; exact h.1
    | succ i => have := ih h.2 i R (by simpa using hR)
                rw [show s + (i + 1) = s.succ + i by omega]
                exact this

/-- A successful check: bit `i` of the field is set for exactly the code points of list `i`. -/
theorem Full.exact {t : UTrie2} (h : Full t) {f : Nat → Nat} {k : Nat} (hk : k ≤ 32) (hf : ∀ v, f v < 2 ^ k)
    (hm : ∀ j < 32, (copies 1 k).testBit (k * j) = true) (h0 : f t.initialValue = 0)
    {sets : List (List (Nat × Nat))} (hs : t.exactCheck f k sets = true) {i : Nat} {R : List (Nat × Nat)} (hR : sets[i]? = some R)
    (hlen : sets.length ≤ k) {c : Nat} (hc : c < 0x10FFFF) : (f (t.getv c)).testBit i = true ↔ InRanges R c := by
  unfold exactCheck at hs
  simp only [force_eq, Bool.and_eq_true] at hs
  obtain ⟨h1, h2⟩ := hs
  have hik : i < k := by
    have := (List.getElem?_eq_some_iff.mp hR).1
    omega
  constructor
  · have hc1 : check1 t f k (fun _ => true) (exactRel k (copies 1 k) (Nat.sub (Nat.pow 2 (Nat.mul 32 k)) 1) sets) = true := by
      unfold check1
      rw [force_eq]
      exact h1
    refine h.forall_check1 (f := f) (k := k) hk hf (fun _ => true) _ (fun c v => v.testBit i = true → InRanges R c) ?_ ?_ hc1 c hc
    · intro b _ w _ hrel j hj hv
      unfold exactRel at hrel
      rw [force_eq, Bool.or_eq_true] at hrel
      have eM : Nat.land w (Nat.sub (Nat.pow 2 (Nat.mul 32 k)) 1) = w % 2 ^ (32 * k) :=
        Nat.and_two_pow_sub_one_eq_mod w (32 * k)
      rw [eM] at hrel
      have hlt : k * j + i < 32 * k := by
        have : k * (j + 1) ≤ k * 32 := Nat.mul_le_mul_left k (by omega)
        rw [Nat.mul_add] at this
        omega
      rw [field_testBit, Bool.and_eq_true] at hv
      have hw : (w % 2 ^ (32 * k)).testBit (k * j + i) = true := by
        rw [Nat.testBit_mod_two_pow]
        simp [hlt, hv.2]
      rcases hrel with hrel | hrel
      · rw [Nat.eq_of_beq_eq_true hrel] at hw
        simp at hw
      · exact allBitsIn_spec hrel hm i R hR j hj hw
    · intro c _ _ hv
      rw [h0] at hv
      simp at hv
  · rintro ⟨r, hr, hr1, hr2⟩
    have hb := rangesHave_spec (setsHave_spec h2 i R hR) r hr (c / 32) (by omega) (by omega)
    unfold blockHas at hb
    rw [force_eq, Bool.or_eq_true, Nat.zero_add] at hb
    rw [← h.slice_spec hk hf hc, field_testBit]
    have hx : (Nat.land (Nat.shiftRight (t.slice k (t.valueFields f k) (c / 32)) i) (copies 1 k)).testBit (k * (c % 32)) = true := by
      rcases hb with hb | hb
      · rw [Nat.eq_of_beq_eq_true hb]
        exact hm _ (by omega)
      · have := allB_range hb (lo := 0) (hi := 32) rfl rfl (c % 32) (by omega) (by omega)
        rw [Bool.or_eq_true, Bool.or_eq_true, Nat.blt_eq, Nat.blt_eq, bitAt_eq] at this
        have e : Nat.add (Nat.mul 32 (c / 32)) (c % 32) = c := Nat.div_add_mod c 32
        rw [e] at this
        rcases this with (h' | h') | h'
        · omega
        · omega
        · exact h'
    have hx : ((t.slice k (t.valueFields f k) (c / 32)) >>> i &&& copies 1 k).testBit (k * (c % 32)) = true := hx
    rw [Nat.testBit_and, Bool.and_eq_true, Nat.testBit_shiftRight] at hx
    simp only [hik, decide_true, Bool.true_and]
    rw [Nat.add_comm]
    exact hx.1

end UTrie2
end Verif

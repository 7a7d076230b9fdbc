import Verif.Model.Utilities
import Verif.Lemmas.Bits
import Verif.Spec.CodePointSet
/-!
# Properties C20–C24: `Utilities`
-/
namespace Verif.Utilities.Props
open Verif.Spec

theorem and_trailMask (x : Int) : pyAnd x trailMask = x % 1024 := by
  have := pyAnd_field x 10 0
  simpa [trailMask, leadTrailMask] using this

theorem and_surrogateMask (x : Int) : pyAnd x surrogateMask = (x / 2048 % 2 ^ 21) * 2048 := by
  have := pyAnd_field x 21 11
  simpa [surrogateMask] using this

theorem and_leadTrailMask (x : Int) : pyAnd x leadTrailMask = (x / 1024 % 2 ^ 22) * 1024 := by
  have := pyAnd_field x 22 10
  simpa [leadTrailMask] using this

theorem and_400 (x : Int) : pyAnd x 0x400 = (x / 1024 % 2) * 1024 := by
  have := pyAnd_field x 1 10
  simpa using this

/-- C20. Every supplementary code point is split into a lead and a trail surrogate which combine to it. -/
theorem surrogate_roundtrip {c : Int} (h1 : 0x10000 ≤ c) (h2 : c ≤ 0x10FFFF) :
    let p := surrogatesFromChar c
    (0xD800 ≤ p.1 ∧ p.1 ≤ 0xDBFF) ∧ (0xDC00 ≤ p.2 ∧ p.2 ≤ 0xDFFF) ∧ charFromSurrogates p.1 p.2 = c := by
  simp only [surrogatesFromChar, charFromSurrogates, and_trailMask, leadOffset, surrogateOffset, firstLead, firstTrail,
    firstNonBMP, leadShift]
  omega

/-- C20, converse: every pair of a lead and a trail surrogate combines to a supplementary code point which is
split into that pair. -/
theorem surrogate_roundtrip_pair {l t : Int} (h1 : 0xD800 ≤ l) (h2 : l ≤ 0xDBFF) (h3 : 0xDC00 ≤ t) (h4 : t ≤ 0xDFFF) :
    let c := charFromSurrogates l t
    (0x10000 ≤ c ∧ c ≤ 0x10FFFF) ∧ surrogatesFromChar c = (l, t) := by
  simp only [surrogatesFromChar, charFromSurrogates, and_trailMask, leadOffset, surrogateOffset, firstLead, firstTrail,
    firstNonBMP, leadShift, Prod.mk.injEq]
  omega

example : surrogatesFromChar 0x1F600 = (0xD83D, 0xDE00) ∧ charFromSurrogates 0xD83D 0xDE00 = 0x1F600 := by decide

/-- C21. The predicates on code points. -/
theorem surrogate_predicates {c : Int} (h : IsCodePoint c) :
    (isSurrogate c = true ↔ 0xD800 ≤ c ∧ c ≤ 0xDFFF) ∧
    (isLead c = true ↔ 0xD800 ≤ c ∧ c ≤ 0xDBFF) ∧
    (isTrail c = true ↔ 0xDC00 ≤ c ∧ c ≤ 0xDFFF) ∧
    (isSurrogate c = true → (isSurrogateLead c = true ↔ isLead c = true) ∧ (isSurrogateTrail c = true ↔ isTrail c = true)) := by
  unfold IsCodePoint at h
  simp only [isSurrogate, isLead, isTrail, isSurrogateLead, isSurrogateTrail, and_surrogateMask, and_leadTrailMask, and_400,
    decide_eq_true_eq, firstLead, firstTrail]
  omega

example : isLead 0xDBFF = true ∧ isLead 0xDC00 = false ∧ isSurrogate 0xDFFF = true ∧ isSurrogate 0xE000 = false := by decide

/-- The predicates are right for all non-negative 32-bit values, and not beyond: the masks have 32 bits. -/
theorem surrogate_predicates_32 {c : Int} (h0 : 0 ≤ c) (h1 : c < 2 ^ 32) :
    (isSurrogate c = true ↔ 0xD800 ≤ c ∧ c ≤ 0xDFFF) := by
  simp only [isSurrogate, and_surrogateMask, decide_eq_true_eq, firstLead]
  omega

/-- Two's complement reading of a field of `f` bits holding the bit pattern `u`. -/
def signed (f : Nat) (u : Int) : Int := if u < 2 ^ (f - 1) then u else u - 2 ^ f

/-- C22. For every word of `w` bits and every field width `0 < f ≤ w`. -/
theorem arithmeticShift_signed {w f : Nat} {v : Int} (hf : 0 < f) (hfw : f ≤ w) (h0 : 0 ≤ v) (h1 : v < 2 ^ w) :
    arithmeticShift v w f = .ok (signed f (v / 2 ^ (w - f))) := by
  obtain ⟨n, rfl⟩ := Int.eq_ofNat_of_zero_le h0
  have hpw : n < 2 ^ w := by
    have : ((2 ^ w : Nat) : Int) = 2 ^ w := by simp
    omega
  unfold arithmeticShift signed
  rw [if_neg (by omega)]
  simp only
  congr 1
  have hm : pyAnd (n : Int) (2 ^ (w - 1)) = ((n / 2 ^ (w - 1) % 2 * 2 ^ (w - 1) : Nat) : Int) := by
    have := pyAnd_field n 1 (w - 1)
    simp at this
    rw [this]; simp
  rw [hm]
  have e1 : ((n : Int) / 2 ^ (w - f)) = ((n / 2 ^ (w - f) : Nat) : Int) := by simp
  rw [e1]
  have key : n / 2 ^ (w - 1) % 2 * 2 ^ (w - 1) ≠ 0 ↔ ¬ (n / 2 ^ (w - f) < 2 ^ (f - 1)) := by
    rw [Nat.div_lt_iff_lt_mul (Nat.two_pow_pos _), ← Nat.pow_add]
    rw [show f - 1 + (w - f) = w - 1 by omega]
    have hw2 : 2 ^ w = 2 ^ (w - 1) * 2 := by rw [← Nat.pow_succ]; congr 1; omega
    have hp : 0 < 2 ^ (w - 1) := Nat.two_pow_pos _
    generalize 2 ^ (w - 1) = P at *
    rcases Nat.lt_or_ge n P with h | h
    · rw [Nat.div_eq_of_lt h]; simp [h]
    · have : n / P = 1 := by
        apply Nat.div_eq_of_lt_le <;> omega
      rw [this]; simp; omega
  have key' : ((n / 2 ^ (w - 1) % 2 * 2 ^ (w - 1) : Nat) : Int) ≠ 0 ↔ ¬ (((n / 2 ^ (w - f) : Nat) : Int) < 2 ^ (f - 1)) := by
    have h2 : ((2 ^ (f - 1) : Nat) : Int) = 2 ^ (f - 1) := by simp
    rw [← h2]
    constructor
    · intro h hh
      exact key.mp (by intro h3; exact h (by rw [h3]; rfl)) (by omega)
    · intro h hh
      exact key.mpr (by omega) (by omega)
  by_cases hc : ((n / 2 ^ (w - f) : Nat) : Int) < 2 ^ (f - 1)
  · rw [if_pos hc, if_neg (fun h => key'.mp h hc)]
  · rw [if_neg hc, if_pos (key'.mpr hc)]

example : arithmeticShift 0xE000 16 3 = .ok (-1) ∧ arithmeticShift 0x6000 16 3 = .ok 3 := by decide

/-- The result is a signed `f`-bit number. -/
theorem arithmeticShift_range {w f : Nat} {v : Int} (hf : 0 < f) (hfw : f ≤ w) (h0 : 0 ≤ v) (h1 : v < 2 ^ w) :
    ∃ r, arithmeticShift v w f = .ok r ∧ -(2 ^ (f - 1)) ≤ r ∧ r < 2 ^ (f - 1) := by
  refine ⟨_, arithmeticShift_signed hf hfw h0 h1, ?_⟩
  have hu0 : 0 ≤ v / 2 ^ (w - f) := Int.ediv_nonneg h0 (by exact Int.le_of_lt (Int.pow_pos (by decide)))
  have hu1 : v / 2 ^ (w - f) < 2 ^ f := by
    apply Int.ediv_lt_of_lt_mul (Int.pow_pos (by decide))
    rw [← Int.pow_add]
    rwa [show f + (w - f) = w by omega]
  have h2 : (2 : Int) ^ f = 2 ^ (f - 1) * 2 := by rw [← Int.pow_succ]; congr 1; omega
  have hp : (0 : Int) < 2 ^ (f - 1) := Int.pow_pos (by decide)
  unfold signed
  generalize v / 2 ^ (w - f) = u at *
  generalize (2 : Int) ^ (f - 1) = P at *
  split <;> omega

/-- C23. `highBit(v)` is the exponent of the largest power of two not above `v`, for `1 ≤ v < 2^64`. -/
theorem highBit_log2 {v : Int} (h0 : 1 ≤ v) (h1 : v < 2 ^ 64) :
    ∃ b : Nat, highBit v = some (b : Int) ∧ (2 : Int) ^ b ≤ v ∧ v < 2 ^ (b + 1) := by
  -- one step keeps `value * 2 ^ bit ≤ v < (value + 1) * 2 ^ bit`
  have step : ∀ (n : Nat) (x : Int) (b : Nat) , (x * 2 ^ b ≤ v ∧ v < (x + 1) * 2 ^ b) → 1 ≤ x → x < 2 ^ (2 * n) → 
      ∃ (x' : Int) (b' : Nat), highBitStep n (x, (b : Int)) = (x', (b' : Int)) ∧
        (x' * 2 ^ b' ≤ v ∧ v < (x' + 1) * 2 ^ b') ∧ 1 ≤ x' ∧ x' < 2 ^ n := by
    intro n x b hx hx1 hxn
    unfold highBitStep
    simp only
    have hpn : (0 : Int) < 2 ^ n := Int.pow_pos (by decide)
    have hpb : (0 : Int) < 2 ^ b := Int.pow_pos (by decide)
    by_cases h : x ≥ 2 ^ n
    · rw [if_pos h]
      refine ⟨x / 2 ^ n, b + n, by simp, ⟨?_, ?_⟩, ?_, ?_⟩
      · rw [Nat.add_comm b n, Int.pow_add, ← Int.mul_assoc]
        have := Int.ediv_mul_le x (Int.ne_of_gt hpn)
        exact Int.le_trans (Int.mul_le_mul_of_nonneg_right this (Int.le_of_lt hpb)) hx.1
      · rw [Nat.add_comm b n, Int.pow_add, ← Int.mul_assoc]
        have : x + 1 ≤ (x / 2 ^ n + 1) * 2 ^ n := Int.lt_ediv_add_one_mul_self x hpn
        exact Int.lt_of_lt_of_le hx.2 (Int.mul_le_mul_of_nonneg_right this (Int.le_of_lt hpb))
      · exact (Int.le_ediv_iff_mul_le hpn).mpr (by omega)
      · apply Int.ediv_lt_of_lt_mul hpn
        rw [← Int.pow_add, ← Nat.two_mul]; exact hxn
    · rw [if_neg h]
      exact ⟨x, b, rfl, hx, hx1, by omega⟩
  unfold highBit
  rw [if_neg (by omega)]
  obtain ⟨x1, b1, e1, i1, l1, u1⟩ := step 32 v 0 (by simp; omega) h0 (by simpa using h1)
  obtain ⟨x2, b2, e2, i2, l2, u2⟩ := step 16 x1 b1 i1 l1 (by simpa using u1)
  obtain ⟨x3, b3, e3, i3, l3, u3⟩ := step 8 x2 b2 i2 l2 (by simpa using u2)
  obtain ⟨x4, b4, e4, i4, l4, u4⟩ := step 4 x3 b3 i3 l3 (by simpa using u3)
  obtain ⟨x5, b5, e5, i5, l5, u5⟩ := step 2 x4 b4 i4 l4 (by simpa using u4)
  obtain ⟨x6, b6, e6, i6, l6, u6⟩ := step 1 x5 b5 i5 l5 (by simpa using u5)
  refine ⟨b6, ?_, ?_⟩
  · have e1' : highBitStep 32 (v, 0) = (x1, (b1 : Int)) := e1
    rw [e1', e2, e3, e4, e5, e6]
  · have : x6 = 1 := by simp at u6; omega
    subst this
    rw [Nat.add_comm b6 1, Int.pow_add]
    simpa using i6

/-- C23, the value 0. -/
theorem highBit_zero : highBit 0 = none := rfl

example : highBit 0x8000 = some 15 ∧ highBit (2 ^ 64 - 1) = some 63 := by decide

/-- The bound of the property is sharp: for `2^64` the answer is wrong. -/
theorem highBit_bound_sharp : highBit (2 ^ 64) ≠ some 64 := by decide

/-- C24. Noncharacters. -/
theorem noncharacter_iff (c : Int) :
    isUnicodeNoncharacter c = true ↔
      (0xFDD0 ≤ c ∧ c ≤ 0xFDEF) ∨ ∃ plane : Int, 0 ≤ plane ∧ plane ≤ 16 ∧ (c = plane * 0x10000 + 0xFFFE ∨ c = plane * 0x10000 + 0xFFFF) := by
  have hm : pyAnd c 0xfffe = (c / 2 % 2 ^ 15) * 2 := by
    have := pyAnd_field c 15 1
    simpa using this
  unfold isUnicodeNoncharacter
  simp only [Bool.and_eq_true, Bool.or_eq_true, decide_eq_true_eq, hm]
  constructor
  · rintro ⟨⟨h1, h2⟩, h3⟩
    rcases h2 with h2 | h2
    · left; omega
    · right; exact ⟨c / 65536, by omega, by omega, by omega⟩
  · rintro (h | ⟨p, h1, h2, h3⟩)
    · omega
    · omega

/-- C24: there are exactly 66 of them. -/
theorem noncharacter_count :
    ((List.range 32).map (fun (k : Nat) => (0xFDD0 + k : Int)) ++
      (List.range 17).flatMap (fun (p : Nat) => [(p * 0x10000 + 0xFFFE : Int), p * 0x10000 + 0xFFFF])).length = 66 ∧
    ((List.range 32).map (fun (k : Nat) => (0xFDD0 + k : Int)) ++
      (List.range 17).flatMap (fun (p : Nat) => [(p * 0x10000 + 0xFFFE : Int), p * 0x10000 + 0xFFFF])).Nodup ∧
    ∀ c, isUnicodeNoncharacter c = true ↔
      c ∈ ((List.range 32).map (fun (k : Nat) => (0xFDD0 + k : Int)) ++
        (List.range 17).flatMap (fun (p : Nat) => [(p * 0x10000 + 0xFFFE : Int), p * 0x10000 + 0xFFFF])) := by
  refine ⟨by decide, by decide, fun c => ?_⟩
  rw [noncharacter_iff, List.mem_append, List.mem_map, List.mem_flatMap]
  constructor
  · rintro (h | ⟨p, h1, h2, h3⟩)
    · left; exact ⟨(c - 0xFDD0).toNat, by rw [List.mem_range]; omega, by omega⟩
    · right
      refine ⟨p.toNat, by rw [List.mem_range]; omega, ?_⟩
      have : ((p.toNat : Nat) : Int) = p := by omega
      rw [this]; simpa using h3
  · rintro (⟨k, hk, rfl⟩ | ⟨p, hp, h⟩)
    · rw [List.mem_range] at hk; left; omega
    · rw [List.mem_range] at hp; right
      exact ⟨p, by omega, by omega, by simpa using h⟩

example : isUnicodeNoncharacter 0x10FFFF = true ∧ isUnicodeNoncharacter 0xFFFD = false := by decide

end Verif.Utilities.Props

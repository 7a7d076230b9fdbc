import Verif.Model.NumericFloat
import Verif.Props.NumericMap
/-! # The numeric values as floats (C120) -/
namespace Verif.Char.Props
open Verif Verif.Spec Verif.Char.Spec Verif.Data Verif.Char

/-- Rounding to doubles: numbers with at most 53 significant binary digits, in the range in question, stay what they are. -/
def Rounds (rnd : Rat → Rat) : Prop := ∀ (m : Int) (e : Nat), m.natAbs < 2 ^ 53 → e < 100 → rnd (((m * 2 ^ e : Int)) : Rat) = ((m * 2 ^ e : Int) : Rat)

theorem rounds_int {rnd : Rat → Rat} (h : Rounds rnd) {n : Int} (hn : n.natAbs < 2 ^ 53) : rnd (n : Rat) = n := by
  have := h n 0 hn (by omega)
  simpa using this

theorem rounds_pow {rnd : Rat → Rat} (h : Rounds rnd) {m : Int} {k : Nat} (hm : m.natAbs ≤ 9) (hk : k ≤ 21) :
    rnd ((m * 10 ^ k : Int) : Rat) = ((m * 10 ^ k : Int) : Rat) := by
  have e : m * 10 ^ k = (m * 5 ^ k) * 2 ^ k := by
    rw [Int.mul_assoc, ← Int.mul_pow]; rfl
  rw [e]
  apply h _ _ _ (by omega)
  rw [Int.natAbs_mul, Int.natAbs_pow]
  have h1 : (5 : Nat) ^ k ≤ 5 ^ 21 := Nat.pow_le_pow_right (by omega) hk
  have h2 : m.natAbs * (5 : Int).natAbs ^ k ≤ 9 * 5 ^ 21 := Nat.mul_le_mul hm h1
  have h3 : 9 * 5 ^ 21 < 2 ^ 53 := by decide
  omega

/-- As long as the digits fit, no rounding happens on the way. -/
theorem timesPow10Float_eq {rnd : Rat → Rat} (h : Rounds rnd) {m : Int} (hm : m.natAbs ≤ 9) : ∀ (fuel k exp : Nat), exp < fuel → k + exp ≤ 21 →
    timesPow10Float rnd fuel ((m * 10 ^ k : Int) : Rat) exp = .ok ((m * 10 ^ (k + exp) : Int) : Rat) ∧
    timesPow10 fuel ((m * 10 ^ k : Int) : Rat) exp = .ok ((m * 10 ^ (k + exp) : Int) : Rat) := by
  intro fuel
  induction fuel with
  | zero => intro k exp h; omega
  | succ fuel ih =>
    intro k exp he hk
    have step : ∀ j : Nat, ((m * 10 ^ k : Int) : Rat) * ((10 ^ j : Int) : Rat) = ((m * 10 ^ (k + j) : Int) : Rat) := by
      intro j
      rw [← Rat.intCast_mul, Int.mul_assoc, ← Int.pow_add]
    have s4 := step 4
    have s3 := step 3
    have s2 := step 2
    have s1 := step 1
    rw [show (((10 ^ 4 : Int)) : Rat) = 10000 by decide] at s4
    rw [show (((10 ^ 3 : Int)) : Rat) = 1000 by decide] at s3
    rw [show (((10 ^ 2 : Int)) : Rat) = 100 by decide] at s2
    rw [show (((10 ^ 1 : Int)) : Rat) = 10 by decide] at s1
    unfold timesPow10Float timesPow10
    rw [rounds_pow h hm (by omega : k ≤ 21), s4, s3, s2, s1]
    by_cases h4 : exp ≥ 4
    · rw [if_pos h4, if_pos h4, rounds_pow h hm (by omega)]
      have := ih (k + 4) (exp - 4) (by omega) (by omega)
      rw [show k + 4 + (exp - 4) = k + exp by omega] at this
      exact this
    · rw [if_neg h4, if_neg h4]
      by_cases h3 : exp = 3
      · subst h3; rw [if_pos rfl, if_pos rfl, rounds_pow h hm (by omega)]; exact ⟨rfl, rfl⟩
      rw [if_neg h3, if_neg h3]
      by_cases h2 : exp = 2
      · subst h2; rw [if_pos rfl, if_pos rfl, rounds_pow h hm (by omega)]; exact ⟨rfl, rfl⟩
      rw [if_neg h2, if_neg h2]
      by_cases h1 : exp = 1
      · subst h1; rw [if_pos rfl, if_pos rfl, rounds_pow h hm (by omega)]; exact ⟨rfl, rfl⟩
      rw [if_neg h1, if_neg h1]
      have : exp = 0 := by omega
      subst this
      exact ⟨rfl, rfl⟩

/-- The powers of ten that are exact. -/
def smallPower (ntv : Nat) : Bool := !(decide (0x1e0 ≤ ntv) && decide (ntv < 0x300) && decide (19 < (ntv &&& 0x1f)))

theorem numericFloat_eq {rnd : Rat → Rat} (h : Rounds rnd) {props : Nat} (hp : smallPower (props >>> 6) = true) :
    numericFloatFromProps rnd props = (numericValueFromProps props).map (Option.map rnd) := by
  unfold numericFloatFromProps numericValueFromProps
  have e : numericTypeValueFromProps props = props >>> 6 := rfl
  rw [e]
  generalize props >>> 6 = n at hp
  dsimp only
  by_cases h0 : n = 0
  · rw [if_pos h0, if_pos h0]; rfl
  rw [if_neg h0, if_neg h0]
  by_cases h1 : n < 11
  · rw [if_pos h1, if_pos h1]
    show _ = Except.ok (some (rnd _))
    rw [rounds_int h (by omega)]
  rw [if_neg h1, if_neg h1]
  by_cases h2 : n < 21
  · rw [if_pos h2, if_pos h2]
    show _ = Except.ok (some (rnd _))
    rw [rounds_int h (by omega)]
  rw [if_neg h2, if_neg h2]
  by_cases h3 : n < 0xb0
  · rw [if_pos h3, if_pos h3]
    show _ = Except.ok (some (rnd _))
    rw [rounds_int h (by omega)]
  rw [if_neg h3, if_neg h3]
  by_cases h4 : n < 0x1e0
  · rw [if_pos h4, if_pos h4]; rfl
  rw [if_neg h4, if_neg h4]
  by_cases h5 : n < 0x300
  · rw [if_pos h5, if_pos h5]
    unfold smallPower at hp
    simp only [Bool.not_eq_true', Bool.and_eq_false_iff, decide_eq_false_iff_not] at hp
    have hexp : (n &&& 0x1f) ≤ 19 := by omega
    have hm : (((n >>> 5 : Nat) : Int) - 14).natAbs ≤ 9 := by
      rw [Nat.shiftRight_eq_div_pow]
      omega
    have := timesPow10Float_eq h hm ((n &&& 0x1f) + 2 + 1) 0 ((n &&& 0x1f) + 2) (by omega) (by omega)
    simp only [Int.pow_zero, Int.mul_one, Nat.zero_add] at this
    rw [this.1, this.2]
    show Except.ok (some _) = Except.ok (some (rnd _))
    rw [rounds_pow h hm (by omega)]
  rw [if_neg h5, if_neg h5]
  by_cases h6 : n < 0x300 + 36
  · rw [if_pos h6, if_pos h6]
    show _ = Except.ok (some (rnd _))
    rw [rounds_int h]
    rw [Nat.shiftRight_eq_div_pow]
    split
    · omega
    split
    · omega
    split
    · omega
    split
    · omega
    · omega
  rw [if_neg h6, if_neg h6]
  by_cases h7 : n < 0x300 + 36 + 24
  · rw [if_pos h7, if_pos h7]; rfl
  rw [if_neg h7, if_neg h7]
  by_cases h8 : n < 0x300 + 36 + 24 + 16
  · rw [if_pos h8, if_pos h8]; rfl
  rw [if_neg h8, if_neg h8]; rfl

theorem codes_small : ∀ i < 163, smallPower (code packedCodes i) = true := by decide +kernel

/-- C120. For every code point, `getNumericValue` returns the exact numeric value of Unicode 13.0, rounded once: no error is made on
the way. -/
theorem numeric_float {rnd : Rat → Rat} (h : Rounds rnd) (c : Nat) (hc : c ≤ 0x10FFFF) :
    getNumericFloat rnd c = .ok ((standardNumber c).map fun v => rnd ((v.2.1 : Rat) / (v.2.2 : Rat))) := by
  have h1 := (numeric_map c hc).1
  unfold getNumericValue at h1
  unfold getNumericFloat
  rw [get_eq] at h1 ⊢
  change numericValueFromProps (propsTrie.getv c) = _ at h1
  show numericFloatFromProps rnd (propsTrie.getv c) = _
  rw [numericFloat_eq h, h1]
  · cases standardNumber c <;> rfl
  · rw [numeric_code hc]
    exact codes_small _ (value_le c)

/-- Cutting off after 53 binary places is such a rounding. -/
theorem floor_rounds : Rounds fun x => ((x * 2 ^ 53).floor : Rat) / 2 ^ 53 := by
  intro m e _ _
  show (((((m * 2 ^ e : Int) : Rat) * 2 ^ 53).floor : Int) : Rat) / 2 ^ 53 = _
  have h : ((m * 2 ^ e : Int) : Rat) * 2 ^ 53 = ((m * 2 ^ e * 2 ^ 53 : Int) : Rat) := by
    rw [Rat.intCast_mul (m * 2 ^ e)]
    congr 1
  rw [h, Rat.floor_intCast, ← h, Rat.mul_div_cancel]
  decide

/-- U+2153 has the value one third, U+4E07 ten thousand. -/
example : getNumericFloat (fun x => ((x * 2 ^ 53).floor : Rat) / 2 ^ 53) 0x2153 = .ok (some (3002399751580330 / 2 ^ 53)) ∧
    getNumericFloat (fun x => ((x * 2 ^ 53).floor : Rat) / 2 ^ 53) 0x4E07 = .ok (some 10000) := by
  rw [numeric_float floor_rounds _ (by decide), numeric_float floor_rounds _ (by decide)]
  decide +kernel

end Verif.Char.Props

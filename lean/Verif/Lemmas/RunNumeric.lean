import Verif.Lemmas.RunChar
import Verif.Model.NumericFloat
/-! # The numeric values of CharProps.py, executed from its text -/
namespace Verif.PyRun.CharProps
open Verif.PySyntax Verif.Library Verif.Data

variable {w : World} (H : Imported w)
include H

local notation "call[" n ", " f ", " a "]" => callName w (run w n) (n% "CharProps") f a

local macro "start" h:term : tactic => `(tactic| rw [fn_call $h rfl])

/-- The number that a value is, `none` for `None`; rounding is `rnd`. -/
def number (rnd : Rat → Rat) : Val → Option (Option Rat)
  | .none => some none
  | .int i => some (some i)
  | .flt f => some (some (f.value rnd))
  | _ => none

/-- Rounding to floats: what is rounded stays, and so do these powers of ten. -/
structure Rounds (rnd : Rat → Rat) : Prop where
  again : ∀ x, rnd (rnd x) = rnd x
  ten : rnd 10 = 10
  hundred : rnd 100 = 100
  thousand : rnd 1000 = 1000
  tenThousand : rnd 10000 = 10000

omit H in
theorem value_round {rnd : Rat → Rat} (hr : Rounds rnd) (f : Flt) : rnd (f.value rnd) = f.value rnd := by
  cases f <;> exact hr.again _

/-- `k` times multiplied by 10000.0. -/
def scale (f : Flt) : Nat → Flt
  | 0 => f
  | k + 1 => scale (.mul f (.lit 100000 10)) k

omit H in
theorem loop_scale {cond : Env → R Bool} {body : St → R (Flow × St)} (E : Val → Nat → St)
    (hc : ∀ v e, cond (E v e).1 = .ok (decide (4 ≤ e)))
    (hb : ∀ v e f, v.float = some f → 4 ≤ e → body (E v e) = .ok (.next, E (.flt (.mul f (.lit 100000 10))) (e - 4))) (r : Nat) (h : r < 4) :
    ∀ (k : Nat) (f : Flt) (n : Nat), loop cond body (n + k + 1) (E (.flt f) (4 * k + r)) = .ok (.next, E (.flt (scale f k)) r)
  | 0, f, n => by
    simp only [loop, hc, bind_match, Nat.mul_zero, Nat.zero_add, decide_eq_false (show ¬ 4 ≤ r by omega), Bool.false_eq_true, ↓reduceIte, scale]
  | k + 1, f, n => by
    rw [show n + (k + 1) + 1 = (n + k + 1) + 1 by omega, loop]
    simp only [hc, bind_match, decide_eq_true (show 4 ≤ 4 * (k + 1) + r by omega), ↓reduceIte, hb (.flt f) _ f rfl (show 4 ≤ 4 * (k + 1) + r by omega)]
    rw [show 4 * (k + 1) + r - 4 = 4 * k + r by omega]
    exact loop_scale E hc hb r h k _ n

omit H in
theorem pow_scale {rnd : Rat → Rat} (hr : Rounds rnd) (r : Nat) (h : r < 4) : ∀ (k : Nat) (f : Flt) (n : Nat),
    Char.timesPow10Float rnd (n + k + 1) (f.value rnd) (4 * k + r) = Char.timesPow10Float rnd (n + 1) ((scale f k).value rnd) r
  | 0, f, n => by rw [scale]; simp
  | k + 1, f, n => by
    rw [show n + (k + 1) + 1 = (n + k + 1) + 1 by omega, Char.timesPow10Float, if_pos (by omega), scale,
      show 4 * (k + 1) + r - 4 = 4 * k + r by omega, value_round hr]
    have := pow_scale hr r h k (.mul f (.lit 100000 10)) n
    rw [← this, Flt.value, Flt.value, show ((100000 : Nat) : Rat) / ((10 : Nat) : Rat) = 10000 by decide +kernel, hr.tenThousand]

omit H in
theorem loop_first {cond : Env → R Bool} {body : St → R (Flow × St)} (E : Val → Nat → St)
    (hc : ∀ v e, cond (E v e).1 = .ok (decide (4 ≤ e)))
    (hb : ∀ v e f, v.float = some f → 4 ≤ e → body (E v e) = .ok (.next, E (.flt (.mul f (.lit 100000 10))) (e - 4))) {r : Nat} (h : r < 4)
    {v : Val} {f : Flt} (hv : v.float = some f) (k n : Nat) :
    loop cond body (n + k + 1 + 1) (E v (4 * (k + 1) + r)) = .ok (.next, E (.flt (scale (.mul f (.lit 100000 10)) k)) r) := by
  rw [loop]
  simp only [hc, bind_match, decide_eq_true (show 4 ≤ 4 * (k + 1) + r by omega), ↓reduceIte, hb v _ f hv (show 4 ≤ 4 * (k + 1) + r by omega)]
  rw [show 4 * (k + 1) + r - 4 = 4 * k + r by omega]
  exact loop_scale E hc hb r h k _ n

omit H in
theorem loop_none {cond : Env → R Bool} {body : St → R (Flow × St)} (E : Val → Nat → St)
    (hc : ∀ v e, cond (E v e).1 = .ok (decide (4 ≤ e))) {r : Nat} (h : r < 4) (v : Val) (n : Nat) :
    loop cond body (n + 1) (E v r) = .ok (.next, E v r) := by
  simp only [loop, hc, bind_match, decide_eq_false (show ¬ 4 ≤ r by omega), Bool.false_eq_true, ↓reduceIte]

omit H in
theorem pow_int {rnd : Rat → Rat} (hr : Rounds rnd) (i : Int) (k r : Nat) (h : r < 4) :
    Char.timesPow10Float rnd (4 * (k + 1) + r + 1) (i : Rat) (4 * (k + 1) + r) =
      .ok (let x := (scale (.mul (.ofInt i) (.lit 100000 10)) k).value rnd
        if r = 3 then rnd (x * 1000) else if r = 2 then rnd (x * 100) else if r = 1 then rnd (x * 10) else x) := by
  rw [show 4 * (k + 1) + r + 1 = (3 * k + 3 + r) + k + 1 + 1 by omega, Char.timesPow10Float, if_pos (by omega),
    show 4 * (k + 1) + r - 4 = 4 * k + r by omega]
  have e : rnd (rnd i * 10000) = (Flt.mul (.ofInt i) (.lit 100000 10)).value rnd := by
    rw [Flt.value, Flt.value, Flt.value, show ((100000 : Nat) : Rat) / ((10 : Nat) : Rat) = 10000 by decide +kernel, hr.tenThousand]
  rw [e, pow_scale hr r h, Char.timesPow10Float, if_neg (by omega), value_round hr]
  dsimp only
  split
  · rfl
  · split
    · rfl
    · split <;> rfl

omit H in
theorem literals {rnd : Rat → Rat} (hr : Rounds rnd) : rnd (((100 : Nat) : Rat) / ((10 : Nat) : Rat)) = 10 ∧
    rnd (((1000 : Nat) : Rat) / ((10 : Nat) : Rat)) = 100 ∧ rnd (((10000 : Nat) : Rat) / ((10 : Nat) : Rat)) = 1000 := by
  rw [show ((100 : Nat) : Rat) / ((10 : Nat) : Rat) = 10 by decide +kernel, show ((1000 : Nat) : Rat) / ((10 : Nat) : Rat) = 100 by decide +kernel,
    show ((10000 : Nat) : Rat) / ((10 : Nat) : Rat) = 1000 by decide +kernel]
  exact ⟨hr.ten, hr.hundred, hr.thousand⟩

omit H in
theorem flt_float (f : Flt) : (Val.flt f).float = some f := rfl

theorem numericValueFromProps_run {rnd : Rat → Rat} (hr : Rounds rnd) (p n : Nat) :
    (call[n + 12, n% "numericValueFromProps", .cons (.int p) .nil]).map (number rnd) = lift ((Char.numericFloatFromProps rnd p).map some) := by
  start (Names.numericValueFromProps H)
  unfold Char.numericFloatFromProps
  have e1 := numericTypeValueFromProps_run H p (n + 10)
  generalize Char.numericTypeValueFromProps p = v at *
  dsimp only
  by_cases h0 : v = 0
  · rw [if_pos h0]
    py_run [e1, Names.UPROPS_NTV_NONE H, Names.UPROPS_NTV_DIGIT_START H, Names.UPROPS_NTV_DECIMAL_START H, Names.UPROPS_NTV_NUMERIC_START H, Names.UPROPS_NTV_FRACTION_START H, Names.UPROPS_NTV_LARGE_START H, Names.UPROPS_NTV_BASE60_START H, Names.UPROPS_NTV_FRACTION20_START H, Names.UPROPS_NTV_FRACTION32_START H, Names.UPROPS_NTV_RESERVED_START H, decide_eq_true h0, Names.None H, number]
  rw [if_neg h0]
  have d0 := decide_eq_false h0
  clear h0
  by_cases h1 : v < 11
  · rw [if_pos h1]
    py_run [e1, Names.UPROPS_NTV_NONE H, Names.UPROPS_NTV_DIGIT_START H, Names.UPROPS_NTV_DECIMAL_START H, Names.UPROPS_NTV_NUMERIC_START H, Names.UPROPS_NTV_FRACTION_START H, Names.UPROPS_NTV_LARGE_START H, Names.UPROPS_NTV_BASE60_START H, Names.UPROPS_NTV_FRACTION20_START H, Names.UPROPS_NTV_FRACTION32_START H, Names.UPROPS_NTV_RESERVED_START H, d0, decide_eq_true h1, number]
    rfl
  rw [if_neg h1]
  have d1 := decide_eq_false h1
  clear h1
  by_cases h2 : v < 21
  · rw [if_pos h2]
    py_run [e1, Names.UPROPS_NTV_NONE H, Names.UPROPS_NTV_DIGIT_START H, Names.UPROPS_NTV_DECIMAL_START H, Names.UPROPS_NTV_NUMERIC_START H, Names.UPROPS_NTV_FRACTION_START H, Names.UPROPS_NTV_LARGE_START H, Names.UPROPS_NTV_BASE60_START H, Names.UPROPS_NTV_FRACTION20_START H, Names.UPROPS_NTV_FRACTION32_START H, Names.UPROPS_NTV_RESERVED_START H, d0, d1, decide_eq_true h2, number]
    rfl
  rw [if_neg h2]
  have d2 := decide_eq_false h2
  clear h2
  by_cases h3 : v < 0xb0
  · rw [if_pos h3]
    py_run [e1, Names.UPROPS_NTV_NONE H, Names.UPROPS_NTV_DIGIT_START H, Names.UPROPS_NTV_DECIMAL_START H, Names.UPROPS_NTV_NUMERIC_START H, Names.UPROPS_NTV_FRACTION_START H, Names.UPROPS_NTV_LARGE_START H, Names.UPROPS_NTV_BASE60_START H, Names.UPROPS_NTV_FRACTION20_START H, Names.UPROPS_NTV_FRACTION32_START H, Names.UPROPS_NTV_RESERVED_START H, d0, d1, d2, decide_eq_true h3, number]
    rfl
  rw [if_neg h3]
  have d3 := decide_eq_false h3
  clear h3
  by_cases h4 : v < 0x1e0
  · rw [if_pos h4]
    have z : ((((v &&& 15) + 1 : Nat) : Int) = 0) = False := eq_false (by omega)
    py_run [e1, Names.UPROPS_NTV_NONE H, Names.UPROPS_NTV_DIGIT_START H, Names.UPROPS_NTV_DECIMAL_START H, Names.UPROPS_NTV_NUMERIC_START H, Names.UPROPS_NTV_FRACTION_START H, Names.UPROPS_NTV_LARGE_START H, Names.UPROPS_NTV_BASE60_START H, Names.UPROPS_NTV_FRACTION20_START H, Names.UPROPS_NTV_FRACTION32_START H, Names.UPROPS_NTV_RESERVED_START H, d0, d1, d2, d3, decide_eq_true h4, number, z, Flt.value]
    rfl
  rw [if_neg h4]
  have d4 := decide_eq_false h4
  clear h4
  by_cases h5 : v < 0x300
  · rw [if_pos h5]
    have d5 := decide_eq_true h5
    have hx : v &&& 0x1f < 32 := Nat.and_lt_two_pow _ (by decide : 31 < 2 ^ 5)
    have ex : ∃ k r, r < 4 ∧ k < 9 ∧ (v &&& 0x1f) + 2 = 4 * k + r := ⟨((v &&& 0x1f) + 2) / 4, ((v &&& 0x1f) + 2) % 4, by omega, by omega, by omega⟩
    obtain ⟨k, r, h, hk, e⟩ := ex
    have hr2 : k = 0 → 2 ≤ r := by omega
    clear h5 hx
    py_run [e1, Names.UPROPS_NTV_NONE H, Names.UPROPS_NTV_DIGIT_START H, Names.UPROPS_NTV_DECIMAL_START H, Names.UPROPS_NTV_NUMERIC_START H, Names.UPROPS_NTV_FRACTION_START H, Names.UPROPS_NTV_LARGE_START H, Names.UPROPS_NTV_BASE60_START H, Names.UPROPS_NTV_FRACTION20_START H, Names.UPROPS_NTV_FRACTION32_START H, Names.UPROPS_NTV_RESERVED_START H, d0, d1, d2, d3, d4, d5]
    rw [e]
    clear e e1 d0 d1 d2 d3 d4 d5
    generalize (v >>> 5 : Nat) = m
    have c : r = 0 ∨ r = 1 ∨ r = 2 ∨ r = 3 := by omega
    let E (u : Val) (e : Nat) : St := ([(n% "props", .int p), (n% "ntv", .int v), (n% "mant", .int ((m : Int) - (14 : Nat))), (n% "exp", .int e),
      (n% "numValue", u)], [])
    cases k with
    | zero =>
      rw [Nat.mul_zero, Nat.zero_add, loop_none E (fun u e => by py_run [E, test]) h (.int ((m : Int) - (14 : Nat))) (n + 10)]
      rcases c with rfl | rfl | rfl | rfl
      · omega
      · omega
      · rw [show Char.timesPow10Float rnd (2 + 1) (((m : Int) - 14 : Int) : Rat) 2 = .ok (rnd (rnd (((m : Int) - 14 : Int) : Rat) * 100)) from rfl]
        py_run [E, decide_true, decide_false, number, Val.float, Flt.value, literals hr]
        rfl
      · rw [show Char.timesPow10Float rnd (3 + 1) (((m : Int) - 14 : Int) : Rat) 3 = .ok (rnd (rnd (((m : Int) - 14 : Int) : Rat) * 1000)) from rfl]
        py_run [E, decide_true, decide_false, number, Val.float, Flt.value, literals hr]
        rfl
    | succ k =>
      rw [show n + 11 = (n + 9 - k) + k + 1 + 1 by omega, loop_first E (fun u e => by py_run [E, test]) (fun u e f hu he => by
        have s : (e : Int) - (4 : Nat) = ((e - 4 : Nat) : Int) := by omega
        py_run [E, hu, s, flt_float]) h (rfl : (Val.int ((m : Int) - (14 : Nat))).float = _)]
      rw [pow_int hr _ k r h]
      rcases c with rfl | rfl | rfl | rfl <;> py_run [E, decide_true, decide_false, number, flt_float, Flt.value, literals hr] <;> rfl
  rw [if_neg h5]
  have d5 := decide_eq_false h5
  clear h5
  by_cases h6 : v < 0x300 + 36
  · rw [if_pos h6]
    have d6 := decide_eq_true h6
    have hx : v &&& 3 < 4 := Nat.and_lt_two_pow _ (by decide : 3 < 2 ^ 2)
    clear h6
    py_run [e1, Names.UPROPS_NTV_NONE H, Names.UPROPS_NTV_DIGIT_START H, Names.UPROPS_NTV_DECIMAL_START H, Names.UPROPS_NTV_NUMERIC_START H, Names.UPROPS_NTV_FRACTION_START H, Names.UPROPS_NTV_LARGE_START H, Names.UPROPS_NTV_BASE60_START H, Names.UPROPS_NTV_FRACTION20_START H, Names.UPROPS_NTV_FRACTION32_START H, Names.UPROPS_NTV_RESERVED_START H, d0, d1, d2, d3, d4, d5, d6, mul_nat]
    generalize v &&& 3 = x at *
    have c : x = 0 ∨ x = 1 ∨ x = 2 ∨ x = 3 := by omega
    rcases c with rfl | rfl | rfl | rfl <;> py_run [decide_true, decide_false, number, mul_nat] <;> rfl
  rw [if_neg h6]
  have d6 := decide_eq_false h6
  by_cases h7 : v < 0x300 + 36 + 24
  · rw [if_pos h7]
    have s : (v : Int) - (804 : Nat) = ((v - 804 : Nat) : Int) := by omega
    have z : (((20 <<< ((v - 804) >>> 2) : Nat) : Int) = 0) = False := eq_false (by
      rw [Nat.shiftLeft_eq]; have := Nat.pow_pos (n := (v - 804) >>> 2) (show 0 < 2 by omega); omega)
    py_run [e1, Names.UPROPS_NTV_NONE H, Names.UPROPS_NTV_DIGIT_START H, Names.UPROPS_NTV_DECIMAL_START H, Names.UPROPS_NTV_NUMERIC_START H, Names.UPROPS_NTV_FRACTION_START H, Names.UPROPS_NTV_LARGE_START H, Names.UPROPS_NTV_BASE60_START H, Names.UPROPS_NTV_FRACTION20_START H, Names.UPROPS_NTV_FRACTION32_START H, Names.UPROPS_NTV_RESERVED_START H, d0, d1, d2, d3, d4, d5, d6, decide_eq_true h7, number, s, z, Flt.value, mul_nat]
    rfl
  rw [if_neg h7]
  have d7 := decide_eq_false h7
  by_cases h8 : v < 0x300 + 36 + 24 + 16
  · rw [if_pos h8]
    have s : (v : Int) - (828 : Nat) = ((v - 828 : Nat) : Int) := by omega
    have z : (((32 <<< ((v - 828) >>> 2) : Nat) : Int) = 0) = False := eq_false (by
      rw [Nat.shiftLeft_eq]; have := Nat.pow_pos (n := (v - 828) >>> 2) (show 0 < 2 by omega); omega)
    py_run [e1, Names.UPROPS_NTV_NONE H, Names.UPROPS_NTV_DIGIT_START H, Names.UPROPS_NTV_DECIMAL_START H, Names.UPROPS_NTV_NUMERIC_START H, Names.UPROPS_NTV_FRACTION_START H, Names.UPROPS_NTV_LARGE_START H, Names.UPROPS_NTV_BASE60_START H, Names.UPROPS_NTV_FRACTION20_START H, Names.UPROPS_NTV_FRACTION32_START H, Names.UPROPS_NTV_RESERVED_START H, d0, d1, d2, d3, d4, d5, d6, d7, decide_eq_true h8, number, s, z, Flt.value, mul_nat]
    rfl
  rw [if_neg h8]
  py_run [e1, Names.UPROPS_NTV_NONE H, Names.UPROPS_NTV_DIGIT_START H, Names.UPROPS_NTV_DECIMAL_START H, Names.UPROPS_NTV_NUMERIC_START H, Names.UPROPS_NTV_FRACTION_START H, Names.UPROPS_NTV_LARGE_START H, Names.UPROPS_NTV_BASE60_START H, Names.UPROPS_NTV_FRACTION20_START H, Names.UPROPS_NTV_FRACTION32_START H, Names.UPROPS_NTV_RESERVED_START H, d0, d1, d2, d3, d4, d5, d6, d7, decide_eq_false h8, Names.None H, number]

theorem getNumericValue_run {rnd : Rat → Rat} (hr : Rounds rnd) (c n : Nat) :
    (call[n + 13, n% "getNumericValue", .cons (.int c) .nil]).map (number rnd) = lift ((Char.getNumericFloat rnd c).map some) := by
  start (Names.getNumericValue H)
  unfold Char.getNumericFloat
  cases h : Char.propsTrie.get c with
  | error x => py_run [Names.propsTrie H, props_get H, h]
  | ok p =>
    rw [show (do let props ← Except.ok p; Char.numericFloatFromProps rnd props : Py (Option Rat)) = Char.numericFloatFromProps rnd p from rfl,
      ← numericValueFromProps_run H hr p n]
    cases h' : callName w (run w (n + 12)) (n% "CharProps") (n% "numericValueFromProps") (.cons (.int p) .nil) <;>
      py_run [Names.propsTrie H, props_get H, h, h']

end Verif.PyRun.CharProps

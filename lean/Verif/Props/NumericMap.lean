import Verif.Lemmas.MapScan
import Verif.Spec.NumericMap
/-! # Every numeric value of the shipped data is that of the standard (C107) -/
namespace Verif.Char.Props
open Verif Verif.Spec Verif.Char.Spec Verif.Data Verif.Char
set_option maxRecDepth 100000

/-- The codes by which the library denotes the numeric values of the list, with 0 for none in front. -/
def numericCodes : List Nat :=
  [0,
   1, 2, 3, 4, 5, 6, 7, 8, 9, 10, 11, 12, 13, 14, 15, 16, 17, 18, 19, 20, 177, 21, 820, 816, 812, 832, 808, 828, 813, 833,
   804, 223, 219, 217, 216, 215, 214, 805, 213, 255, 212, 211, 210, 247, 228, 283, 209, 315, 244, 279, 226, 243, 260, 277,
   311, 379, 22, 241, 23, 273, 24, 305, 25, 337, 26, 369, 27, 401, 28, 433, 29, 465, 30, 31, 32, 33, 34, 35, 36, 37, 38, 39,
   40, 41, 42, 43, 44, 45, 46, 47, 48, 49, 50, 51, 52, 53, 54, 55, 56, 57, 58, 59, 60, 61, 62, 63, 64, 65, 66, 67, 68, 69,
   70, 71, 81, 91, 101, 111, 121, 512, 544, 576, 608, 640, 672, 704, 736, 481, 513, 545, 577, 609, 641, 673, 705, 737, 482,
   514, 546, 578, 610, 642, 674, 706, 738, 483, 515, 770, 547, 579, 774, 611, 643, 675, 707, 739, 484, 485, 517, 486, 488,
   490]

/-- The codes in one number, ten bits each. -/
noncomputable def packedCodes : Nat := List.rec 0 (fun x _ ih => Nat.add x (Nat.mul 1024 ih)) numericCodes

noncomputable def code (C i : Nat) : Nat := Nat.mod (Nat.shiftRight C (Nat.mul 10 i)) 1024

theorem valueIn_map (g : Nat → Nat) (d : Nat) (runs : List (Nat × Nat × Nat)) (c : Nat) :
    valueIn (g d) (runs.map fun r => (r.1, r.2.1, g r.2.2)) c = g (valueIn d runs c) := by
  unfold valueIn
  induction runs with
  | nil => rfl
  | cons r rs ih =>
    rw [List.map_cons, List.find?_cons, List.find?_cons]
    by_cases h : r.1 ≤ c ∧ c ≤ r.2.1
    · simp only [h, and_self, decide_true]
    · simp only [h, decide_false]
      exact ih

noncomputable def numericCheck : Bool :=
  force packedCodes fun C =>
    propsMap (fun v => Nat.mod (Nat.shiftRight v 6) 1024) 10 0 (numericRuns.map fun r => (r.1, r.2.1, code C r.2.2))

theorem numericMap_scan : numericCheck = true := by decide +kernel

/-- The number a place in the list stands for. -/
def numberAt : Nat → Option (Nat × Int × Nat)
  | 0 => none
  | i + 1 => numericValues[i]?

theorem code_number : ∀ i < 163, numericValue (code packedCodes i) = (numberAt i).map (fun v => ((v.2.1 : Rat) / (v.2.2 : Rat))) := by
  decide +kernel

theorem code_digit : ∀ i < 163, (if ((code packedCodes i : Nat) : Int) - 1 ≤ 9 then ((code packedCodes i : Nat) : Int) - 1 else -1) =
    match numberAt i with
    | some (1, n, _) => n
    | _ => -1 := by decide +kernel

theorem numericRuns_le : ∀ r ∈ numericRuns, r.2.2 ≤ 162 := by decide +kernel

theorem numericMap_last : propsTrie.getv 0x10FFFF >>> 6 = 0 ∧ valueIn 0 numericRuns 0x10FFFF = 0 := by decide +kernel

theorem code_zero : code packedCodes 0 = 0 := by decide +kernel

theorem value_le (c : Nat) : valueIn 0 numericRuns c < 163 := by
  unfold valueIn
  cases h : numericRuns.find? (fun r => decide (r.1 ≤ c ∧ c ≤ r.2.1)) with
  | none => decide
  | some r =>
    have := numericRuns_le r (List.mem_of_find?_eq_some h)
    show r.2.2 < 163
    omega

theorem numeric_code {c : Nat} (hc : c ≤ 0x10FFFF) : propsTrie.getv c >>> 6 = code packedCodes (valueIn 0 numericRuns c) := by
  by_cases hl : c = 0x10FFFF
  · subst hl
    rw [numericMap_last.1, numericMap_last.2, code_zero]
  have h := numericMap_scan
  unfold numericCheck at h
  rw [force_eq] at h
  have key := propsMap_spec (f := fun v => Nat.mod (Nat.shiftRight v 6) 1024) (by decide) (by decide) (by decide)
    (fun v => Nat.mod_lt _ (by decide)) h (c := c) (by omega)
  have hv := valueIn_map (code packedCodes) 0 numericRuns c
  rw [code_zero] at hv
  rw [hv] at key
  rw [← key]
  show _ = (propsTrie.getv c >>> 6) % 1024
  rw [Nat.mod_eq_of_lt]
  have : propsTrie.getv c < 65536 := trie_ok.forall_values (· < 65536) (fun i _ _ => propsIndex.entry_lt i) c
  rw [Nat.shiftRight_eq_div_pow]
  omega

/-- C107. For every code point, `getNumericValue` returns the numeric value of Unicode 13.0, exactly, or `None` if it has none, and
`digitValue` returns the value of the decimal digits and -1 otherwise. -/
theorem numeric_map (c : Nat) (hc : c ≤ 0x10FFFF) :
    getNumericValue c = .ok ((standardNumber c).map fun v => ((v.2.1 : Rat) / (v.2.2 : Rat))) ∧
    digitValue c = .ok (match standardNumber c with
      | some (1, n, _) => n
      | _ => -1) := by
  have e : standardNumber c = numberAt (valueIn 0 numericRuns c) := by
    unfold standardNumber
    cases valueIn 0 numericRuns c <;> rfl
  rw [e]
  constructor
  · unfold getNumericValue
    rw [get_eq]
    show numericValueFromProps (propsTrie.getv c) = _
    rw [numericValueFromProps_eq, numeric_code hc, code_number _ (value_le c)]
  · rw [digitValue_eq, numeric_code hc, code_digit _ (value_le c)]

/-- The Tibetan digit half zero is minus one half, superscript two is a digit but no decimal digit. -/
example : getNumericValue 0xF33 = .ok (some (-1 / 2)) ∧ standardNumber 0xF33 = some (3, -1, 2) ∧ standardNumber 0xB2 = some (2, 2, 1) ∧
    digitValue 0xB2 = .ok (-1) ∧ digitValue 0x669 = .ok 9 ∧ standardNumber 0x41 = none := by decide +kernel

end Verif.Char.Props

import Verif.Lemmas.MapScan
import Verif.Spec.ScriptMap
import Verif.Spec.AgeMap
/-! # Every script and every age of the shipped data is that of the standard (C104, C106) -/
namespace Verif.Char.Props
open Verif Verif.Spec Verif.Data Verif.Char
set_option maxRecDepth 100000

/-- The script number, cut to eight bits. -/
noncomputable def script8 (a : Nat) : Nat := Nat.land (scriptOf a) 255

theorem scriptMap_scan : vecMap (fun a _ _ => script8 a) 8 255 103 scriptRuns = true := by decide +kernel
theorem scriptMap_last : scriptOf (word 0x10FFFF 0) = valueIn 103 scriptRuns 0x10FFFF := by decide +kernel
theorem scriptMap_names : (scriptLegend.map fun e => scriptNames.lookup e.1) = scriptLegend.map fun e => some e.2 := by rfl

/-- C104. For every code point, `getScript` returns the number of its script in Unicode 13.0, and the numbers are those of the
library's table of names. -/
theorem script_map : (∀ c ≤ 0x10FFFF, getScript c = .ok (valueIn 103 scriptRuns c : Int)) ∧
    ∀ e ∈ scriptLegend, scriptNames.lookup e.1 = some e.2 := by
  refine ⟨fun c hc => ?_, fun _ he => List.map_inj_left.mp scriptMap_names _ he⟩
  rw [getScript_eq c hc]
  by_cases hl : c = 0x10FFFF
  · subst hl; rw [scriptMap_last]
  · have h := vecMap_spec (by decide) (by decide) (by decide) (by decide)
      (fun a _ _ => (Nat.lt_of_le_of_lt Nat.and_le_right (by decide) : script8 a < 2 ^ 8)) scriptMap_scan (c := c) (by omega)
    have hlt := (names c).script
    have h : scriptOf (word c 0) &&& (2 ^ 8 - 1) = valueIn 103 scriptRuns c := h
    rw [Nat.and_two_pow_sub_one_eq_mod, Nat.mod_eq_of_lt (by omega)] at h
    rw [h]

/-- The age as a number: ten times the major version, and the minor version. -/
noncomputable def ageNumber (a : Nat) : Nat :=
  force (Nat.land (Nat.shiftRight a 24) 255) fun x => Nat.add (Nat.mul 10 (Nat.shiftRight x 4)) (Nat.land x 15)

theorem ageMap_scan : vecMap (fun a _ _ => ageNumber a) 8 255 0 ageRuns = true := by decide +kernel

theorem ageMinor_scan : vecCheck (fun a _ _ => and (Nat.blt (Nat.land (Nat.shiftRight a 24) 15) 10) (Nat.blt a 4294967296)) = true := by decide +kernel

/-- C106 without the last code point: for every other one, `getAge` returns the version of the standard it was added in, and zeros if
that is later than 13.0. -/
theorem age_map_partial : ∀ c < 0x10FFFF, getAge c = .ok [valueIn 0 ageRuns c / 10, valueIn 0 ageRuns c % 10, 0, 0] := by
  intro c hc
  rw [getAge_eq]
  have hf : ∀ a b d : Nat, ageNumber a < 2 ^ 8 := fun a _ _ => by
    unfold ageNumber
    rw [force_eq]
    show 10 * ((a >>> 24 &&& 255) >>> 4) + ((a >>> 24 &&& 255) &&& 15) < 256
    have h1 : (a >>> 24 &&& 255) ≤ 255 := Nat.and_le_right
    have h2 : ((a >>> 24 &&& 255) &&& 15) ≤ 15 := Nat.and_le_right
    rw [Nat.shiftRight_eq_div_pow]
    omega
  have h := vecMap_spec (by decide) (by decide) (by decide) (by decide) hf ageMap_scan hc
  have hs := vec_forall ageMinor_scan c
  simp only [Bool.and_eq_true, Nat.blt_eq] at hs
  rw [← h]
  have e : word c 0 >>> 24 &&& 255 = word c 0 >>> 24 := by
    rw [show (255 : Nat) = 2 ^ 8 - 1 by decide, Nat.and_two_pow_sub_one_eq_mod]
    refine Nat.mod_eq_of_lt ?_
    rw [Nat.shiftRight_eq_div_pow]
    omega
  unfold ageNumber
  rw [force_eq]
  have e' : Nat.land (Nat.shiftRight (word c 0) 24) 255 = word c 0 >>> 24 := e
  rw [e']
  have hm : word c 0 >>> 24 &&& 15 < 10 := hs.1
  show Except.ok [word c 0 >>> 24 >>> 4, word c 0 >>> 24 &&& 15, 0, 0] =
    .ok [(10 * (word c 0 >>> 24 >>> 4) + (word c 0 >>> 24 &&& 15)) / 10, (10 * (word c 0 >>> 24 >>> 4) + (word c 0 >>> 24 &&& 15)) % 10, 0, 0]
  have e1 : word c 0 >>> 24 >>> 4 = (10 * (word c 0 >>> 24 >>> 4) + (word c 0 >>> 24 &&& 15)) / 10 := by omega
  have e2 : word c 0 >>> 24 &&& 15 = (10 * (word c 0 >>> 24 >>> 4) + (word c 0 >>> 24 &&& 15)) % 10 := by omega
  rw [← e1, ← e2]

/-- C106 does not hold for U+10FFFF, which was set aside as a noncharacter in version 2.0 like U+10FFFE. -/
theorem age_map_refuted : getAge 0x10FFFF = .ok [0, 0, 0, 0] ∧ valueIn 0 ageRuns 0x10FFFF = 20 ∧ getAge 0x10FFFE = .ok [2, 0, 0, 0] := by
  decide +kernel

example : getScript 0x3B1 = .ok 14 ∧ (14, "Grek") ∈ scriptLegend ∧ getScript 0x378 = .ok 103 ∧ (103, "Zzzz") ∈ scriptLegend ∧
    getAge 0x20AC = .ok [2, 1, 0, 0] ∧ getAge 0x378 = .ok [0, 0, 0, 0] := by decide +kernel

end Verif.Char.Props

import Verif.Props.CharNames
import Verif.Props.CategoryMap
import Verif.Lemmas.MapSets
import Verif.Spec.ExtendedNames
/-! # The labels in extended names are those of the standard's categories (C73) -/
namespace Verif.CharNames.Props
open Verif Verif.Spec Verif.Char.Spec Verif.CharNames.Spec

/-- The table of names and the words of the specification agree, number by number. -/
theorem charCatNames_words : ∀ v < 30, (categoryLegend.lookup v).isSome = true ∧
    ((categoryLegend.lookup v).bind fun category => categoryWords.lookup category) = charCatNames[v]? := by decide +kernel

set_option maxRecDepth 100000 in
/-- In the standard's table, category number 18 is given to the surrogates only. -/
theorem surrogate_category {c : Nat} : valueIn 0 categoryRuns c = 18 ↔ 0xD800 ≤ c ∧ c ≤ 0xDFFF := by
  rw [valueRanges_spec (R := [(0xD800, 0xDFFF)]) (next := 0) (by decide) (by decide +kernel) (by decide +kernel)]
  simp [InRanges]

/-- C73. The label in the extended name of a code point outside the algorithmic ranges says its general category in Unicode 13.0,
or that it is a noncharacter, a leading or a trailing surrogate. -/
theorem extendedName_label (N : Names) {c : Nat} (hc : c ≤ 0x10FFFF) (hr : ∀ r ∈ N.ranges, ¬ (r.start ≤ c ∧ c < r.stop)) :
    ∃ label, HasLabel c label ∧
      N.getCharName c 2 = .ok (codes "<" ++ codes label ++ codes "-" ++ paddedHex 4 c ++ codes ">") := by
  have hf : N.ranges.find? (·.charInRange c) = none := by
    apply List.find?_eq_none.mpr
    intro r hr'
    rw [charInRange_iff]
    exact hr r hr'
  have hv := Char.Props.category_map.1 c hc
  have hlt : valueIn 0 categoryRuns c < 30 := by
    have h := Char.gcOf_lt c
    rwa [← Except.ok.inj (hv.symm.trans (Char.getGeneralCategory_eq c))] at h
  have key : ∀ k, getCharCat c = .ok k → k < 33 →
      N.getCharName c 2 = .ok (codes "<" ++ codes (charCatNames.getD k "") ++ codes "-" ++ paddedHex 4 c ++ codes ">") := by
    intro k hk hlt
    unfold Names.getCharName getCharCatName
    rw [hf, hk]
    simp only [U_EXTENDED_CHAR_NAME, if_true, bind, Except.bind]
    rw [if_neg (by show ¬ k ≥ 33; omega)]
  have hs := charCat_spec c _ hc hv
  unfold HasLabel
  by_cases h1 : (0xFDD0 ≤ c ∧ c ≤ 0xFDEF) ∨ c % 0x10000 = 0xFFFE ∨ c % 0x10000 = 0xFFFF
  · rw [if_pos (by omega)] at hs
    exact ⟨_, by rw [if_pos h1]; rfl, key _ hs (by decide)⟩
  rw [if_neg (by omega)] at hs
  simp only [if_neg h1]
  by_cases h2 : valueIn 0 categoryRuns c = 18
  · have h3 := surrogate_category.mp h2
    rw [if_pos h2] at hs
    by_cases h4 : c ≤ 0xDBFF
    · rw [if_pos ⟨h3.1, h4⟩] at hs
      exact ⟨_, by rw [if_pos ⟨h3.1, h4⟩]; rfl, key _ hs (by decide)⟩
    · rw [if_neg (by omega)] at hs
      exact ⟨_, by rw [if_neg (by omega), if_pos (by omega)]; rfl, key _ hs (by decide)⟩
  · have h3 : ¬ (0xD800 ≤ c ∧ c ≤ 0xDFFF) := fun h => h2 (surrogate_category.mpr h)
    rw [if_neg h2] at hs
    obtain ⟨w1, w2⟩ := charCatNames_words _ hlt
    obtain ⟨category, hcat⟩ := Option.isSome_iff_exists.mp w1
    have hlen : valueIn 0 categoryRuns c < charCatNames.length := by show _ < 33; omega
    rw [hcat, List.getElem?_eq_getElem hlen] at w2
    refine ⟨_, ?_, key _ hs (by omega)⟩
    rw [if_neg (by omega), if_neg (by omega)]
    refine ⟨category, ⟨category, by simp, hcat⟩, ?_⟩
    rw [List.getD_eq_getElem?_getD, List.getElem?_eq_getElem hlen]
    exact w2

/-- U+005B is an opening bracket, as the project's own test expects. -/
example : HasLabel 0x5B "start punctuation" ∧ HasLabel 0xD801 "lead surrogate" ∧ HasLabel 0xFFFF "noncharacter" ∧
    ∀ r ∈ demoNames.ranges, ¬ (r.start ≤ 0x5B ∧ 0x5B < r.stop) := by
  refine ⟨?_, by simp [HasLabel], by simp [HasLabel], by decide⟩
  exact ⟨"Ps", ⟨"Ps", by simp, by decide +kernel⟩, by decide⟩

end Verif.CharNames.Props

import Verif.Lemmas.MapScan
import Verif.Spec.CategoryMap
/-! # Every general category of the shipped data is that of the standard (C102) -/
namespace Verif.Char.Props
open Verif Verif.Spec Verif.Char.Spec Verif.Data Verif.Char
set_option maxRecDepth 100000

theorem categoryMap_scan : propsMap (fun v => Nat.land v 0x1f) 5 0 categoryRuns = true := by decide +kernel

theorem categoryMap_last : propsTrie.getv 0x10FFFF &&& 0x1f = valueIn 0 categoryRuns 0x10FFFF := by decide +kernel

theorem categoryMap_names : (categoryLegend.map fun e => generalCategoryNames.lookup e.1) = categoryLegend.map fun e => some e.2 := by
  rfl

theorem legend_of {names legend : List (Nat × String)} (h : (legend.map fun e => names.lookup e.1) = legend.map fun e => some e.2) :
    ∀ e ∈ legend, names.lookup e.1 = some e.2 :=
  fun _ he => List.map_inj_left.mp h _ he

/-- C102. For every code point, `getGeneralCategory` returns the number of its general category in Unicode 13.0, and the
numbers are those of the library's table of names. -/
theorem category_map : (∀ c ≤ 0x10FFFF, getGeneralCategory c = .ok (valueIn 0 categoryRuns c)) ∧
    ∀ e ∈ categoryLegend, generalCategoryNames.lookup e.1 = some e.2 := by
  refine ⟨fun c hc => ?_, legend_of categoryMap_names⟩
  rw [getGeneralCategory_eq, gcOf]
  by_cases hl : c = 0x10FFFF
  · subst hl; rw [categoryMap_last]
  · exact congrArg Except.ok (propsMap_spec (by decide) (by decide) (by decide)
      (fun v => Nat.lt_of_le_of_lt Nat.and_le_right (by decide)) categoryMap_scan (by omega))

example : valueIn 0 categoryRuns 0x1C5 = 3 ∧ (3, "Lt") ∈ categoryLegend ∧ getGeneralCategory 0x1C5 = .ok 3 := by decide +kernel

end Verif.Char.Props

import Verif.Model.CategoryMasks
import Verif.Props.CategoryMap
import Verif.Spec.CategoryMasks
import Verif.Spec.Classes
/-! # The masks of general categories (C128) -/
namespace Verif.Uchar.Props
open Verif Verif.Spec Verif.Char Verif.Char.Spec Verif.Uchar.Spec

/-- Of the 30 numbers of categories, each mask selects those of its group. -/
theorem masks_table : ∀ masks ∈ [headerMasks, categoryMasks], ∀ g ∈ categoryGroups, ∃ mask ∈ masks.lookup g.1, ∀ v < 30,
    (U_MASK v &&& mask != 0) = (categoryLegend.lookup v).any (fun name => g.2.contains name) := by
  decide +kernel

/-- C128. The table of masks of either module has a mask for every group, and no others. For every code point the bit of the
number that `getGeneralCategory` returns is set in the mask exactly if the general category of the code point in Unicode 13.0
belongs to the group. The bit is what `U_MASK` and `gcMask` compute. -/
theorem category_masks : ∀ masks ∈ [headerMasks, categoryMasks], masks.map Prod.fst = categoryGroups.map Prod.fst ∧
    ∀ xx group, (xx, group) ∈ categoryGroups → ∃ mask, masks.lookup xx = some mask ∧
      ∀ c ≤ 0x10FFFF, ∃ gc, getGeneralCategory c = .ok gc ∧ U_MASK gc = 2 ^ gc ∧ gcMask gc = 2 ^ gc ∧
        (U_MASK gc &&& mask ≠ 0 ↔ HasCategory c group) := by
  intro masks hm
  refine ⟨by revert masks; decide +kernel, fun xx group hg => ?_⟩
  obtain ⟨mask, h1, h2⟩ := masks_table masks hm _ hg
  refine ⟨mask, h1, fun c hc => ?_⟩
  have hv := Char.Props.category_map.1 c hc
  have hlt : valueIn 0 categoryRuns c < 30 := by
    have h := Char.gcOf_lt c
    rwa [← Except.ok.inj (hv.symm.trans (Char.getGeneralCategory_eq c))] at h
  refine ⟨_, hv, by simp [U_MASK, Nat.one_shiftLeft], by simp [gcMask, Nat.one_shiftLeft], ?_⟩
  have h := h2 _ hlt
  rw [← bne_iff_ne, h]
  unfold HasCategory
  cases categoryLegend.lookup (valueIn 0 categoryRuns c) with
  | none => simp
  | some name => simp [and_comm]

example : headerMasks ∈ [headerMasks, categoryMasks] ∧ ("LC", ["Lu", "Ll", "Lt"]) ∈ categoryGroups ∧
    headerMasks.lookup "LC" = some 14 ∧ HasCategory 0x1C5 ["Lu", "Ll", "Lt"] := by
  refine ⟨by simp, by decide, by decide, "Lt", by simp, by decide +kernel⟩

end Verif.Uchar.Props

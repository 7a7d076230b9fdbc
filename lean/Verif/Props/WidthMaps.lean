import Verif.Lemmas.MapScan
import Verif.Spec.WidthMaps
/-! # Every East Asian width and decomposition type of the shipped data is that of the standard (C105) -/
namespace Verif.Char.Props
open Verif Verif.Spec Verif.Data Verif.Char
set_option maxRecDepth 100000

theorem widthMap_scan : vecMap (fun a _ _ => vecField 0xe0000 17 a) 3 7 0 widthRuns = true := by decide +kernel
theorem decompositionMap_scan : vecMap (fun _ _ d => Nat.land d 0x1f) 5 31 0 decompositionRuns = true := by decide +kernel

theorem widthMap_last : (word 0x10FFFF 0 &&& 0xe0000) >>> 17 = valueIn 0 widthRuns 0x10FFFF ∧
    word 0x10FFFF 2 &&& 0x1f = valueIn 0 decompositionRuns 0x10FFFF := by decide +kernel

theorem widthMap_names : (widthLegend.map fun e => eastAsianWidthNames.lookup e.1) = widthLegend.map fun e => some e.2 := by rfl
theorem decompositionMap_names : (decompositionLegend.map fun e => decompositionTypeNames.lookup e.1) = decompositionLegend.map fun e => some e.2 := by
  rfl

/-- C105. For every code point, `getEastAsianWidth` and `getDecompType` return the numbers of its width and of its decomposition
type in Unicode 13.0, and the numbers are those of the library's tables of names. -/
theorem width_maps : MapIs getEastAsianWidth eastAsianWidthNames 0 widthRuns widthLegend ∧
    MapIs getDecompType decompositionTypeNames 0 decompositionRuns decompositionLegend := by
  refine ⟨mapIs_of (f := fun a _ _ => vecField 0xe0000 17 a) (by decide) (fun _ _ _ => maskShift_lt (by decide)) (fun c => ?_) widthMap_scan
      widthMap_last.1 widthMap_names,
    mapIs_of (f := fun _ _ d => Nat.land d 0x1f) (by decide) (fun _ _ _ => Nat.lt_of_le_of_lt Nat.and_le_right (by decide)) (fun c => ?_)
      decompositionMap_scan widthMap_last.2 decompositionMap_names⟩
  · unfold getEastAsianWidth eastAsianWidthFromVecIndex
    rw [vget_eq]
    show (unicodePropertiesFromVecIndex (propsVectorTrie.getv c) 0 >>= _) = _
    rw [vec_get c 0 (by decide)]; rfl
  · unfold getDecompType decompTypeFromVecIndex
    rw [vget_eq]
    show (unicodePropertiesFromVecIndex (propsVectorTrie.getv c) 2 >>= _) = _
    rw [vec_get c 2 (by decide)]; rfl

/-- The fullwidth letter A and the ligature fi. -/
example : getEastAsianWidth 0xFF21 = .ok 3 ∧ (3, "F") ∈ widthLegend ∧ getDecompType 0xFB01 = .ok 2 ∧
    (2, "com") ∈ decompositionLegend := by decide +kernel

end Verif.Char.Props

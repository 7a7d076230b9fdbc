import Verif.Lemmas.MapScan
import Verif.Spec.ClusterMaps
import Verif.Spec.SentenceMap
import Verif.Spec.LineMap
/-! # Every break class of the shipped data is that of the standard (C103) -/
namespace Verif.Char.Props
open Verif Verif.Spec Verif.Data Verif.Char
set_option maxRecDepth 100000

theorem graphemeMap_scan : vecMap (fun _ _ d => vecField 0x3e0 5 d) 5 31 0 graphemeRuns = true := by decide +kernel
theorem wordMap_scan : vecMap (fun _ _ d => vecField 0x7c00 10 d) 5 31 0 wordRuns = true := by decide +kernel
theorem sentenceMap_scan : vecMap (fun _ _ d => vecField 0xf8000 15 d) 5 31 0 sentenceRuns = true := by decide +kernel
theorem lineMap_scan : vecMap (fun _ _ d => vecField 0x3f00000 20 d) 6 63 0 lineRuns = true := by decide +kernel

theorem breakMap_last :
    (word 0x10FFFF 2 &&& 0x3e0) >>> 5 = valueIn 0 graphemeRuns 0x10FFFF ∧ (word 0x10FFFF 2 &&& 0x7c00) >>> 10 = valueIn 0 wordRuns 0x10FFFF ∧
    (word 0x10FFFF 2 &&& 0xf8000) >>> 15 = valueIn 0 sentenceRuns 0x10FFFF ∧ (word 0x10FFFF 2 &&& 0x3f00000) >>> 20 = valueIn 0 lineRuns 0x10FFFF := by
  decide +kernel

theorem graphemeMap_names : (graphemeLegend.map fun e => graphemeClusterBreakNames.lookup e.1) = graphemeLegend.map fun e => some e.2 := by rfl
theorem wordMap_names : (wordLegend.map fun e => wordBreakNames.lookup e.1) = wordLegend.map fun e => some e.2 := by rfl
theorem sentenceMap_names : (sentenceLegend.map fun e => sentenceBreakNames.lookup e.1) = sentenceLegend.map fun e => some e.2 := by rfl
theorem lineMap_names : (lineLegend.map fun e => lineBreakNames.lookup e.1) = lineLegend.map fun e => some e.2 := by rfl

/-- C103. For every code point, the four calls return the number of its break class in Unicode 13.0, and the numbers are those
of the library's tables of names. -/
theorem break_maps :
    MapIs getGraphemeClusterBreak graphemeClusterBreakNames 0 graphemeRuns graphemeLegend ∧
    MapIs getWordBreak wordBreakNames 0 wordRuns wordLegend ∧
    MapIs getSentenceBreak sentenceBreakNames 0 sentenceRuns sentenceLegend ∧
    MapIs getLineBreak lineBreakNames 0 lineRuns lineLegend := by
  refine ⟨mapIs_of (f := fun _ _ d => vecField 0x3e0 5 d) (by decide) (fun _ _ _ => maskShift_lt (by decide)) (fun c => ?_) graphemeMap_scan breakMap_last.1 graphemeMap_names,
    mapIs_of (f := fun _ _ d => vecField 0x7c00 10 d) (by decide) (fun _ _ _ => maskShift_lt (by decide)) (fun c => ?_) wordMap_scan breakMap_last.2.1 wordMap_names,
    mapIs_of (f := fun _ _ d => vecField 0xf8000 15 d) (by decide) (fun _ _ _ => maskShift_lt (by decide)) (fun c => ?_) sentenceMap_scan breakMap_last.2.2.1 sentenceMap_names,
    mapIs_of (f := fun _ _ d => vecField 0x3f00000 20 d) (by decide) (fun _ _ _ => maskShift_lt (by decide)) (fun c => ?_) lineMap_scan breakMap_last.2.2.2 lineMap_names⟩
  · unfold getGraphemeClusterBreak graphemeClusterBreakFromVecIndex
    rw [vget_eq]
    show (unicodePropertiesFromVecIndex (propsVectorTrie.getv c) 2 >>= _) = _
    rw [vec_get c 2 (by decide)]; rfl
  · unfold getWordBreak wordBreakFromVecIndex
    rw [vget_eq]
    show (unicodePropertiesFromVecIndex (propsVectorTrie.getv c) 2 >>= _) = _
    rw [vec_get c 2 (by decide)]; rfl
  · unfold getSentenceBreak sentenceBreakFromVecIndex
    rw [vget_eq]
    show (unicodePropertiesFromVecIndex (propsVectorTrie.getv c) 2 >>= _) = _
    rw [vec_get c 2 (by decide)]; rfl
  · unfold getLineBreak lineBreakFromVecIndex
    rw [vget_eq]
    show (unicodePropertiesFromVecIndex (propsVectorTrie.getv c) 2 >>= _) = _
    rw [vec_get c 2 (by decide)]; rfl

/-- A digit, by each of the four. -/
example : getGraphemeClusterBreak 0x39 = .ok 0 ∧ getWordBreak 0x39 = .ok 6 ∧ getSentenceBreak 0x39 = .ok 5 ∧ getLineBreak 0x39 = .ok 19 ∧
    (6, "NU") ∈ wordLegend ∧ (5, "NU") ∈ sentenceLegend ∧ (19, "NU") ∈ lineLegend := by decide +kernel

end Verif.Char.Props

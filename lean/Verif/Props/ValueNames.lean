import Verif.Props.CategoryMap
import Verif.Props.BidiMaps
import Verif.Props.BreakMaps
import Verif.Props.WidthMaps
import Verif.Props.ScriptMap
import Verif.Data.Keys
import Verif.Spec.ValueNames
/-! # The constants for property values are called as in the standard (C129)

`Data.Names` holds the dictionaries of UCDTypeDictionaries.py with their keys resolved to numbers, `Data.Keys` the names of the
constants that are their keys.
-/
namespace Verif.ValueNames.Props
open Verif Verif.Spec Verif.Char Verif.Char.Spec Verif.Data
set_option maxRecDepth 100000

/-- Rows of a dictionary: value of the constant, name of the constant, short name of the property value. -/
def rows (names : List (Nat × String)) (keys : List Nat) : List (Nat × Str × String) :=
  (names.zip keys).map fun p => (p.1.1, nameOf p.2, p.1.2)

/-- For every code point below `limit` the call returns the value of the constant that ICU has for the property value of the code
point in the standard; `Returns c n` says that the call returns `n` for `c`. -/
def ConstantsMean (limit : Nat) (Returns : Nat → Nat → Prop) (names : List (Nat × String)) (keys : List Nat) (property pre : String)
    (default : Nat) (runs : List (Nat × Nat × Nat)) (legend : List (Nat × String)) (aliases : List (String × String)) : Prop :=
  names.length = keys.length ∧
  ∀ c < limit, ∃ (n : Nat) (constant : Str) (short long : String), Returns c n ∧ (n, constant, short) ∈ rows names keys ∧
    legend.lookup (valueIn default runs c) = some short ∧ aliases.lookup short = some long ∧ constant = constantName property pre long

/-! ## Checks -/

/-- The check for one value. -/
def okValue (names : List (Nat × String)) (keys : List Nat) (property pre : String) (legend : List (Nat × String))
    (aliases : List (String × String)) (v : Nat) : Bool :=
  match legend.lookup v with
  | none => false
  | some short => match aliases.lookup short with
    | none => false
    | some long => (names.zip keys).any fun p => p.1.1 == v && p.1.2 == short && nameOf p.2 == constantName property pre long

/-- The values of the ranges, as bits of a number. -/
noncomputable def valueBits (runs : List (Nat × Nat × Nat)) : Nat → Nat :=
  List.rec (fun acc => acc) (fun r _ ih acc => force (Nat.lor acc (Nat.shiftLeft 1 r.2.2)) ih) runs

theorem valueBits_mono (v : Nat) : ∀ (runs : List (Nat × Nat × Nat)) (acc : Nat), acc.testBit v = true → (valueBits runs acc).testBit v = true
  | [], _, h => h
  | r :: runs, acc, h => by
    show (force (acc ||| 1 <<< r.2.2) (valueBits runs)).testBit v = true
    rw [force_eq]
    exact valueBits_mono v runs _ (by rw [Nat.testBit_or, h]; rfl)

theorem valueBits_mem : ∀ (runs : List (Nat × Nat × Nat)) (acc : Nat), ∀ r ∈ runs, (valueBits runs acc).testBit r.2.2 = true
  | [], _, _, hr => absurd hr (by simp)
  | q :: runs, acc, r, hr => by
    show (force (acc ||| 1 <<< q.2.2) (valueBits runs)).testBit r.2.2 = true
    rw [force_eq]
    rcases List.mem_cons.mp hr with rfl | hr
    · exact valueBits_mono _ _ _ (by rw [Nat.testBit_or, Nat.one_shiftLeft, Nat.testBit_two_pow_self, Bool.or_true])
    · exact valueBits_mem runs _ r hr

/-- All values from 0 on whose bits are set are in order. -/
def okBits (names : List (Nat × String)) (keys : List Nat) (property pre : String) (legend : List (Nat × String))
    (aliases : List (String × String)) (bits : Nat) : Bool :=
  decide (bits < 2 ^ 200) && (List.range 200).all fun v => !bits.testBit v || okValue names keys property pre legend aliases v

theorem mean_of {limit : Nat} {Returns : Nat → Nat → Prop} {names : List (Nat × String)} {keys : List Nat} {property pre : String}
    {default : Nat} {runs : List (Nat × Nat × Nat)} {legend : List (Nat × String)} {aliases : List (String × String)}
    (hl : names.length = keys.length) (hr : ∀ c < limit, Returns c (valueIn default runs c))
    (ho : force (valueBits runs (1 <<< default)) (okBits names keys property pre legend aliases) = true) :
    ConstantsMean limit Returns names keys property pre default runs legend aliases := by
  refine ⟨hl, fun c hc => ?_⟩
  rw [force_eq] at ho
  generalize hb : valueBits runs (1 <<< default) = bits at ho
  have hbit : bits.testBit (valueIn default runs c) = true := by
    rw [← hb]
    unfold valueIn
    split
    · rename_i r h
      exact valueBits_mem _ _ _ (List.mem_of_find?_eq_some h)
    · exact valueBits_mono _ _ _ (by rw [Nat.one_shiftLeft, Nat.testBit_two_pow_self])
  unfold okBits at ho
  rw [Bool.and_eq_true, decide_eq_true_iff, List.all_eq_true] at ho
  have hv : valueIn default runs c < 200 := by
    rcases Nat.lt_or_ge (valueIn default runs c) 200 with h | h
    · exact h
    · rw [Nat.testBit_lt_two_pow (Nat.lt_of_lt_of_le ho.1 (Nat.pow_le_pow_right (by decide) h))] at hbit
      cases hbit
  have hk := ho.2 _ (List.mem_range.mpr hv)
  rw [hbit, Bool.not_true, Bool.false_or] at hk
  unfold okValue at hk
  split at hk
  · cases hk
  · rename_i short hs
    split at hk
    · cases hk
    · rename_i long ha
      obtain ⟨p, hp, h⟩ := List.any_eq_true.mp hk
      simp only [Bool.and_eq_true, beq_iff_eq] at h
      refine ⟨_, nameOf p.2, short, long, hr c hc, List.mem_map.mpr ⟨p, hp, ?_⟩, hs, ha, h.2⟩
      rw [h.1.1, h.1.2]

theorem lt_of {P : Nat → Prop} (h : ∀ c ≤ 0x10FFFF, P c) : ∀ c < 0x110000, P c := fun c hc => h c (by omega)

/-! ## The properties -/

/-- C129. For every code point the calls return the values of the constants that ICU has for the property values of the code point
in Unicode 13.0. The names of the constants are the long names of the values, except for those of `icuNames`. -/
theorem constants_mean :
    ConstantsMean 0x110000 (fun c n => getGeneralCategory c = .ok n) generalCategoryNames Keys.generalCategoryNames "gc" "U" 0
      categoryRuns categoryLegend categoryAliases ∧
    ConstantsMean 0x110000 (fun c n => Bidi.getJoiningType c = .ok n) joiningTypeNames Keys.joiningTypeNames "jt" "U_JT" 0
      joiningRuns joiningLegend joiningAliases ∧
    ConstantsMean 0x110000 (fun c n => Bidi.getJoiningGroup c = .ok n) joiningGroupNames Keys.joiningGroupNames "jg" "U_JG" 0
      groupRuns groupLegend groupAliases ∧
    ConstantsMean 0x110000 (fun c n => getGraphemeClusterBreak c = .ok n) graphemeClusterBreakNames Keys.graphemeClusterBreakNames
      "GCB" "U_GCB" 0 graphemeRuns graphemeLegend graphemeAliases ∧
    ConstantsMean 0x110000 (fun c n => getWordBreak c = .ok n) wordBreakNames Keys.wordBreakNames "WB" "U_WB" 0
      wordRuns wordLegend wordAliases ∧
    ConstantsMean 0x110000 (fun c n => getSentenceBreak c = .ok n) sentenceBreakNames Keys.sentenceBreakNames "SB" "U_SB" 0
      sentenceRuns sentenceLegend sentenceAliases ∧
    ConstantsMean 0x110000 (fun c n => getLineBreak c = .ok n) lineBreakNames Keys.lineBreakNames "lb" "U_LB" 0
      lineRuns lineLegend lineAliases ∧
    ConstantsMean 0x110000 (fun c n => getEastAsianWidth c = .ok n) eastAsianWidthNames Keys.eastAsianWidthNames "ea" "U_EA" 0
      widthRuns widthLegend widthAliases ∧
    ConstantsMean 0x110000 (fun c n => getDecompType c = .ok n) decompositionTypeNames Keys.decompositionTypeNames "dt" "U_DT" 0
      decompositionRuns decompositionLegend decompositionAliases ∧
    ConstantsMean 0x110000 (fun c n => getScript c = .ok (n : Int)) scriptNames Keys.scriptNames "sc" "USCRIPT" 103
      scriptRuns scriptLegend scriptAliases :=
  ⟨mean_of (by decide +kernel) (lt_of Char.Props.category_map.1) (by decide +kernel),
   mean_of (by decide +kernel) (lt_of Bidi.Props.joining_maps.1.1) (by decide +kernel),
   mean_of (by decide +kernel) (lt_of Bidi.Props.joining_maps.2.1) (by decide +kernel),
   mean_of (by decide +kernel) (lt_of Char.Props.break_maps.1.1) (by decide +kernel),
   mean_of (by decide +kernel) (lt_of Char.Props.break_maps.2.1.1) (by decide +kernel),
   mean_of (by decide +kernel) (lt_of Char.Props.break_maps.2.2.1.1) (by decide +kernel),
   mean_of (by decide +kernel) (lt_of Char.Props.break_maps.2.2.2.1) (by decide +kernel),
   mean_of (by decide +kernel) (lt_of Char.Props.width_maps.1.1) (by decide +kernel),
   mean_of (by decide +kernel) (lt_of Char.Props.width_maps.2.1) (by decide +kernel),
   mean_of (by decide +kernel) (lt_of Char.Props.script_map.1) (by decide +kernel)⟩

example : (5, nameOf 0x53544f445f45454c425f52454452414c5f47, "x") ∉ rows generalCategoryNames Keys.generalCategoryNames ∧
    constantName "lb" "U_LB" "Ideographic" = [85, 95, 76, 66, 95, 73, 68, 69, 79, 71, 82, 65, 80, 72, 73, 67] ∧
    lineAliases.lookup "ID" = some "Ideographic" ∧ getLineBreak 0x4E00 = .ok 14 := by decide +kernel

/-- C129 for bidi classes, without the last code point (`class_map_refuted`). -/
theorem direction_constants_partial : ConstantsMean 0x10FFFF (fun c n => Bidi.getCharDirection c = .ok n) bidiClassNames Keys.bidiClassNames
    "bc" "U" 0 classRuns classLegend classAliases :=
  mean_of (by decide +kernel) Bidi.Props.class_map_partial.1 (by decide +kernel)

end Verif.ValueNames.Props

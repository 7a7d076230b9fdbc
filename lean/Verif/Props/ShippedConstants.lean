import Verif.Lemmas.HeaderLookup
import Verif.Model.CategoryMasks
import Verif.Model.CharNames
/-! # The modules of constants and dictionaries as they are in the repository (C131)

`Data.Text` holds the texts of the files. `importModule` is the model of Python in Model/PyExpr.lean, `readDictionaries` the reader of
dictionaries in Spec/DictText.lean. `tables` are the dictionaries that the rest of the model uses: numbers and names.
-/
namespace Verif.HeaderText.Props
open Verif PyExpr Data.Text UCDReader.Spec UCDReader.Props HeaderText
set_option maxRecDepth 100000

/-- The dictionaries of the model, with their names in the file. -/
def tables : List (Str × List (Nat × String)) :=
 [(txt "bidiClassNames", Data.bidiClassNames),
  (txt "blockNames", Data.blockNames),
  (txt "decompositionTypeNames", Data.decompositionTypeNames),
  (txt "eastAsianWidthNames", Data.eastAsianWidthNames),
  (txt "generalCategoryNames", Data.generalCategoryNames),
  (txt "graphemeClusterBreakNames", Data.graphemeClusterBreakNames),
  (txt "hangulSyllableTypeNames", Data.hangulSyllableTypeNames),
  (txt "indicPositionalCategoryNames", Data.indicPositionalCategoryNames),
  (txt "indicSyllabicCategoryNames", Data.indicSyllabicCategoryNames),
  (txt "joiningGroupNames", Data.joiningGroupNames),
  (txt "joiningTypeNames", Data.joiningTypeNames),
  (txt "lineBreakNames", Data.lineBreakNames),
  (txt "numberTypeNames", Data.numberTypeNames),
  (txt "sentenceBreakNames", Data.sentenceBreakNames),
  (txt "scriptNames", Data.scriptNames),
  (txt "verticalOrientationNames", Data.verticalOrientationNames),
  (txt "wordBreakNames", Data.wordBreakNames)]

/-- The dictionaries as they are written, with the names of constants. -/
def written : List (Str × List (Str × Str)) :=
 [dict "bidiClassNames" Data.Keys.bidiClassNames Data.bidiClassNames,
  dict "blockNames" Data.Keys.blockNames Data.blockNames,
  dict "decompositionTypeNames" Data.Keys.decompositionTypeNames Data.decompositionTypeNames,
  dict "eastAsianWidthNames" Data.Keys.eastAsianWidthNames Data.eastAsianWidthNames,
  dict "generalCategoryNames" Data.Keys.generalCategoryNames Data.generalCategoryNames,
  dict "graphemeClusterBreakNames" Data.Keys.graphemeClusterBreakNames Data.graphemeClusterBreakNames,
  dict "hangulSyllableTypeNames" Data.Keys.hangulSyllableTypeNames Data.hangulSyllableTypeNames,
  dict "indicPositionalCategoryNames" Data.Keys.indicPositionalCategoryNames Data.indicPositionalCategoryNames,
  dict "indicSyllabicCategoryNames" Data.Keys.indicSyllabicCategoryNames Data.indicSyllabicCategoryNames,
  dict "joiningGroupNames" Data.Keys.joiningGroupNames Data.joiningGroupNames,
  dict "joiningTypeNames" Data.Keys.joiningTypeNames Data.joiningTypeNames,
  dict "lineBreakNames" Data.Keys.lineBreakNames Data.lineBreakNames,
  dict "numberTypeNames" Data.Keys.numberTypeNames Data.numberTypeNames,
  dict "sentenceBreakNames" Data.Keys.sentenceBreakNames Data.sentenceBreakNames,
  dict "scriptNames" Data.Keys.scriptNames Data.scriptNames,
  dict "verticalOrientationNames" Data.Keys.verticalOrientationNames Data.verticalOrientationNames,
  dict "wordBreakNames" Data.Keys.wordBreakNames Data.wordBreakNames]

theorem textOf_append : ∀ {a b : List Nat}, a ≠ [] → b ≠ [] → textOf (a ++ b) = textOf a ++ [10] ++ textOf b
  | [], _, h, _ => absurd rfl h
  | [x], [], _, h => absurd rfl h
  | [x], y :: b, _, _ => by rw [List.singleton_append, textOf_cons]; simp [textOf, join]
  | x :: y :: a, b, _, hb => by
    rw [List.cons_append, List.cons_append, textOf_cons, textOf_cons, ← List.cons_append, textOf_append (by simp) hb]; simp

/-- One dictionary more. -/
theorem piece {i n : Nat} {d : Str × List (Str × Str)} (h : Piece i n d) {ds : List (Str × List (Str × Str))}
    (hn : (UCDTypeDictionaries.drop i).take n ≠ []) (hr : UCDTypeDictionaries.drop (i + n) ≠ [])
    (ih : textOf (UCDTypeDictionaries.drop (i + n)) = (ds.map assignment).flatten) :
    textOf (UCDTypeDictionaries.drop i) = ((d :: ds).map assignment).flatten := by
  rw [← List.take_append_drop n (UCDTypeDictionaries.drop i), List.drop_drop, textOf_append hn hr, h.1, ih]; rfl

theorem text_written : textOf (UCDTypeDictionaries.drop 9) = (written.map assignment).flatten := by
  refine piece bidiClassNames (by decide +kernel) (by decide +kernel) ?_
  refine piece blockNames (by decide +kernel) (by decide +kernel) ?_
  refine piece decompositionTypeNames (by decide +kernel) (by decide +kernel) ?_
  refine piece eastAsianWidthNames (by decide +kernel) (by decide +kernel) ?_
  refine piece generalCategoryNames (by decide +kernel) (by decide +kernel) ?_
  refine piece graphemeClusterBreakNames (by decide +kernel) (by decide +kernel) ?_
  refine piece hangulSyllableTypeNames (by decide +kernel) (by decide +kernel) ?_
  refine piece indicPositionalCategoryNames (by decide +kernel) (by decide +kernel) ?_
  refine piece indicSyllabicCategoryNames (by decide +kernel) (by decide +kernel) ?_
  refine piece joiningGroupNames (by decide +kernel) (by decide +kernel) ?_
  refine piece joiningTypeNames (by decide +kernel) (by decide +kernel) ?_
  refine piece lineBreakNames (by decide +kernel) (by decide +kernel) ?_
  refine piece numberTypeNames (by decide +kernel) (by decide +kernel) ?_
  refine piece sentenceBreakNames (by decide +kernel) (by decide +kernel) ?_
  refine piece scriptNames (by decide +kernel) (by decide +kernel) ?_
  refine piece verticalOrientationNames (by decide +kernel) (by decide +kernel) ?_
  refine piece wordBreakNames (by decide +kernel) (by decide +kernel) ?_
  decide +kernel

theorem read_written : readDictionaries (textOf (UCDTypeDictionaries.drop 9)) = some written := by
  rw [text_written]
  refine readDictionaries_all fun d hd => ?_
  simp only [written, List.mem_cons, List.not_mem_nil, or_false] at hd
  rcases hd with rfl | rfl | rfl | rfl | rfl | rfl | rfl | rfl | rfl | rfl | rfl | rfl | rfl | rfl | rfl | rfl | rfl
  · exact good_of bidiClassNames.2
  · exact good_of blockNames.2
  · exact good_of decompositionTypeNames.2
  · exact good_of eastAsianWidthNames.2
  · exact good_of generalCategoryNames.2
  · exact good_of graphemeClusterBreakNames.2
  · exact good_of hangulSyllableTypeNames.2
  · exact good_of indicPositionalCategoryNames.2
  · exact good_of indicSyllabicCategoryNames.2
  · exact good_of joiningGroupNames.2
  · exact good_of joiningTypeNames.2
  · exact good_of lineBreakNames.2
  · exact good_of numberTypeNames.2
  · exact good_of sentenceBreakNames.2
  · exact good_of scriptNames.2
  · exact good_of verticalOrientationNames.2
  · exact good_of wordBreakNames.2

/-! ## Names -/

/-- The names that UCDTypeDictionaries.py imports: uchar_h.py, then uscript_h.py. -/
theorem scope {a : List (Str × Val)} : starImport (starImport [] (values ucharConstants ++ a)) (values uscriptConstants) =
    values uscriptConstants ++ (values ucharConstants ++ (a.filter (fun p => p.1.head? ≠ some 95) ++ [])) := by
  rw [starImport, starImport, List.filter_append, values_public uscript_public, values_public uchar_public, List.append_assoc]

theorem find_append (k : Nat) (b : List (Nat × Int)) : ∀ a : List (Nat × Int), find k (a ++ b) = (find k a).or (find k b)
  | [] => rfl
  | p :: a => by
    rw [List.cons_append, find, find]
    cases Nat.beq k p.1 with
    | true => rfl
    | false => exact find_append k b a

theorem lookup_both {k : Nat} (hk : proper k = true) {v : Int} (h : find k both = some v) (env : List (Str × Val)) :
    lookup (values uscriptConstants ++ (values ucharConstants ++ env)) (nameOf k) = some (.int v) := by
  rw [lookup_values hk uscript_proper, lookup_values hk uchar_proper]
  rw [both, find_append] at h
  cases hs : find k uscriptConstants.reverse with
  | some x => rw [hs] at h; cases h; rfl
  | none =>
    rw [hs, Option.none_or] at h
    rw [h]; rfl

/-- What a dictionary is, given the check of its rows. -/
theorem dict_means {name : String} {keys : List Nat} {rows : List (Nat × String)} (h : okRows both keys rows = true)
    {f : Str → Option Val} (hf : ∀ k v, proper k = true → find k both = some v → f (nameOf k) = some (.int v)) :
    (dict name keys rows).2.map (fun e => (f e.1, e.2)) = rows.map fun r => (some (Val.int r.1), txt r.2) := by
  rw [okRows, Bool.and_eq_true] at h
  have hl := Nat.eq_of_beq_eq_true h.1
  have ha := List.all_eq_true.mp h.2
  rw [dict, List.map_map]
  have : ∀ p ∈ keys.zip rows, ((fun e : Str × Str => (f e.1, e.2)) ∘ fun p : Nat × Nat × String => (nameOf p.1, txt p.2.2)) p =
      (fun r : Nat × String => (some (Val.int r.1), txt r.2)) p.2 := by
    intro p hp
    have h1 := ha p hp
    rw [Bool.and_eq_true, beq_iff_eq] at h1
    simp only [Function.comp, hf _ _ h1.1 h1.2]
  rw [List.map_congr_left this]
  conv => rhs; rw [← List.map_snd_zip (l₁ := keys) (l₂ := rows) (Nat.le_of_eq hl.symm), List.map_map]
  rfl

/-- **C131.** `uchar_h.py` and `uscript_h.py` can be imported. `UCDTypeDictionaries.py` begins by importing all of their names; the
rest of it are seventeen dictionaries, whose keys, looked up among these names, are exactly the numbers that the model has; no key of a
dictionary is there twice. -/
theorem shipped_dictionaries : ∃ uchar uscript ds,
    importModule (textOf uchar_h) = .ok uchar ∧ importModule (textOf uscript_h) = .ok uscript ∧
    ((UCDTypeDictionaries.drop 5).take 4).map lineOf = [txt "", txt "from .uchar_h import *", txt "from .uscript_h import *", txt ""] ∧
    readDictionaries (textOf (UCDTypeDictionaries.drop 9)) = some ds ∧
    ds.map (fun d => (d.1, d.2.map fun e => (lookup (starImport (starImport [] uchar) uscript) e.1, e.2))) =
      tables.map (fun t => (t.1, t.2.map fun r => (some (.int r.1), txt r.2))) ∧
    ∀ t ∈ tables, (t.2.map Prod.fst).Nodup := by
  refine ⟨_, _, written, uchar, uscript, by decide +kernel, read_written, ?_, by decide +kernel⟩
  rw [scope]
  generalize List.filter _ _ ++ [] = env
  have hf := fun k v hk h => lookup_both (k := k) (v := v) hk h env
  simp only [written, tables, List.map_cons, List.map_nil]
  rw [dict_means rows_bidiClassNames hf,
    dict_means rows_blockNames hf,
    dict_means rows_decompositionTypeNames hf,
    dict_means rows_eastAsianWidthNames hf,
    dict_means rows_generalCategoryNames hf,
    dict_means rows_graphemeClusterBreakNames hf,
    dict_means rows_hangulSyllableTypeNames hf,
    dict_means rows_indicPositionalCategoryNames hf,
    dict_means rows_indicSyllabicCategoryNames hf,
    dict_means rows_joiningGroupNames hf,
    dict_means rows_joiningTypeNames hf,
    dict_means rows_lineBreakNames hf,
    dict_means rows_numberTypeNames hf,
    dict_means rows_sentenceBreakNames hf,
    dict_means rows_scriptNames hf,
    dict_means rows_verticalOrientationNames hf,
    dict_means rows_wordBreakNames hf]
  rfl

/-! ## Numbers that the model has where the code has names -/

/-- The names in uchar_h.py that the model has as numbers (Model/CategoryMasks.lean, Model/CharNames.lean). -/
def charNumbers : List (String × Nat) :=
 [
  ("U_GC_CN_MASK", Uchar.U_GC_CN_MASK), ("U_GC_LU_MASK", Uchar.U_GC_LU_MASK), ("U_GC_LL_MASK", Uchar.U_GC_LL_MASK),
  ("U_GC_LT_MASK", Uchar.U_GC_LT_MASK), ("U_GC_LM_MASK", Uchar.U_GC_LM_MASK), ("U_GC_LO_MASK", Uchar.U_GC_LO_MASK),
  ("U_GC_MN_MASK", Uchar.U_GC_MN_MASK), ("U_GC_ME_MASK", Uchar.U_GC_ME_MASK), ("U_GC_MC_MASK", Uchar.U_GC_MC_MASK),
  ("U_GC_ND_MASK", Uchar.U_GC_ND_MASK), ("U_GC_NL_MASK", Uchar.U_GC_NL_MASK), ("U_GC_NO_MASK", Uchar.U_GC_NO_MASK),
  ("U_GC_ZS_MASK", Uchar.U_GC_ZS_MASK), ("U_GC_ZL_MASK", Uchar.U_GC_ZL_MASK), ("U_GC_ZP_MASK", Uchar.U_GC_ZP_MASK),
  ("U_GC_CC_MASK", Uchar.U_GC_CC_MASK), ("U_GC_CF_MASK", Uchar.U_GC_CF_MASK), ("U_GC_CO_MASK", Uchar.U_GC_CO_MASK),
  ("U_GC_CS_MASK", Uchar.U_GC_CS_MASK), ("U_GC_PD_MASK", Uchar.U_GC_PD_MASK), ("U_GC_PS_MASK", Uchar.U_GC_PS_MASK),
  ("U_GC_PE_MASK", Uchar.U_GC_PE_MASK), ("U_GC_PC_MASK", Uchar.U_GC_PC_MASK), ("U_GC_PO_MASK", Uchar.U_GC_PO_MASK),
  ("U_GC_SM_MASK", Uchar.U_GC_SM_MASK), ("U_GC_SC_MASK", Uchar.U_GC_SC_MASK), ("U_GC_SK_MASK", Uchar.U_GC_SK_MASK),
  ("U_GC_SO_MASK", Uchar.U_GC_SO_MASK), ("U_GC_PI_MASK", Uchar.U_GC_PI_MASK), ("U_GC_PF_MASK", Uchar.U_GC_PF_MASK),
  ("U_GC_L_MASK", Uchar.U_GC_L_MASK), ("U_GC_LC_MASK", Uchar.U_GC_LC_MASK), ("U_GC_M_MASK", Uchar.U_GC_M_MASK),
  ("U_GC_N_MASK", Uchar.U_GC_N_MASK), ("U_GC_Z_MASK", Uchar.U_GC_Z_MASK), ("U_GC_C_MASK", Uchar.U_GC_C_MASK),
  ("U_GC_P_MASK", Uchar.U_GC_P_MASK), ("U_GC_S_MASK", Uchar.U_GC_S_MASK), ("U_UNICODE_CHAR_NAME", CharNames.U_UNICODE_CHAR_NAME),
  ("U_EXTENDED_CHAR_NAME", CharNames.U_EXTENDED_CHAR_NAME), ("U_CHAR_NAME_ALIAS", CharNames.U_CHAR_NAME_ALIAS)]

/-- The names in uprops_h.py and uscript_h.py that CharProps.py uses, with the numbers that Model/CharProps.lean has instead. -/
def propsNumbers : List (String × Int) :=
 [
  ("UPROPS_NUMERIC_TYPE_VALUE_SHIFT", 6), ("UPROPS_NTV_NONE", 0), ("UPROPS_NTV_DECIMAL_START", 1),
  ("UPROPS_NTV_DIGIT_START", 11), ("UPROPS_NTV_NUMERIC_START", 21), ("UPROPS_NTV_FRACTION_START", 0xb0),
  ("UPROPS_NTV_LARGE_START", 0x1e0), ("UPROPS_NTV_BASE60_START", 0x300), ("UPROPS_NTV_FRACTION20_START", 0x300 + 36),
  ("UPROPS_NTV_FRACTION32_START", 0x300 + 36 + 24), ("UPROPS_NTV_RESERVED_START", 0x300 + 36 + 24 + 16),
  ("UPROPS_AGE_SHIFT", 24), ("UPROPS_SCRIPT_HIGH_MASK", 0x00300000), ("UPROPS_SCRIPT_HIGH_SHIFT", 12),
  ("UPROPS_SCRIPT_LOW_MASK", 0x000000ff), ("UPROPS_SCRIPT_X_MASK", 0x00f000ff), ("UPROPS_SCRIPT_X_WITH_COMMON", 0x400000),
  ("UPROPS_SCRIPT_X_WITH_INHERITED", 0x800000), ("UPROPS_SCRIPT_X_WITH_OTHER", 0xc00000), ("USCRIPT_COMMON", 0),
  ("USCRIPT_INHERITED", 1), ("USCRIPT_INVALID_CODE", -1), ("UPROPS_BLOCK_MASK", 0x0001ff00), ("UPROPS_BLOCK_SHIFT", 8),
  ("UPROPS_EA_MASK", 0x000e0000), ("UPROPS_EA_SHIFT", 17), ("UPROPS_LB_MASK", 0x03f00000), ("UPROPS_LB_SHIFT", 20),
  ("UPROPS_SB_MASK", 0x000f8000), ("UPROPS_SB_SHIFT", 15), ("UPROPS_WB_MASK", 0x00007c00), ("UPROPS_WB_SHIFT", 10),
  ("UPROPS_GCB_MASK", 0x000003e0), ("UPROPS_GCB_SHIFT", 5), ("UPROPS_DT_MASK", 0x0000001f), ("UPROPS_BINARY_1_TOP", 32),
  ("UPROPS_WHITE_SPACE", 0), ("UPROPS_ALPHABETIC", 8), ("UPROPS_2_EXTENDED_PICTOGRAPHIC", 26), ("UPROPS_2_EMOJI_COMPONENT", 27),
  ("UPROPS_2_EMOJI", 28), ("UPROPS_2_EMOJI_PRESENTATION", 29), ("UPROPS_2_EMOJI_MODIFIER", 30),
  ("UPROPS_2_EMOJI_MODIFIER_BASE", 31)]

/-- The check. -/
def okNumbers (t : List (Nat × Int)) (l : List (String × Int)) : Bool :=
  l.all fun p => nameOf (nameNumber (txt p.1)) == txt p.1 && proper (nameNumber (txt p.1)) && find (nameNumber (txt p.1)) t == some p.2

theorem numbers_of {t : List (Nat × Int)} {l : List (String × Int)} (h : okNumbers t l = true) : ∀ p ∈ l,
    ∃ k, proper k = true ∧ nameOf k = txt p.1 ∧ find k t = some p.2 := by
  intro p hp
  have := List.all_eq_true.mp h p hp
  simp only [Bool.and_eq_true, beq_iff_eq] at this
  exact ⟨_, this.1.2, this.1.1, this.2⟩

/-- **C131.** The masks of categories and the kinds of names are, in `uchar_h.py` once it is imported, the numbers of the model. -/
theorem shipped_masks : ∃ uchar, importModule (textOf uchar_h) = .ok uchar ∧
    ∀ p ∈ charNumbers, lookup uchar (txt p.1) = some (.int p.2) := by
  refine ⟨_, uchar, fun p hp => ?_⟩
  obtain ⟨k, h1, h2, h3⟩ := numbers_of (t := ucharConstants.reverse) (l := charNumbers.map fun p => (p.1, (p.2 : Int))) (by decide +kernel)
    _ (List.mem_map_of_mem hp)
  have h2 : nameOf k = txt p.1 := h2
  rw [← h2, lookup_values h1 uchar_proper, h3]; rfl

/-- **C131.** The names that `CharProps.py` imports from `uprops_h.py` and `uscript_h.py` and uses have the numbers of the model. -/
theorem shipped_numbers : ∃ uprops uscript, importModule (textOf uprops_h) = .ok uprops ∧ importModule (textOf uscript_h) = .ok uscript ∧
    ∀ p ∈ propsNumbers, lookup (starImport (starImport [] uprops) uscript) (txt p.1) = some (.int p.2) := by
  refine ⟨_, _, uprops, uscript, fun p hp => ?_⟩
  obtain ⟨k, h1, h2, h3⟩ := numbers_of (t := uscriptConstants.reverse ++ upropsConstants.reverse) (l := propsNumbers) (by decide +kernel) _ hp
  rw [starImport, starImport, values_public uscript_public, values_public uprops_public, ← h2, lookup_values h1 uscript_proper,
    lookup_values h1 uprops_proper]
  rw [find_append] at h3
  cases hs : find k uscriptConstants.reverse with
  | some x => rw [hs] at h3; cases h3; rfl
  | none => rw [hs, Option.none_or] at h3; rw [h3]; rfl

/-- `ucase_h.py` can be imported as well; its names with an underscore in front are not imported by `*`. -/
theorem shipped_ucase : ∃ ucase, importModule (textOf ucase_h) = .ok ucase ∧ ucase.length = 73 ∧
    lookup ucase (txt "UCASE_MIN_DELTA") = some (.int (-256)) ∧ lookup ucase (txt "UCASE_MAX_EXCEPTIONS") = some (.int 4096) ∧
    lookup (starImport [] ucase) (txt "_FOLD_CASE_OPTIONS_MASK") = none := by
  refine ⟨_, ucase, ?_, ?_, ?_, ?_⟩ <;> decide +kernel

/-- Example: a mask that is made of other masks, and a negative number. -/
example : ∃ uchar, importModule (textOf uchar_h) = .ok uchar ∧ (txt "U_GC_LC_MASK", 14) ∈ charNumbers.map (fun p => (txt p.1, p.2)) ∧
    lookup uchar (txt "U_GC_LC_MASK") = some (.int 14) ∧ lookup uchar (txt "UCHAR_INVALID_CODE") = some (.int (-1)) := by
  refine ⟨_, uchar, ?_, ?_, ?_⟩ <;> decide +kernel

end Verif.HeaderText.Props

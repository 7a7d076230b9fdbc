import Verif.Lemmas.DataChecks
import Verif.Props.ModuleValues
import Verif.Model.BidiProps
import Verif.Model.CaseProps
import Verif.Model.CharProps
/-!
# The shipped data modules are what the tables say (C133)

`Data/DataText.lean` has the texts of `BidiPropsData.py`, `CasePropsData.py`, `CharPropsData.py` and `Norm2NFCData.py`, line by line. They are
imported by the model of Python in Model/PyLists.lean. `values t` are the entries of a table of `Data` as a list.
-/
namespace Verif.DataText.Props
open Verif.Data Verif.DataText Verif.PyLists Verif.CHeader.Spec Verif.Header.Spec Verif.ModuleValues Verif.ModuleText.Props

set_option Elab.async false

theorem linesText_append (a b : List Nat) : linesText (a ++ b) = linesText a ++ linesText b := List.flatMap_append

theorem ended_lines (ls : List Nat) : ended (ls.map lineOf) = linesText ls := by
  unfold ended linesText
  rw [List.flatMap_map]

theorem textOf_end (ls : List Nat) : textOf (ls ++ [0]) = linesText ls := by
  unfold textOf
  rw [List.map_append, show [0].map lineOf = [[]] from rfl, join_ended, ended_lines]

theorem join_open : ∀ (xs : List Str) (x : Str), join (txt "\n") (xs ++ [x]) ++ [10] = ended (xs ++ [x])
  | [], x => by simp [join, ended, txt]
  | [y], x => by simp [join, ended, txt]
  | y :: z :: xs, x => by
    have := join_open (z :: xs) x
    have e : join (txt "\n") (y :: z :: xs ++ [x]) = y ++ 10 :: join (txt "\n") (z :: xs ++ [x]) := by
      simp only [join, List.cons_append]; rw [List.intercalate_cons_cons]; simp [txt]
    rw [e, List.append_assoc, List.cons_append, this]
    simp [ended]

theorem textOf_open {ls : List Nat} {l : Nat} : textOf (ls ++ [l]) ++ [10] = linesText ls ++ linesText [l] := by
  unfold textOf
  rw [List.map_append, show [l].map lineOf = [lineOf l] from rfl, join_open, ← linesText_append, ← ended_lines, List.map_append]
  rfl

theorem open_end {t x p : Str} (h : t ++ [10] = x ++ p) (hp : p ≠ []) : ∃ s, t = x ++ s ∧ p = s ++ [10] := by
  have e := List.dropLast_concat_getLast hp
  rw [← e, ← List.append_assoc] at h
  obtain ⟨h1, h2⟩ := List.append_inj' h rfl
  exact ⟨p.dropLast, h1, by rw [h2, e]⟩

theorem array_text' (name b : Str) (ns : List Nat) :
    Piece.text (.array name (10 :: b) ns) = name ++ (txt " = [" ++ (10 :: (b ++ txt "]\n"))) := rfl

theorem rows_ok {name : Str} {ls ns : List Nat} (h : LastRows ls ns) (hn : Ident name ∧ name ∉ PyExpr.keywords) :
    (Piece.array name (10 :: linesText ls) ns).Ok :=
  ⟨hn.1, hn.2, by simpa using elements_space space_line (elements_rows h)⟩

theorem entry_lt (t : Table) (i : Nat) : t.entry i < 2 ^ t.bits := Nat.mod_lt _ (Nat.pow_pos (by omega))

theorem commas_end {vs : List Nat} (h : vs ≠ []) : (commas vs).dropLast ++ [44] = commas vs := by
  have e := List.dropLast_concat_getLast h
  have : commas vs = (commas vs.dropLast ++ valText (vs.getLast h)) ++ [44] := by
    conv => lhs; rw [← e]
    simp [commas]
  rw [this, List.dropLast_concat]

theorem inline_ok {name : Str} {t : Table} (hb : t.bits ≤ 32) (hs : t.size ≠ 0) (hn : Ident name ∧ name ∉ PyExpr.keywords) :
    (Piece.array name (commas (values t)).dropLast (values t)).Ok := by
  have hv : values t ≠ [] := by
    intro h
    have := congrArg List.length h
    unfold values at this
    simp at this
    exact hs this
  refine ⟨hn.1, hn.2, ?_⟩
  have := elements_last (vs := values t) (b := []) (fun v hv => ?_) hv (commas_end hv) space_nil
  · rwa [List.append_nil] at this
  · unfold values at hv
    obtain ⟨i, -, rfl⟩ := List.mem_map.1 hv
    exact pow_bits hb (entry_lt t i)

theorem numeral_ok {name v : Str} {n : Nat} (h : Numeral v n) (hn : Ident name ∧ name ∉ PyExpr.keywords) : (Piece.scalar name v n).Ok :=
  ⟨hn.1, hn.2, numeral_value h⟩

/-- The lines of `BidiPropsData.py` as assignments, comments and empty lines. -/
noncomputable def bidiPieces : List Piece :=
 [.blank, .array (txt "ubidi_props_indexes") (commas (values bidiIndexes)).dropLast (values bidiIndexes), .blank,
  .array (txt "ubidi_props_trieIndex") (10 :: linesText ((bidiText1 ++ (bidiText2 ++ (bidiText3))) ++ bidiText4)) (values bidiIndex),
  .blank, .array (txt "ubidi_props_mirrors") (10 :: linesText (bidiText6)) (values bidiMirrors), .blank,
  .array (txt "ubidi_props_jgArray") (10 :: linesText (bidiText8)) (values bidiJg1), .blank,
  .array (txt "ubidi_props_jgArray2") (10 :: linesText (bidiText10)) (values bidiJg2), .blank,
  .scalar (txt "ubidi_props_trie_index_length") (decimal bidiIndexLength) bidiIndexLength,
  .scalar (txt "ubidi_props_trie_index_2_null_offset") (valText bidiIndex2NullOffset) bidiIndex2NullOffset,
  .scalar (txt "ubidi_props_trie_data_null_offset") (valText bidiDataNullOffset) bidiDataNullOffset,
  .scalar (txt "ubidi_props_trie_high_start") (valText bidiHighStart) bidiHighStart,
  .scalar (txt "ubidi_props_trie_high_value_index") (valText bidiHighValueIndex) bidiHighValueIndex]

theorem bidiPieces_ok : ∀ p ∈ bidiPieces, p.Ok := by
  simp only [bidiPieces, List.forall_mem_cons, List.not_mem_nil, false_imp_iff, implies_true, and_true]
  exact ⟨trivial, inline_ok (t := bidiIndexes) (by decide) (by decide) (by decide), trivial, rows_ok bidiIndex_rows (by decide),
    trivial, rows_ok bidiMirrors_rows (by decide), trivial, rows_ok bidiJg1_rows (by decide), trivial,
    rows_ok bidiJg2_rows (by decide), trivial, numeral_ok (.dec bidiIndexLength) (by decide),
    numeral_ok (valText_numeral (by decide)) (by decide), numeral_ok (valText_numeral (by decide)) (by decide),
    numeral_ok (valText_numeral (by decide)) (by decide), numeral_ok (valText_numeral (by decide)) (by decide)⟩

/-- The docstring. -/
def bidiDoc : Str := (linesText (bidiText0.take 4)).drop 3

theorem bidiSeg0 : linesText bidiText0 = 34 :: 34 :: 34 :: (bidiDoc ++ 34 :: 34 :: 34 :: 10 ::
    (Piece.text (.blank) ++ (Piece.text (.array (txt "ubidi_props_indexes") (commas (values bidiIndexes)).dropLast (values bidiIndexes)) ++ (Piece.text (.blank) ++ ((txt "ubidi_props_trieIndex" ++ (txt " = [" ++ [10]))))))) := by decide +kernel

theorem bidiSeg5 : linesText bidiText5 = txt "]\n" ++ (Piece.text (.blank) ++ ((txt "ubidi_props_mirrors" ++ (txt " = [" ++ [10])))) := by decide +kernel

theorem bidiSeg7 : linesText bidiText7 = txt "]\n" ++ (Piece.text (.blank) ++ ((txt "ubidi_props_jgArray" ++ (txt " = [" ++ [10])))) := by decide +kernel

theorem bidiSeg9 : linesText bidiText9 = txt "]\n" ++ (Piece.text (.blank) ++ ((txt "ubidi_props_jgArray2" ++ (txt " = [" ++ [10])))) := by decide +kernel

theorem bidiSeg11 : linesText bidiText11.dropLast = txt "]\n" ++ (Piece.text (.blank) ++ (Piece.text (.scalar (txt "ubidi_props_trie_index_length") (decimal bidiIndexLength) bidiIndexLength) ++ (Piece.text (.scalar (txt "ubidi_props_trie_index_2_null_offset") (valText bidiIndex2NullOffset) bidiIndex2NullOffset) ++ (Piece.text (.scalar (txt "ubidi_props_trie_data_null_offset") (valText bidiDataNullOffset) bidiDataNullOffset) ++ (Piece.text (.scalar (txt "ubidi_props_trie_high_start") (valText bidiHighStart) bidiHighStart) ++ (Piece.text (.scalar (txt "ubidi_props_trie_high_value_index") (valText bidiHighValueIndex) bidiHighValueIndex))))))) := by decide +kernel

theorem bidi_text : textOf bidiText = 34 :: 34 :: 34 :: (bidiDoc ++ 34 :: 34 :: 34 :: 10 :: bidiPieces.flatMap Piece.text) := by
  have e : bidiText = (bidiText0 ++ (bidiText1 ++ (bidiText2 ++ (bidiText3 ++ (bidiText4 ++ (bidiText5 ++ (bidiText6 ++ (bidiText7 ++ (bidiText8 ++ (bidiText9 ++ (bidiText10 ++ (bidiText11.dropLast)))))))))))) ++ [0] := by
    rw [show bidiText = bidiText0 ++ (bidiText1 ++ (bidiText2 ++ (bidiText3 ++ (bidiText4 ++ (bidiText5 ++ (bidiText6 ++ (bidiText7 ++ (bidiText8 ++ (bidiText9 ++ (bidiText10 ++ (bidiText11))))))))))) from rfl]
    simp only [List.append_assoc]
    rw [show bidiText11.dropLast ++ [0] = bidiText11 from rfl]
  rw [e, textOf_end]
  simp only [linesText_append, bidiSeg0, bidiSeg5, bidiSeg7, bidiSeg9, bidiSeg11, bidiPieces, List.flatMap_cons, List.flatMap_nil, array_text', List.append_assoc, List.cons_append, List.nil_append, List.append_nil]

/-- C133. The text of `BidiPropsData.py` can be imported; it defines these names with these values, and no others. -/
theorem bidi_import : ∃ env, importModule (textOf bidiText) = .ok env ∧ env.reverse =
   [(txt "ubidi_props_indexes", .list (values bidiIndexes)), (txt "ubidi_props_trieIndex", .list (values bidiIndex)),
    (txt "ubidi_props_mirrors", .list (values bidiMirrors)), (txt "ubidi_props_jgArray", .list (values bidiJg1)),
    (txt "ubidi_props_jgArray2", .list (values bidiJg2)), (txt "ubidi_props_trie_index_length", .int bidiIndexLength),
    (txt "ubidi_props_trie_index_2_null_offset", .int bidiIndex2NullOffset),
    (txt "ubidi_props_trie_data_null_offset", .int bidiDataNullOffset), (txt "ubidi_props_trie_high_start", .int bidiHighStart),
    (txt "ubidi_props_trie_high_value_index", .int bidiHighValueIndex)] := by
  refine ⟨_, ?_, List.reverse_reverse _⟩
  rw [bidi_text]
  exact import_pieces (quotes_of (by decide +kernel) (by decide +kernel) _) bidiPieces_ok

/-- The lines of `CasePropsData.py` as assignments, comments and empty lines. -/
noncomputable def casePieces : List Piece :=
 [.blank, .array (txt "ucase_props_indexes") (commas (values caseIndexes)).dropLast (values caseIndexes), .blank,
  .array (txt "ucase_props_trieIndex") (10 :: linesText ((caseText1 ++ (caseText2 ++ (caseText3))) ++ caseText4)) (values caseIndex),
  .blank, .array (txt "ucase_props_exceptions") (10 :: linesText (caseText6)) (values caseExceptions), .blank,
  .array (txt "ucase_props_unfold") (10 :: linesText (caseText8)) (values caseUnfold), .blank,
  .scalar (txt "ucase_props_trie_index_length") (decimal caseIndexLength) caseIndexLength,
  .scalar (txt "ucase_props_trie_index_2_null_offset") (valText caseIndex2NullOffset) caseIndex2NullOffset,
  .scalar (txt "ucase_props_trie_data_null_offset") (valText caseDataNullOffset) caseDataNullOffset,
  .scalar (txt "ucase_props_trie_high_start") (valText caseHighStart) caseHighStart,
  .scalar (txt "ucase_props_trie_high_value_index") (valText caseHighValueIndex) caseHighValueIndex]

theorem casePieces_ok : ∀ p ∈ casePieces, p.Ok := by
  simp only [casePieces, List.forall_mem_cons, List.not_mem_nil, false_imp_iff, implies_true, and_true]
  exact ⟨trivial, inline_ok (t := caseIndexes) (by decide) (by decide) (by decide), trivial, rows_ok caseIndex_rows (by decide),
    trivial, rows_ok caseExceptions_rows (by decide), trivial, rows_ok caseUnfold_rows (by decide), trivial,
    numeral_ok (.dec caseIndexLength) (by decide), numeral_ok (valText_numeral (by decide)) (by decide),
    numeral_ok (valText_numeral (by decide)) (by decide), numeral_ok (valText_numeral (by decide)) (by decide),
    numeral_ok (valText_numeral (by decide)) (by decide)⟩

/-- The docstring. -/
def caseDoc : Str := (linesText (caseText0.take 4)).drop 3

theorem caseSeg0 : linesText caseText0 = 34 :: 34 :: 34 :: (caseDoc ++ 34 :: 34 :: 34 :: 10 ::
    (Piece.text (.blank) ++ (Piece.text (.array (txt "ucase_props_indexes") (commas (values caseIndexes)).dropLast (values caseIndexes)) ++ (Piece.text (.blank) ++ ((txt "ucase_props_trieIndex" ++ (txt " = [" ++ [10]))))))) := by decide +kernel

theorem caseSeg5 : linesText caseText5 = txt "]\n" ++ (Piece.text (.blank) ++ ((txt "ucase_props_exceptions" ++ (txt " = [" ++ [10])))) := by decide +kernel

theorem caseSeg7 : linesText caseText7 = txt "]\n" ++ (Piece.text (.blank) ++ ((txt "ucase_props_unfold" ++ (txt " = [" ++ [10])))) := by decide +kernel

theorem caseSeg9 : linesText caseText9.dropLast = txt "]\n" ++ (Piece.text (.blank) ++ (Piece.text (.scalar (txt "ucase_props_trie_index_length") (decimal caseIndexLength) caseIndexLength) ++ (Piece.text (.scalar (txt "ucase_props_trie_index_2_null_offset") (valText caseIndex2NullOffset) caseIndex2NullOffset) ++ (Piece.text (.scalar (txt "ucase_props_trie_data_null_offset") (valText caseDataNullOffset) caseDataNullOffset) ++ (Piece.text (.scalar (txt "ucase_props_trie_high_start") (valText caseHighStart) caseHighStart) ++ (Piece.text (.scalar (txt "ucase_props_trie_high_value_index") (valText caseHighValueIndex) caseHighValueIndex))))))) := by decide +kernel

theorem case_text : textOf caseText = 34 :: 34 :: 34 :: (caseDoc ++ 34 :: 34 :: 34 :: 10 :: casePieces.flatMap Piece.text) := by
  have e : caseText = (caseText0 ++ (caseText1 ++ (caseText2 ++ (caseText3 ++ (caseText4 ++ (caseText5 ++ (caseText6 ++ (caseText7 ++ (caseText8 ++ (caseText9.dropLast)))))))))) ++ [0] := by
    rw [show caseText = caseText0 ++ (caseText1 ++ (caseText2 ++ (caseText3 ++ (caseText4 ++ (caseText5 ++ (caseText6 ++ (caseText7 ++ (caseText8 ++ (caseText9))))))))) from rfl]
    simp only [List.append_assoc]
    rw [show caseText9.dropLast ++ [0] = caseText9 from rfl]
  rw [e, textOf_end]
  simp only [linesText_append, caseSeg0, caseSeg5, caseSeg7, caseSeg9, casePieces, List.flatMap_cons, List.flatMap_nil, array_text', List.append_assoc, List.cons_append, List.nil_append, List.append_nil]

/-- C133. The text of `CasePropsData.py` can be imported; it defines these names with these values, and no others. -/
theorem case_import : ∃ env, importModule (textOf caseText) = .ok env ∧ env.reverse =
   [(txt "ucase_props_indexes", .list (values caseIndexes)), (txt "ucase_props_trieIndex", .list (values caseIndex)),
    (txt "ucase_props_exceptions", .list (values caseExceptions)), (txt "ucase_props_unfold", .list (values caseUnfold)),
    (txt "ucase_props_trie_index_length", .int caseIndexLength),
    (txt "ucase_props_trie_index_2_null_offset", .int caseIndex2NullOffset),
    (txt "ucase_props_trie_data_null_offset", .int caseDataNullOffset), (txt "ucase_props_trie_high_start", .int caseHighStart),
    (txt "ucase_props_trie_high_value_index", .int caseHighValueIndex)] := by
  refine ⟨_, ?_, List.reverse_reverse _⟩
  rw [case_text]
  exact import_pieces (quotes_of (by decide +kernel) (by decide +kernel) _) casePieces_ok

/-- The lines of `CharPropsData.py` as assignments, comments and empty lines. -/
noncomputable def charPieces : List Piece :=
 [.blank,
  .array (txt "propsTrie_index") (10 :: linesText ((charText1 ++ (charText2 ++ (charText3 ++ (charText4 ++ (charText5))))) ++ charText6)) (values propsIndex),
  .blank, .scalar (txt "propsTrie_index_length") (decimal propsIndexLength) propsIndexLength,
  .scalar (txt "propsTrie_index_2_null_offset") (valText propsIndex2NullOffset) propsIndex2NullOffset,
  .scalar (txt "propsTrie_data_null_offset") (valText propsDataNullOffset) propsDataNullOffset,
  .scalar (txt "propsTrie_high_start") (valText propsHighStart) propsHighStart,
  .scalar (txt "propsTrie_high_value_index") (valText propsHighValueIndex) propsHighValueIndex, .blank,
  .array (txt "propsVectorsTrie_index") (10 :: linesText ((charText8 ++ (charText9 ++ (charText10 ++ (charText11 ++ (charText12 ++ (charText13 ++ (charText14))))))) ++ charText15)) (values propsVectorsIndex),
  .blank, .scalar (txt "propsVectorsTrie_index_length") (decimal propsVectorsIndexLength) propsVectorsIndexLength,
  .scalar (txt "propsVectorsTrie_index_2_null_offset") (valText propsVectorsIndex2NullOffset) propsVectorsIndex2NullOffset,
  .scalar (txt "propsVectorsTrie_data_null_offset") (valText propsVectorsDataNullOffset) propsVectorsDataNullOffset,
  .scalar (txt "propsVectorsTrie_high_start") (valText propsVectorsHighStart) propsVectorsHighStart,
  .scalar (txt "propsVectorsTrie_high_value_index") (valText propsVectorsHighValueIndex) propsVectorsHighValueIndex, .blank,
  .array (txt "propsVectors") (10 :: linesText ((charText17) ++ charText18)) (values propsVectorsTable), .blank,
  .scalar (txt "propsVectorsColumns") (valText propsVectorsColumns) propsVectorsColumns, .blank,
  .array (txt "scriptExtensions") (10 :: linesText (charText20)) (values scriptExtensions)]

theorem charPieces_ok : ∀ p ∈ charPieces, p.Ok := by
  simp only [charPieces, List.forall_mem_cons, List.not_mem_nil, false_imp_iff, implies_true, and_true]
  exact ⟨trivial, rows_ok propsIndex_rows (by decide), trivial, numeral_ok (.dec propsIndexLength) (by decide),
    numeral_ok (valText_numeral (by decide)) (by decide), numeral_ok (valText_numeral (by decide)) (by decide),
    numeral_ok (valText_numeral (by decide)) (by decide), numeral_ok (valText_numeral (by decide)) (by decide), trivial,
    rows_ok propsVectorsIndex_rows (by decide), trivial, numeral_ok (.dec propsVectorsIndexLength) (by decide),
    numeral_ok (valText_numeral (by decide)) (by decide), numeral_ok (valText_numeral (by decide)) (by decide),
    numeral_ok (valText_numeral (by decide)) (by decide), numeral_ok (valText_numeral (by decide)) (by decide), trivial,
    rows_ok propsVectorsTable_rows (by decide), trivial, numeral_ok (valText_numeral (by decide)) (by decide), trivial,
    rows_ok scriptExtensions_rows (by decide)⟩

/-- The docstring. -/
def charDoc : Str := (linesText (charText0.take 4)).drop 3

theorem charSeg0 : linesText charText0 = 34 :: 34 :: 34 :: (charDoc ++ 34 :: 34 :: 34 :: 10 ::
    (Piece.text (.blank) ++ ((txt "propsTrie_index" ++ (txt " = [" ++ [10]))))) := by decide +kernel

theorem charSeg7 : linesText charText7 = txt "]\n" ++ (Piece.text (.blank) ++ (Piece.text (.scalar (txt "propsTrie_index_length") (decimal propsIndexLength) propsIndexLength) ++ (Piece.text (.scalar (txt "propsTrie_index_2_null_offset") (valText propsIndex2NullOffset) propsIndex2NullOffset) ++ (Piece.text (.scalar (txt "propsTrie_data_null_offset") (valText propsDataNullOffset) propsDataNullOffset) ++ (Piece.text (.scalar (txt "propsTrie_high_start") (valText propsHighStart) propsHighStart) ++ (Piece.text (.scalar (txt "propsTrie_high_value_index") (valText propsHighValueIndex) propsHighValueIndex) ++ (Piece.text (.blank) ++ ((txt "propsVectorsTrie_index" ++ (txt " = [" ++ [10])))))))))) := by decide +kernel

theorem charSeg16 : linesText charText16 = txt "]\n" ++ (Piece.text (.blank) ++ (Piece.text (.scalar (txt "propsVectorsTrie_index_length") (decimal propsVectorsIndexLength) propsVectorsIndexLength) ++ (Piece.text (.scalar (txt "propsVectorsTrie_index_2_null_offset") (valText propsVectorsIndex2NullOffset) propsVectorsIndex2NullOffset) ++ (Piece.text (.scalar (txt "propsVectorsTrie_data_null_offset") (valText propsVectorsDataNullOffset) propsVectorsDataNullOffset) ++ (Piece.text (.scalar (txt "propsVectorsTrie_high_start") (valText propsVectorsHighStart) propsVectorsHighStart) ++ (Piece.text (.scalar (txt "propsVectorsTrie_high_value_index") (valText propsVectorsHighValueIndex) propsVectorsHighValueIndex) ++ (Piece.text (.blank) ++ ((txt "propsVectors" ++ (txt " = [" ++ [10])))))))))) := by decide +kernel

theorem charSeg19 : linesText charText19 = txt "]\n" ++ (Piece.text (.blank) ++ (Piece.text (.scalar (txt "propsVectorsColumns") (valText propsVectorsColumns) propsVectorsColumns) ++ (Piece.text (.blank) ++ ((txt "scriptExtensions" ++ (txt " = [" ++ [10])))))) := by decide +kernel

theorem charSeg21 : linesText charText21.dropLast = txt "]\n" := by decide +kernel

theorem char_text : textOf charText = 34 :: 34 :: 34 :: (charDoc ++ 34 :: 34 :: 34 :: 10 :: charPieces.flatMap Piece.text) := by
  have e : charText = (charText0 ++ (charText1 ++ (charText2 ++ (charText3 ++ (charText4 ++ (charText5 ++ (charText6 ++ (charText7 ++ (charText8 ++ (charText9 ++ (charText10 ++ (charText11 ++ (charText12 ++ (charText13 ++ (charText14 ++ (charText15 ++ (charText16 ++ (charText17 ++ (charText18 ++ (charText19 ++ (charText20 ++ (charText21.dropLast)))))))))))))))))))))) ++ [0] := by
    rw [show charText = charText0 ++ (charText1 ++ (charText2 ++ (charText3 ++ (charText4 ++ (charText5 ++ (charText6 ++ (charText7 ++ (charText8 ++ (charText9 ++ (charText10 ++ (charText11 ++ (charText12 ++ (charText13 ++ (charText14 ++ (charText15 ++ (charText16 ++ (charText17 ++ (charText18 ++ (charText19 ++ (charText20 ++ (charText21))))))))))))))))))))) from rfl]
    simp only [List.append_assoc]
    rw [show charText21.dropLast ++ [0] = charText21 from rfl]
  rw [e, textOf_end]
  simp only [linesText_append, charSeg0, charSeg7, charSeg16, charSeg19, charSeg21, charPieces, List.flatMap_cons, List.flatMap_nil, array_text', List.append_assoc, List.cons_append, List.nil_append, List.append_nil]

/-- C133. The text of `CharPropsData.py` can be imported; it defines these names with these values, and no others. -/
theorem char_import : ∃ env, importModule (textOf charText) = .ok env ∧ env.reverse =
   [(txt "propsTrie_index", .list (values propsIndex)), (txt "propsTrie_index_length", .int propsIndexLength),
    (txt "propsTrie_index_2_null_offset", .int propsIndex2NullOffset),
    (txt "propsTrie_data_null_offset", .int propsDataNullOffset), (txt "propsTrie_high_start", .int propsHighStart),
    (txt "propsTrie_high_value_index", .int propsHighValueIndex),
    (txt "propsVectorsTrie_index", .list (values propsVectorsIndex)),
    (txt "propsVectorsTrie_index_length", .int propsVectorsIndexLength),
    (txt "propsVectorsTrie_index_2_null_offset", .int propsVectorsIndex2NullOffset),
    (txt "propsVectorsTrie_data_null_offset", .int propsVectorsDataNullOffset),
    (txt "propsVectorsTrie_high_start", .int propsVectorsHighStart),
    (txt "propsVectorsTrie_high_value_index", .int propsVectorsHighValueIndex),
    (txt "propsVectors", .list (values propsVectorsTable)), (txt "propsVectorsColumns", .int propsVectorsColumns),
    (txt "scriptExtensions", .list (values scriptExtensions))] := by
  refine ⟨_, ?_, List.reverse_reverse _⟩
  rw [char_text]
  exact import_pieces (quotes_of (by decide +kernel) (by decide +kernel) _) charPieces_ok

/-- The lines of `Norm2NFCData.py` as assignments, comments and empty lines. -/
noncomputable def nfcPieces : List Piece :=
 [.blank, .note (txt ""), .note (txt " Values used to construct the CPTrie"), .note (txt ""),
  .scalar (txt "norm2_nfc_data_indexLength") (decimal 1746) 1746, .scalar (txt "norm2_nfc_data_dataLength") (decimal 7892) 7892,
  .scalar (txt "norm2_nfc_data_highStart") (valText nfcHighStart) nfcHighStart,
  .scalar (txt "norm2_nfc_data_shifted12HighStart") (valText nfcShifted12HighStart) nfcShifted12HighStart,
  .scalar (txt "norm2_nfc_data_type") (valText nfcType) nfcType,
  .scalar (txt "norm2_nfc_data_valueWidth") (valText nfcValueWidth) nfcValueWidth, .blank,
  .note (txt " Do we really need these padding / reserved values?"), .note (txt " norm2_nfc_data_reserved32 = 0"),
  .note (txt " norm2_nfc_data_reserved16 = 0"), .blank,
  .scalar (txt "norm2_nfc_data_index3NullOffset") (valText nfcIndex3NullOffset) nfcIndex3NullOffset,
  .scalar (txt "norm2_nfc_data_dataNullOffset") (valText nfcDataNullOffset) nfcDataNullOffset,
  .scalar (txt "norm2_nfc_data_nullValue") (txt "0x1") 1, .blank,
  .array (txt "norm2_nfc_data_indexes") (10 :: linesText (nfcText1)) (values nfcIndexes), .blank,
  .array (txt "norm2_nfc_data_trieIndex") (10 :: linesText (nfcText3)) (values nfcTrieIndex), .blank,
  .array (txt "norm2_nfc_data_trieData") (10 :: linesText ((nfcText5) ++ nfcText6)) (values nfcTrieData), .blank,
  .array (txt "norm2_nfc_data_extraData") (10 :: linesText ((nfcText8) ++ nfcText9)) (values nfcExtraData), .blank,
  .array (txt "norm2_nfc_data_smallFCD") (10 :: linesText (nfcText11)) (values nfcSmallFCD)]

theorem nfcPieces_ok : ∀ p ∈ nfcPieces, p.Ok := by
  simp only [nfcPieces, List.forall_mem_cons, List.not_mem_nil, false_imp_iff, implies_true, and_true]
  exact ⟨trivial, (by show 10 ∉ txt _; decide), (by show 10 ∉ txt _; decide), (by show 10 ∉ txt _; decide),
    numeral_ok (.dec 1746) (by decide), numeral_ok (.dec 7892) (by decide), numeral_ok (valText_numeral (by decide)) (by decide),
    numeral_ok (valText_numeral (by decide)) (by decide), numeral_ok (valText_numeral (by decide)) (by decide),
    numeral_ok (valText_numeral (by decide)) (by decide), trivial, (by show 10 ∉ txt _; decide), (by show 10 ∉ txt _; decide),
    (by show 10 ∉ txt _; decide), trivial, numeral_ok (valText_numeral (by decide)) (by decide),
    numeral_ok (valText_numeral (by decide)) (by decide),
    numeral_ok (.hex (x := 120) (ds := [49]) (by decide) (by decide) (by decide)) (by decide), trivial,
    rows_ok nfcIndexes_rows (by decide), trivial, rows_ok nfcTrieIndex_rows (by decide), trivial,
    rows_ok nfcTrieData_rows (by decide), trivial, rows_ok nfcExtraData_rows (by decide), trivial,
    rows_ok nfcSmallFCD_rows (by decide)⟩

/-- The docstring. -/
def nfcDoc : Str := (linesText (nfcText0.take 6)).drop 3

theorem nfcSeg0 : linesText nfcText0 = 34 :: 34 :: 34 :: (nfcDoc ++ 34 :: 34 :: 34 :: 10 ::
    (Piece.text (.blank) ++ (Piece.text (.note (txt "")) ++ (Piece.text (.note (txt " Values used to construct the CPTrie")) ++ (Piece.text (.note (txt "")) ++ (Piece.text (.scalar (txt "norm2_nfc_data_indexLength") (decimal 1746) 1746) ++ (Piece.text (.scalar (txt "norm2_nfc_data_dataLength") (decimal 7892) 7892) ++ (Piece.text (.scalar (txt "norm2_nfc_data_highStart") (valText nfcHighStart) nfcHighStart) ++ (Piece.text (.scalar (txt "norm2_nfc_data_shifted12HighStart") (valText nfcShifted12HighStart) nfcShifted12HighStart) ++ (Piece.text (.scalar (txt "norm2_nfc_data_type") (valText nfcType) nfcType) ++ (Piece.text (.scalar (txt "norm2_nfc_data_valueWidth") (valText nfcValueWidth) nfcValueWidth) ++ (Piece.text (.blank) ++ (Piece.text (.note (txt " Do we really need these padding / reserved values?")) ++ (Piece.text (.note (txt " norm2_nfc_data_reserved32 = 0")) ++ (Piece.text (.note (txt " norm2_nfc_data_reserved16 = 0")) ++ (Piece.text (.blank) ++ (Piece.text (.scalar (txt "norm2_nfc_data_index3NullOffset") (valText nfcIndex3NullOffset) nfcIndex3NullOffset) ++ (Piece.text (.scalar (txt "norm2_nfc_data_dataNullOffset") (valText nfcDataNullOffset) nfcDataNullOffset) ++ (Piece.text (.scalar (txt "norm2_nfc_data_nullValue") (txt "0x1") 1) ++ (Piece.text (.blank) ++ ((txt "norm2_nfc_data_indexes" ++ (txt " = [" ++ [10]))))))))))))))))))))))) := by decide +kernel

theorem nfcSeg2 : linesText nfcText2 = txt "]\n" ++ (Piece.text (.blank) ++ ((txt "norm2_nfc_data_trieIndex" ++ (txt " = [" ++ [10])))) := by decide +kernel

theorem nfcSeg4 : linesText nfcText4 = txt "]\n" ++ (Piece.text (.blank) ++ ((txt "norm2_nfc_data_trieData" ++ (txt " = [" ++ [10])))) := by decide +kernel

theorem nfcSeg7 : linesText nfcText7 = txt "]\n" ++ (Piece.text (.blank) ++ ((txt "norm2_nfc_data_extraData" ++ (txt " = [" ++ [10])))) := by decide +kernel

theorem nfcSeg10 : linesText nfcText10 = txt "]\n" ++ (Piece.text (.blank) ++ ((txt "norm2_nfc_data_smallFCD" ++ (txt " = [" ++ [10])))) := by decide +kernel

theorem nfcSeg12 : linesText nfcText12 = txt "]\n" := by decide +kernel

theorem nfc_text : ∃ s, textOf nfcText = 34 :: 34 :: 34 :: (nfcDoc ++ 34 :: 34 :: 34 :: 10 :: s) ∧ nfcPieces.flatMap Piece.text = s ++ [10] := by
  have h := textOf_open (ls := nfcText0 ++ (nfcText1 ++ (nfcText2 ++ (nfcText3 ++ (nfcText4 ++ (nfcText5 ++ (nfcText6 ++ (nfcText7 ++ (nfcText8 ++ (nfcText9 ++ (nfcText10 ++ (nfcText11)))))))))))) (l := 0x5d)
  have e : nfcText = (nfcText0 ++ (nfcText1 ++ (nfcText2 ++ (nfcText3 ++ (nfcText4 ++ (nfcText5 ++ (nfcText6 ++ (nfcText7 ++ (nfcText8 ++ (nfcText9 ++ (nfcText10 ++ (nfcText11)))))))))))) ++ [0x5d] := by
    rw [show nfcText = nfcText0 ++ (nfcText1 ++ (nfcText2 ++ (nfcText3 ++ (nfcText4 ++ (nfcText5 ++ (nfcText6 ++ (nfcText7 ++ (nfcText8 ++ (nfcText9 ++ (nfcText10 ++ (nfcText11 ++ (nfcText12)))))))))))) from rfl]
    simp only [List.append_assoc]
    rfl
  rw [← e] at h
  have h2 : textOf nfcText ++ [10] = 34 :: 34 :: 34 :: (nfcDoc ++ 34 :: 34 :: 34 :: 10 :: nfcPieces.flatMap Piece.text) := by
    rw [h, show linesText [0x5d] = linesText nfcText12 from rfl]
    simp only [linesText_append, nfcSeg0, nfcSeg2, nfcSeg4, nfcSeg7, nfcSeg10, nfcSeg12, nfcPieces, List.flatMap_cons, List.flatMap_nil, array_text', List.append_assoc, List.cons_append, List.nil_append, List.append_nil]
  obtain ⟨s, h3, h4⟩ := open_end (x := 34 :: 34 :: 34 :: (nfcDoc ++ [34, 34, 34, 10])) (p := nfcPieces.flatMap Piece.text)
    (h2.trans (by simp only [List.append_assoc, List.cons_append, List.nil_append])) (by simp [nfcPieces, Piece.text, txt])
  exact ⟨s, h3.trans (by simp only [List.append_assoc, List.cons_append, List.nil_append]), h4⟩

/-- C133. The text of `Norm2NFCData.py` can be imported; it defines these names with these values, and no others. -/
theorem nfc_import : ∃ env, importModule (textOf nfcText) = .ok env ∧ env.reverse =
   [(txt "norm2_nfc_data_indexLength", .int 1746), (txt "norm2_nfc_data_dataLength", .int 7892),
    (txt "norm2_nfc_data_highStart", .int nfcHighStart), (txt "norm2_nfc_data_shifted12HighStart", .int nfcShifted12HighStart),
    (txt "norm2_nfc_data_type", .int nfcType), (txt "norm2_nfc_data_valueWidth", .int nfcValueWidth),
    (txt "norm2_nfc_data_index3NullOffset", .int nfcIndex3NullOffset),
    (txt "norm2_nfc_data_dataNullOffset", .int nfcDataNullOffset), (txt "norm2_nfc_data_nullValue", .int 1),
    (txt "norm2_nfc_data_indexes", .list (values nfcIndexes)), (txt "norm2_nfc_data_trieIndex", .list (values nfcTrieIndex)),
    (txt "norm2_nfc_data_trieData", .list (values nfcTrieData)), (txt "norm2_nfc_data_extraData", .list (values nfcExtraData)),
    (txt "norm2_nfc_data_smallFCD", .list (values nfcSmallFCD))] := by
  obtain ⟨s, h1, h2⟩ := nfc_text
  refine ⟨_, ?_, List.reverse_reverse _⟩
  rw [h1]
  refine import_pieces_open ?_ h2 nfcPieces_ok
  rw [show nfcDoc = 92 :: 10 :: nfcDoc.drop 2 by decide +kernel, List.cons_append, List.cons_append, PyExpr.afterQuotes, if_neg (by decide)]
  exact quotes_of (by decide +kernel) (by decide +kernel) _

/-! ## What the models use -/

/-- Reading the imported list is reading the table. -/
theorem values_get (t : Table) (i : Nat) : (Arr.ofList (values t)).get i = t.arr.get i := get_list t.arr i

theorem same_get {t u : UTrie2} (h : ∀ i, t.index.get i = u.index.get i) (h1 : t.indexLength = u.indexLength) (h2 : t.highStart = u.highStart)
    (h3 : t.highValueIndex = u.highValueIndex) (c : Nat) : t.get c = u.get c := by
  unfold UTrie2.get UTrie2.indexFromCodePoint UTrie2.indexRaw UTrie2.indexFromSupp
  simp only [h, h1, h2, h3]

/-- C133. The tries that the classes make from the imported names return for every code point what the tries return that the other theorems
are about. -/
theorem shipped_tries : (∃ env t, importModule (textOf bidiText) = .ok env ∧
      DataModules.trieOf env (txt "ubidi_props_trieIndex") (txt "ubidi_props_trie") = some t ∧ ∀ c, t.get c = Bidi.bidiPropsTrie.get c) ∧
    (∃ env t, importModule (textOf caseText) = .ok env ∧
      DataModules.trieOf env (txt "ucase_props_trieIndex") (txt "ucase_props_trie") = some t ∧ ∀ c, t.get c = Case.casePropsTrie.get c) ∧
    (∃ env t u, importModule (textOf charText) = .ok env ∧ DataModules.trieOf env (txt "propsTrie_index") (txt "propsTrie") = some t ∧
      DataModules.trieOf env (txt "propsVectorsTrie_index") (txt "propsVectorsTrie") = some u ∧
      (∀ c, t.get c = Char.propsTrie.get c) ∧ ∀ c, u.get c = Char.propsVectorTrie.get c) := by
  obtain ⟨e1, h1, r1⟩ := bidi_import
  obtain ⟨e2, h2, r2⟩ := case_import
  obtain ⟨e3, h3, r3⟩ := char_import
  rw [List.reverse_eq_iff] at r1 r2 r3
  subst r1 r2 r3
  exact ⟨⟨_, _, h1, rfl, same_get (values_get _) rfl rfl rfl⟩, ⟨_, _, h2, rfl, same_get (values_get _) rfl rfl rfl⟩,
    ⟨_, _, _, h3, rfl, rfl, same_get (values_get _) rfl rfl rfl, same_get (values_get _) rfl rfl rfl⟩⟩

/-- The lengths that `Norm2NFCData.py` states are those of its lists. -/
theorem nfc_lengths : (values nfcTrieIndex).length = 1746 ∧ (values nfcTrieData).length = 7892 ∧ (values nfcIndexes).length = 20 := by
  simp only [values, List.length_map, List.length_range]
  decide

end Verif.DataText.Props

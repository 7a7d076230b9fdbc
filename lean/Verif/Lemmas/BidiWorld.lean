import Verif.Lemmas.RunBidi
import Verif.Lemmas.HeaderText
import Verif.Lemmas.PyImport
/-! # The import of BidiProps.py -/
namespace Verif.PyRun
open Verif.PySyntax Verif.Library Verif.Data
set_option Elab.async false
set_option maxRecDepth 100000

/-- The names of `BidiPropsData`. -/
def bidiData : Scope :=
  [(0, n% "ubidi_props_trie_high_value_index", .val (.int bidiHighValueIndex)),
   (0, n% "ubidi_props_trie_high_start", .val (.int bidiHighStart)),
   (0, n% "ubidi_props_trie_data_null_offset", .val (.int bidiDataNullOffset)),
   (0, n% "ubidi_props_trie_index_2_null_offset", .val (.int bidiIndex2NullOffset)),
   (0, n% "ubidi_props_trie_index_length", .val (.int bidiIndexLength)),
   (0, n% "ubidi_props_jgArray2", .val (.arr (n% "ubidi_props_jgArray2") 0 bidiJg2.size)),
   (0, n% "ubidi_props_jgArray", .val (.arr (n% "ubidi_props_jgArray") 0 bidiJg1.size)),
   (0, n% "ubidi_props_mirrors", .val (.arr (n% "ubidi_props_mirrors") 0 bidiMirrors.size)),
   (0, n% "ubidi_props_trieIndex", .val (.arr (n% "ubidi_props_trieIndex") 0 bidiIndex.size)),
   (0, n% "ubidi_props_indexes", .val (.arr (n% "ubidi_props_indexes") 0 bidiIndexes.size))]

/-- The lists of `BidiPropsData`. -/
noncomputable def bidiTables (k : Nat) : Arr :=
  if k = n% "ubidi_props_jgArray2" then Arr.ofList (DataText.values bidiJg2)
  else if k = n% "ubidi_props_jgArray" then Arr.ofList (DataText.values bidiJg1)
  else if k = n% "ubidi_props_mirrors" then Arr.ofList (DataText.values bidiMirrors)
  else if k = n% "ubidi_props_trieIndex" then Arr.ofList (DataText.values bidiIndex)
  else if k = n% "ubidi_props_indexes" then Arr.ofList (DataText.values bidiIndexes)
  else empty.tables k

/-- The names of `uchar_h`. -/
def uchar : Scope := (HeaderText.values Text.ucharConstants ++ [(txt "U_UNICODE_VERSION", PyExpr.Val.str (txt "13.0")),
  (txt "U_MASK", PyExpr.Val.fn (txt "x") (.bin .shl (.num 1) (.name (txt "x"))))]).map constant

noncomputable def bidiBase : World :=
  ⟨[(n% "uchar_h", uchar), (n% "BidiPropsData", bidiData), (n% "Utrie2", trie2), (n% "Utilities", utilities)], bidiTables⟩

noncomputable def bidiScope : Scope := scopeOf (define bidiBase depth (n% "BidiProps") 0 Syntax.BidiProps.module [])

theorem bidiScope_ok : define bidiBase depth (n% "BidiProps") 0 Syntax.BidiProps.module [] = .ok bidiScope ∧
    (BidiProps.names.all fun p => decide (bidiScope.find 0 p.1 = p.2)) = true := by decide +kernel

/-- The modules after the import of BidiProps.py. -/
noncomputable def bidiWorld : World := ⟨(n% "BidiProps", bidiScope) :: bidiBase.modules, bidiTables⟩

theorem bidiWorld_trie : bidiWorld.scope (n% "Utrie2") = trie2 := by
  rw [bidiWorld, scope_tail (by decide), bidiBase, scope_tail (by decide), scope_tail (by decide), scope_cons]

theorem bidiWorld_utilities : bidiWorld.scope (n% "Utilities") = utilities := by
  rw [bidiWorld, scope_tail (by decide), bidiBase, scope_tail (by decide), scope_tail (by decide), scope_tail (by decide), scope_cons]

theorem BidiProps.imported : BidiProps.Imported bidiWorld where
  trie := bidiWorld_trie
  name := fun p hp => (find_cons _ _ _ _ _ _).trans (of_decide_eq_true (List.all_eq_true.mp bidiScope_ok.2 p hp))
  props := same_values bidiIndex
  mirrors := same_values bidiMirrors
  indexes := same_values bidiIndexes
  groups := same_values bidiJg1
  groups2 := same_values bidiJg2

theorem uchar_ok (w : World) : importConstants w (n% "uchar_h") (textOf Text.uchar_h) = .ok ⟨(n% "uchar_h", uchar) :: w.modules, w.tables⟩ :=
  constants_ok HeaderText.uchar (by rw [uchar])

theorem bidiData_ok (w : World) (hw : w.tables = empty.tables) : importData w (n% "BidiPropsData") (textOf bidiText) =
    .ok ⟨(n% "BidiPropsData", bidiData) :: w.modules, bidiTables⟩ := by
  obtain ⟨env, h, r⟩ := DataText.Props.bidi_import
  rw [List.reverse_eq_iff] at r
  subst r
  refine data_ok h ?_ fun k => ?_
  · simp only [List.reverse_cons, List.reverse_nil, List.nil_append, List.cons_append, List.map_cons, List.map_nil, table, values_length]
    decide +kernel
  · rw [hw]
    simp only [List.reverse_cons, List.reverse_nil, List.nil_append, List.cons_append, tablesOf, bidiTables]
    rfl

attribute [local irreducible] utilities trie2 uchar bidiScope textOf

theorem bidiProps_ok : bidiProps = .ok bidiWorld := by
  have h1 := bidiData_ok ⟨[(n% "Utrie2", trie2), (n% "Utilities", utilities)], empty.tables⟩ rfl
  have h4 := import_ok parse_BidiProps bidiScope_ok.1
  unfold bidiProps
  rw [tries_ok, ok_bind, h1, ok_bind, uchar_ok, ok_bind]
  exact h4

end Verif.PyRun

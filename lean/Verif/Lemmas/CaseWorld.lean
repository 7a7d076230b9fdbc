import Verif.Lemmas.RunCase
import Verif.Lemmas.PyImport
/-! # The import of CaseProps.py -/
namespace Verif.PyRun
open Verif.PySyntax Verif.Library Verif.Data
set_option Elab.async false
set_option maxRecDepth 100000

/-- The names of `CasePropsData`. -/
def caseData : Scope :=
  [(0, n% "ucase_props_trie_high_value_index", .val (.int caseHighValueIndex)),
   (0, n% "ucase_props_trie_high_start", .val (.int caseHighStart)),
   (0, n% "ucase_props_trie_data_null_offset", .val (.int caseDataNullOffset)),
   (0, n% "ucase_props_trie_index_2_null_offset", .val (.int caseIndex2NullOffset)),
   (0, n% "ucase_props_trie_index_length", .val (.int caseIndexLength)),
   (0, n% "ucase_props_unfold", .val (.arr (n% "ucase_props_unfold") 0 caseUnfold.size)),
   (0, n% "ucase_props_exceptions", .val (.arr (n% "ucase_props_exceptions") 0 caseExceptions.size)),
   (0, n% "ucase_props_trieIndex", .val (.arr (n% "ucase_props_trieIndex") 0 caseIndex.size)),
   (0, n% "ucase_props_indexes", .val (.arr (n% "ucase_props_indexes") 0 caseIndexes.size))]

/-- The lists of `CasePropsData`. -/
noncomputable def caseTables (k : Nat) : Arr :=
  if k = n% "ucase_props_unfold" then Arr.ofList (DataText.values caseUnfold)
  else if k = n% "ucase_props_exceptions" then Arr.ofList (DataText.values caseExceptions)
  else if k = n% "ucase_props_trieIndex" then Arr.ofList (DataText.values caseIndex)
  else if k = n% "ucase_props_indexes" then Arr.ofList (DataText.values caseIndexes)
  else empty.tables k

noncomputable def caseBase : World := ⟨[(n% "CasePropsData", caseData), (n% "Utrie2", trie2), (n% "Utilities", utilities)], caseTables⟩

noncomputable def caseScope : Scope := scopeOf (define caseBase depth (n% "CaseProps") 0 Syntax.CaseProps.module [])

theorem caseScope_ok : define caseBase depth (n% "CaseProps") 0 Syntax.CaseProps.module [] = .ok caseScope ∧
    (CaseProps.names.all fun p => decide (caseScope.find 0 p.1 = p.2)) = true := by decide +kernel

/-- The modules after the import of CaseProps.py. -/
noncomputable def caseWorld : World := ⟨(n% "CaseProps", caseScope) :: caseBase.modules, caseTables⟩

theorem caseWorld_trie : caseWorld.scope (n% "Utrie2") = trie2 := by
  rw [caseWorld, scope_tail (by decide), caseBase, scope_tail (by decide), scope_cons]

theorem CaseProps.imported : CaseProps.Imported caseWorld where
  trie := caseWorld_trie
  name := fun p hp => (find_cons _ _ _ _ _ _).trans (of_decide_eq_true (List.all_eq_true.mp caseScope_ok.2 p hp))
  props := same_values caseIndex
  exceptions := same_values caseExceptions

theorem caseData_ok (w : World) (hw : w.tables = empty.tables) : importData w (n% "CasePropsData") (textOf caseText) =
    .ok ⟨(n% "CasePropsData", caseData) :: w.modules, caseTables⟩ := by
  obtain ⟨env, h, r⟩ := DataText.Props.case_import
  rw [List.reverse_eq_iff] at r
  subst r
  refine data_ok h ?_ fun k => ?_
  · simp only [List.reverse_cons, List.reverse_nil, List.nil_append, List.cons_append, List.map_cons, List.map_nil, table, values_length]
    decide +kernel
  · rw [hw]
    simp only [List.reverse_cons, List.reverse_nil, List.nil_append, List.cons_append, tablesOf, caseTables]
    rfl

attribute [local irreducible] utilities trie2 caseScope textOf

theorem caseProps_ok : caseProps = .ok caseWorld := by
  have h1 := caseData_ok ⟨[(n% "Utrie2", trie2), (n% "Utilities", utilities)], empty.tables⟩ rfl
  have h4 := import_ok parse_CaseProps caseScope_ok.1
  unfold caseProps
  rw [tries_ok, ok_bind, h1, ok_bind]
  exact h4

end Verif.PyRun

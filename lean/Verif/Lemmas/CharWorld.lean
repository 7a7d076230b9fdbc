import Verif.Lemmas.RunChar
import Verif.Lemmas.HeaderText
import Verif.Lemmas.PyImport
/-! # The import of CharProps.py -/
namespace Verif.PyRun
open Verif.PySyntax Verif.Library Verif.Data
set_option Elab.async false
set_option maxRecDepth 100000

/-- The names of `CharPropsData`. -/
def charData : Scope :=
  [(0, n% "scriptExtensions", .val (.arr (n% "scriptExtensions") 0 scriptExtensions.size)),
   (0, n% "propsVectorsColumns", .val (.int propsVectorsColumns)),
   (0, n% "propsVectors", .val (.arr (n% "propsVectors") 0 propsVectorsTable.size)),
   (0, n% "propsVectorsTrie_high_value_index", .val (.int propsVectorsHighValueIndex)),
   (0, n% "propsVectorsTrie_high_start", .val (.int propsVectorsHighStart)),
   (0, n% "propsVectorsTrie_data_null_offset", .val (.int propsVectorsDataNullOffset)),
   (0, n% "propsVectorsTrie_index_2_null_offset", .val (.int propsVectorsIndex2NullOffset)),
   (0, n% "propsVectorsTrie_index_length", .val (.int propsVectorsIndexLength)),
   (0, n% "propsVectorsTrie_index", .val (.arr (n% "propsVectorsTrie_index") 0 propsVectorsIndex.size)),
   (0, n% "propsTrie_high_value_index", .val (.int propsHighValueIndex)),
   (0, n% "propsTrie_high_start", .val (.int propsHighStart)),
   (0, n% "propsTrie_data_null_offset", .val (.int propsDataNullOffset)),
   (0, n% "propsTrie_index_2_null_offset", .val (.int propsIndex2NullOffset)),
   (0, n% "propsTrie_index_length", .val (.int propsIndexLength)),
   (0, n% "propsTrie_index", .val (.arr (n% "propsTrie_index") 0 propsIndex.size))]

/-- The lists of `CharPropsData`. -/
noncomputable def charTables (k : Nat) : Arr :=
  if k = n% "scriptExtensions" then Arr.ofList (DataText.values scriptExtensions)
  else if k = n% "propsVectors" then Arr.ofList (DataText.values propsVectorsTable)
  else if k = n% "propsVectorsTrie_index" then Arr.ofList (DataText.values propsVectorsIndex)
  else if k = n% "propsTrie_index" then Arr.ofList (DataText.values propsIndex)
  else empty.tables k

def uprops : Scope := (HeaderText.values Text.upropsConstants).map constant

def uscript : Scope := (HeaderText.values Text.uscriptConstants).map constant

noncomputable def charBase0 : World :=
  ⟨[(n% "uscript_h", uscript), (n% "uprops_h", uprops), (n% "CharPropsData", charData), (n% "Utrie2", trie2), (n% "Utilities", utilities)], charTables⟩

noncomputable def characters : Scope := scopeOf (define charBase0 depth (n% "Characters") 0 Syntax.Characters.module [])

theorem characters_ok : define charBase0 depth (n% "Characters") 0 Syntax.Characters.module [] = .ok characters := by decide +kernel

noncomputable def charBase1 : World := ⟨(n% "Characters", characters) :: charBase0.modules, charTables⟩

noncomputable def categories : Scope := scopeOf (define charBase1 depth (n% "GeneralCategories") 0 Syntax.GeneralCategories.module [])

theorem categories_ok : define charBase1 depth (n% "GeneralCategories") 0 Syntax.GeneralCategories.module [] = .ok categories := by decide +kernel

noncomputable def charBase : World := ⟨(n% "GeneralCategories", categories) :: charBase1.modules, charTables⟩

noncomputable def charScope : Scope := scopeOf (define charBase depth (n% "CharProps") 0 Syntax.CharProps.module [])

theorem charScope_ok : define charBase depth (n% "CharProps") 0 Syntax.CharProps.module [] = .ok charScope ∧
    (CharProps.names.all fun p => decide (charScope.find 0 p.1 = p.2)) = true := by decide +kernel

/-- The modules after the import of CharProps.py. -/
noncomputable def charWorld : World := ⟨(n% "CharProps", charScope) :: charBase.modules, charTables⟩

theorem charWorld_trie : charWorld.scope (n% "Utrie2") = trie2 := by
  rw [charWorld, scope_tail (by decide), charBase, scope_tail (by decide), charBase1, scope_tail (by decide), charBase0, scope_tail (by decide),
    scope_tail (by decide), scope_tail (by decide), scope_cons]

theorem CharProps.imported : CharProps.Imported charWorld where
  trie := charWorld_trie
  name := fun p hp => (find_cons _ _ _ _ _ _).trans (of_decide_eq_true (List.all_eq_true.mp charScope_ok.2 p hp))
  props := same_values propsIndex
  vectors := same_values propsVectorsIndex
  table := same_values propsVectorsTable
  extensions := same_values scriptExtensions

theorem uprops_ok (w : World) : importConstants w (n% "uprops_h") (textOf Text.uprops_h) = .ok ⟨(n% "uprops_h", uprops) :: w.modules, w.tables⟩ :=
  constants_ok HeaderText.uprops (by rw [uprops])

theorem uscript_ok (w : World) : importConstants w (n% "uscript_h") (textOf Text.uscript_h) = .ok ⟨(n% "uscript_h", uscript) :: w.modules, w.tables⟩ :=
  constants_ok HeaderText.uscript (by rw [uscript])

theorem charData_ok (w : World) (hw : w.tables = empty.tables) : importData w (n% "CharPropsData") (textOf charText) =
    .ok ⟨(n% "CharPropsData", charData) :: w.modules, charTables⟩ := by
  obtain ⟨env, h, r⟩ := DataText.Props.char_import
  rw [List.reverse_eq_iff] at r
  subst r
  refine data_ok h ?_ fun k => ?_
  · simp only [List.reverse_cons, List.reverse_nil, List.nil_append, List.cons_append, List.map_cons, List.map_nil, table, values_length]
    decide +kernel
  · rw [hw]
    simp only [List.reverse_cons, List.reverse_nil, List.nil_append, List.cons_append, tablesOf, charTables]
    rfl

attribute [local irreducible] utilities trie2 uprops uscript characters categories charScope textOf

theorem charProps_ok : charProps = .ok charWorld := by
  have h1 := charData_ok ⟨[(n% "Utrie2", trie2), (n% "Utilities", utilities)], empty.tables⟩ rfl
  have h2 := import_ok parse_Characters characters_ok
  have h3 := import_ok parse_GeneralCategories categories_ok
  have h4 := import_ok parse_CharProps charScope_ok.1
  unfold charProps
  rw [tries_ok, ok_bind, h1, ok_bind, uprops_ok, ok_bind, uscript_ok, ok_bind]
  refine (step h2).trans ?_
  refine (step h3).trans ?_
  exact h4

end Verif.PyRun

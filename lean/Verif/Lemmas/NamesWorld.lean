import Verif.Lemmas.RunCharCat
import Verif.Lemmas.CharWorld
/-! # The import of CharNames.py -/
namespace Verif.PyRun
open Verif.PySyntax Verif.Library Verif.Data
set_option Elab.async false
set_option maxRecDepth 100000

noncomputable def namesBase : World := ⟨(n% "ICUDataFile", [(0, n% "ICUData", .val .other)]) :: charWorld.modules, charTables⟩

noncomputable def namesScope : Scope := scopeOf (defineKnown namesBase depth (n% "CharNames") 0 Syntax.CharNames.module [])

theorem namesScope_ok : defineKnown namesBase depth (n% "CharNames") 0 Syntax.CharNames.module [] = .ok namesScope ∧
    (Names.names.all fun p => decide (namesScope.find p.1 p.2.1 = p.2.2)) = true := by decide +kernel

/-- The modules after the import of CharNames.py. -/
noncomputable def namesWorld (N : CharNames.Names) : World := ⟨(n% "CharNames", stored N ++ namesScope) :: namesBase.modules, charTables⟩

theorem find_stored {N : CharNames.Names} {k x : Nat} (s : Scope) (h : ((stored N).all fun e => decide (¬(e.1 = k ∧ e.2.1 = x))) = true) :
    Scope.find k x (stored N ++ s) = s.find k x := by
  generalize stored N = l at h
  induction l with
  | nil => rfl
  | cons e l ih =>
    rw [List.all_cons, Bool.and_eq_true] at h
    rw [List.cons_append, Scope.find, if_neg (of_decide_eq_true h.1), ih h.2]

theorem others (N : CharNames.Names) : (Names.names.all fun p => (stored N).all fun e => decide (¬(e.1 = p.1 ∧ e.2.1 = p.2.1))) = true := by
  rfl

theorem Names.imported (N : CharNames.Names) : Names.Imported (namesWorld N) N where
  name := fun p hp => by
    rw [namesWorld, find_cons, find_stored _ (List.all_eq_true.mp (others N) p hp)]
    exact of_decide_eq_true (List.all_eq_true.mp namesScope_ok.2 p hp)
  tokens := find_cons _ _ _ _ _ _
  strings := find_cons _ _ _ _ _ _
  groups := find_cons _ _ _ _ _ _
  ranges := find_cons _ _ _ _ _ _

theorem namesWorld_tail {m : Nat} (N : CharNames.Names) (h : (m == n% "CharNames") = false) (h' : (m == n% "ICUDataFile") = false) :
    (namesWorld N).scope m = charWorld.scope m := by
  rw [namesWorld, scope_tail h, namesBase, scope_tail h', charWorld]

theorem Names.complete (N : CharNames.Names) : Names.Complete (namesWorld N) N where
  names := Names.imported N
  char := {
    trie := (namesWorld_tail N (by decide) (by decide)).trans charWorld_trie
    name := fun p hp => by
      rw [World.find, namesWorld_tail N (by decide) (by decide)]
      exact CharProps.imported.name p hp
    props := CharProps.imported.props
    vectors := CharProps.imported.vectors
    table := CharProps.imported.table
    extensions := CharProps.imported.extensions }
  utilities := by
    rw [namesWorld_tail N (by decide) (by decide), charWorld, scope_tail (by decide), charBase, scope_tail (by decide), charBase1, scope_tail (by decide), charBase0,
      scope_tail (by decide), scope_tail (by decide), scope_tail (by decide), scope_tail (by decide), scope_cons]

attribute [local irreducible] namesScope textOf

theorem charNames_ok (N : CharNames.Names) : charNames N = .ok (namesWorld N) := by
  have h : defineKnown namesBase depth (n% "CharNames") 0 Syntax.CharNames.module [] = .ok namesScope := namesScope_ok.1
  unfold charNames
  rw [charProps_ok, ok_bind]
  simp only [parse_CharNames]
  exact (congrArg (· >>= _) h).trans rfl

end Verif.PyRun

import Verif.Lemmas.RunTrie
import Verif.Lemmas.SourceChecks
import Verif.Props.ShippedData
/-! # Imports, step by step -/
namespace Verif.PyRun
open Verif.PySyntax Verif.Library Verif.Data

theorem same_values (t : Table) : Same (Arr.ofList (DataText.values t)) t.arr := by
  intro i h
  have := DataText.Props.values_get t i
  unfold Arr.get at this
  rw [if_pos h, if_pos (by rw [Arr.ofList, DataText.values, List.length_map, List.length_range]; exact h)] at this
  exact Except.ok.inj this

theorem values_length (t : Table) : (DataText.values t).length = t.size := by rw [DataText.values, List.length_map, List.length_range]

theorem scope_cons (m : Nat) (s : Scope) (ms : List (Nat × Scope)) (T : Nat → Arr) : World.scope ⟨(m, s) :: ms, T⟩ m = s := by
  rw [World.scope, List.lookup_cons_self, Option.getD_some]

theorem scope_tail {m m' : Nat} (h : (m == m') = false) (s : Scope) (ms : List (Nat × Scope)) (T : Nat → Arr) :
    World.scope ⟨(m', s) :: ms, T⟩ m = World.scope ⟨ms, T⟩ m := by
  simp only [World.scope, List.lookup, h]

theorem find_cons (m k x : Nat) (s : Scope) (ms : List (Nat × Scope)) (T : Nat → Arr) : World.find ⟨(m, s) :: ms, T⟩ m k x = s.find k x := by
  rw [World.find, scope_cons]

theorem import_ok {w : World} {n m : Nat} {text : Str} {b : Stmt} {s : Scope} (h : parse text = some b) (h' : define w n m 0 b [] = .ok s) :
    importModule w n m text = .ok { w with modules := (m, s) :: w.modules } := by
  rw [importModule, h]
  simp only [h', Except.map]

theorem constants_ok {w : World} {m : Nat} {text : Str} {env : List (Str × PyExpr.Val)} {s : Scope} (h : PyExpr.importModule text = .ok env)
    (hs : s = env.map constant) : importConstants w m text = .ok { w with modules := (m, s) :: w.modules } := by
  rw [importConstants, h, hs]; rfl

theorem data_ok {w : World} {m : Nat} {text : Str} {env : List (Str × PyLists.Val)} {s : Scope} {T : Nat → Arr} (h : PyLists.importModule text = .ok env)
    (hs : env.map table = s) (hT : ∀ k, tablesOf env w.tables k = T k) : importData w m text = .ok ⟨(m, s) :: w.modules, T⟩ := by
  rw [importData, h, ← hs, ← funext hT]; rfl

theorem ok_bind {α β : Type} (a : α) (f : α → R β) : ((Except.ok a : R α) >>= f) = f a := rfl

theorem step {w w' : World} {n m : Nat} {text : Str} {f : World → R World} (h : importModule w n m text = .ok w') :
    (importModule w n m text >>= f) = f w' := by
  rw [h, ok_bind]

attribute [local irreducible] utilities trie2 textOf

theorem tries_ok : tries = .ok ⟨[(n% "Utrie2", trie2), (n% "Utilities", utilities)], empty.tables⟩ := by
  have h := import_ok parse_Utrie2 trie2_ok
  have h' := import_ok parse_Utilities utilities_ok
  unfold tries
  rw [h', ok_bind]
  exact h

end Verif.PyRun

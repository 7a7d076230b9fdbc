import Verif.Lemmas.RunUSetSim
import Verif.Lemmas.RunUSetQuery
import Verif.Lemmas.SourceChecks
/-! # The module UnicodeSet.py, imported from its text -/
namespace Verif.PyHeap
open Verif.PySyntax Verif.Data
open Verif.PyRun (R Err lift bound)
set_option Elab.async false

/-- The names of the module. -/
def unicodeSet : Scope :=
  match define 0 Syntax.UnicodeSet.module [] with
  | .ok s => s
  | .error _ => []

theorem import_ok : importModule (textOf Source.UnicodeSet) = .ok unicodeSet := by
  rw [importModule, PyRun.parse_UnicodeSet]
  rfl

theorem imported : Imported unicodeSet := by
  constructor <;> rfl

theorem modelOps_run (h : USet.Heap) (ops : List USet.Op) : USet.run h ops = (modelOps h ops).map Prod.fst := by
  induction ops generalizing h with
  | nil => rfl
  | cons op ops ih =>
    simp only [USet.run, modelOps, Bind.bind, Except.bind]
    cases USet.step h op with
    | error e => rfl
    | ok p =>
      simp only [ih]
      cases modelOps p.1 ops <;> rfl

theorem modelOps_append {h h1 h2 : USet.Heap} {ops1 ops2 : List USet.Op} {us1 us2 : List USet.Ret} (e1 : modelOps h ops1 = .ok (h1, us1))
    (e2 : modelOps h1 ops2 = .ok (h2, us2)) : modelOps h (ops1 ++ ops2) = .ok (h2, us1 ++ us2) := by
  induction ops1 generalizing h us1 with
  | nil => simp only [modelOps, Except.ok.injEq, Prod.mk.injEq] at e1; obtain ⟨rfl, rfl⟩ := e1; exact e2
  | cons op ops ih =>
    simp only [modelOps, List.cons_append, Bind.bind, Except.bind] at e1 ⊢
    cases es : USet.step h op with
    | error e => rw [es] at e1; simp at e1
    | ok p =>
      rw [es] at e1
      simp only at e1 ⊢
      cases em : modelOps p.1 ops with
      | error e => rw [em] at e1; simp at e1
      | ok q =>
        rw [em] at e1
        simp only [pure, Except.pure, Except.ok.injEq, Prod.mk.injEq] at e1
        obtain ⟨h1', rfl⟩ := e1
        have : modelOps p.1 ops = .ok (h1, q.2) := by rw [em, ← h1']
        simp only [ih this, pure, Except.pure, List.cons_append]

end Verif.PyHeap

import Verif.Props.UnicodeSet
/-!
# What every legal history does (C06)

The calls that do not act as documented do nothing at all, so that every legal history has an exact description.
-/
namespace Verif.USet.Props
open Verif.USet Verif.Spec

/-- A call that is not supported leaves everything as it is. -/
theorem step_unsupported {h : Heap} (hh : HeapOk h) {op : Op} (hop : op.Legal h.objs.length) (hn : ¬ op.Supported) :
    ∃ x, step h op = .ok (h, some x) ∧ op.receiver = some x := by
  have rd : ∀ x, x < h.objs.length → ∃ l, h.read x = .ok l := fun x hx => by
    obtain ⟨l, hl, -⟩ := hh.2 x hx
    exact ⟨l, hl⟩
  have g : ∀ (x : Nat) (s : Int) (r : Py (List Int)), h.guarded x s s r = .ok (h, some x) := by
    intro x s r
    unfold Heap.guarded
    rw [if_neg (Int.lt_irrefl _)]
  cases op with
  | remove x cp | retain x cp | complementInt x cp =>
    obtain ⟨l, hl⟩ := rd x hop.1
    refine ⟨x, ?_, rfl⟩
    simp only [step, hl, bind, Except.bind]
    exact g _ _ _
  | removeRange x s e | complementRange x s e =>
    obtain ⟨l, hl⟩ := rd x hop.1
    have : s = e := Classical.not_not.mp hn
    subst this
    refine ⟨x, ?_, rfl⟩
    simp only [step, hl, bind, Except.bind]
    exact g _ _ _
  | retainRange x s e =>
    obtain ⟨l, hl⟩ := rd x hop.1
    have : s = e := Classical.not_not.mp hn
    subst this
    refine ⟨x, ?_, rfl⟩
    simp only [step, hl, bind, Except.bind]
    exact g _ _ _
  | complementPyRange x s e =>
    obtain ⟨l, hl⟩ := rd x hop.1
    have : e = s + 1 := Classical.not_not.mp hn
    subst this
    refine ⟨x, ?_, rfl⟩
    simp only [step, hl, bind, Except.bind]
    have : s + 1 - 1 = s := by omega
    rw [this]
    exact g _ _ _
  | _ => exact absurd trivial hn

/-- The calls of a history that act as documented. -/
def supportedCalls (ops : List Op) : List Op := ops.filter (fun op => decide op.Supported)

theorem run_supported : ∀ (ops : List Op) {h : Heap}, HeapOk h → LegalHistory h.objs.length ops →
    run h ops = run h (supportedCalls ops) ∧ LegalHistory h.objs.length (supportedCalls ops)
  | [], _, _, _ => ⟨rfl, trivial⟩
  | op :: ops, h, hh, hl => by
    by_cases hs : op.Supported
    · obtain ⟨v, h1, ret, h2, hok, -⟩ := step_ok hh hl.1
      have hcnt := h2.2.2.1
      obtain ⟨e1, e2⟩ := run_supported ops hok (by rw [hcnt]; exact hl.2)
      have hf : supportedCalls (op :: ops) = op :: supportedCalls ops := by
        unfold supportedCalls; rw [List.filter_cons_of_pos (by simpa using hs)]
      rw [hf]
      refine ⟨?_, hl.1, by rw [← hcnt]; exact e2⟩
      simp only [run, h2.1, bind, Except.bind]
      exact e1
    · obtain ⟨x, hx, hr⟩ := step_unsupported hh hl.1 hs
      have hcnt : op.count h.objs.length = h.objs.length := by unfold Op.count; rw [hr]
      obtain ⟨e1, e2⟩ := run_supported ops hh (by have := hl.2; rw [hcnt] at this; exact this)
      have hf : supportedCalls (op :: ops) = supportedCalls ops := by
        unfold supportedCalls; rw [List.filter_cons_of_neg (by simpa using hs)]
      rw [hf]
      refine ⟨?_, e2⟩
      simp only [run, hx, bind, Except.bind]
      exact e1

/-- C06, what the code does for every legal history: afterwards `c in s` answers for every set what the reference sets answer
after the same calls without the ones that are not supported (`remove`, `retain` and `complement` of one code point, and the
range forms on a range of one code point). -/
theorem history_exact {ops : List Op} (hl : LegalHistory 0 ops) :
    ∃ h, run Heap.empty ops = .ok h ∧ h.objs.length = (refRun [] (supportedCalls ops)).length ∧
      ∀ x, x < h.objs.length → ∀ c, IsCodePoint c →
        ∃ b, h.contains x c = .ok b ∧ (b = true ↔ refGet (refRun [] (supportedCalls ops)) x c) := by
  obtain ⟨e1, e2⟩ := run_supported ops heapOk_empty hl
  obtain ⟨h, h1, h2⟩ := history_refines_partial (ops := supportedCalls ops) e2 (fun op ho => by
    have := (List.mem_filter.mp ho).2
    simpa using this)
  exact ⟨h, by rw [e1]; exact h1, h2⟩

example : LegalHistory 0 [.newRange 1 5, .remove 0 2, .add 0 7] ∧
    supportedCalls [.newRange 1 5, .remove 0 2, .add 0 7] = [.newRange 1 5, .add 0 7] := by decide

end Verif.USet.Props

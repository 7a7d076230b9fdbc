import Verif.Lemmas.RunUSetNew
import Verif.Model.UnicodeSetArgs
/-! # What the text of UnicodeSet.py does: questions and operators -/
namespace Verif.PyHeap
open Verif.PySyntax Verif.Data
open Verif.PyRun (R Err lift bound)
set_option Elab.async false

section
variable {w : Scope} (H : Imported w) {n : Nat} {σ : Heap} {x r o y q : Nat} {l m : List Int}
include H

theorem contains_int (S : IsSet σ x r l) (cp : Int) (hn : l.length + 2 ≤ n) :
    method w (run w n) (n% "UnicodeSet") (n% "contains") [.ref x, .int cp] σ = ret .bool σ (USet.contains l cp) := by
  obtain ⟨n, rfl⟩ : ∃ m, n = m + 1 := ⟨n - 1, by omega⟩
  rw [method_doc H.contains rfl]
  have hf := find_run' H S cp (n := n) (by omega)
  rw [USet.contains]
  cases ef : USet.findCodePoint l cp with
  | error e =>
    rw [ef, ret] at hf
    simp only [Bind.bind, Except.bind, ret]
    py_heap [S.obj, S.cell, H.type, H.int, hf]
  | ok i =>
    rw [ef, ret] at hf
    simp only [Bind.bind, Except.bind, ret, Pure.pure, Except.pure]
    cases hi : decide (i % 2 = 0) <;> py_heap [S.obj, S.cell, H.type, H.int, hf, and_one, Int.natCast_eq_zero, hi, ne_eq, decide_not]

theorem contains_range (S : IsSet σ x r l) (s e t : Int) (hn : l.length + 2 ≤ n) :
    method w (run w n) (n% "UnicodeSet") (n% "contains") [.ref x, .range s e t] σ = ret .bool σ (USet.containsRange l s e) := by
  obtain ⟨n, rfl⟩ : ∃ m, n = m + 1 := ⟨n - 1, by omega⟩
  rw [method_doc H.contains rfl]
  have hf := find_run' H S s (n := n) (by omega)
  rw [USet.containsRange]
  cases ef : USet.findCodePoint l s with
  | error err =>
    rw [ef, ret] at hf
    simp only [Bind.bind, Except.bind, ret]
    py_heap [S.obj, S.cell, H.type, H.int, H.range, hf]
  | ok i =>
    rw [ef, ret] at hf
    simp only [Bind.bind, Except.bind, Pure.pure, Except.pure]
    cases hi : decide (i % 2 = 0) with
    | true =>
      rw [if_neg (fun h => h (of_decide_eq_true hi)), ret]
      py_heap [S.obj, S.cell, H.type, H.int, H.range, hf, and_one, Int.natCast_eq_zero, hi]
    | false =>
      rw [if_pos (of_decide_eq_false hi)]
      cases eg : pyGet l (i : Int) with
      | error err =>
        have hg := get_error eg
        rw [ret]
        py_heap [S.obj, S.cell, H.type, H.int, H.range, hf, and_one, Int.natCast_eq_zero, hi, hg]
      | ok li =>
        have hg := get_ok eg
        simp only [ret]
        py_heap [S.obj, S.cell, H.type, H.int, H.range, hf, and_one, Int.natCast_eq_zero, hi, hg]

theorem contains_other (v : Val) (hv : v = .other ∨ v = .none ∨ ∃ b, v = .bool b) (hn : 1 ≤ n) :
    method w (run w n) (n% "UnicodeSet") (n% "contains") [.ref x, v] σ = .error (.raised .typeError) := by
  obtain ⟨n, rfl⟩ : ∃ m, n = m + 1 := ⟨n - 1, by omega⟩
  rw [method_doc H.contains rfl]
  rcases hv with rfl | rfl | ⟨b, rfl⟩ <;> py_heap [H.type, H.int, H.range]

theorem contains_set (T : IsSet σ y q m) (hn : 1 ≤ n) :
    method w (run w n) (n% "UnicodeSet") (n% "contains") [.ref x, .ref y] σ = .error (.raised .typeError) := by
  obtain ⟨n, rfl⟩ : ∃ m, n = m + 1 := ⟨n - 1, by omega⟩
  rw [method_doc H.contains rfl]
  py_heap [T.obj, H.type, H.int, H.range]

/-- `v in x` is `x.contains(v)`. -/
theorem in_run (S : IsSet σ x r l) (v : Val) {b : Py Bool} (h : method w (run w n) (n% "UnicodeSet") (n% "contains") [.ref x, v] σ = ret .bool σ b) :
    apply w (run w (n + 1)) .in' v (.ref x) σ = ret .bool σ b := by
  rw [apply, S.obj]
  simp only [andThen_match]
  rw [method_doc H.__contains__ rfl]
  cases b <;> (rw [ret] at h; py_heap [S.obj, h, ret])

theorem eq_run (S : IsSet σ x r l) (T : IsSet σ y q m) (hn : 1 ≤ n) :
    apply w (run w n) .eq (.ref x) (.ref y) σ = .ok (.bool (USet.eq l m), σ) := by
  obtain ⟨n, rfl⟩ : ∃ m, n = m + 1 := ⟨n - 1, by omega⟩
  simp only [apply, S.obj, special]
  rw [method_plain H.__eq__ rfl]
  py_heap [S.obj, S.cell, T.obj, T.cell, H.typing, H.cls, listEq_vals, USet.eq, and_self]
  all_goals simp

theorem eq_other (S : IsSet σ x r l) (v : Val) (hv : v = .other ∨ v = .none ∨ (∃ b, v = .bool b) ∨ (∃ i, v = .int i) ∨ ∃ a b s, v = .range a b s)
    (hn : 1 ≤ n) :
    apply w (run w n) .eq (.ref x) v σ = .error (.raised .attributeError) := by
  obtain ⟨n, rfl⟩ : ∃ m, n = m + 1 := ⟨n - 1, by omega⟩
  simp only [apply, S.obj, special]
  rw [method_plain H.__eq__ rfl]
  rcases hv with rfl | rfl | ⟨b, rfl⟩ | ⟨b, rfl⟩ | ⟨a, b, s, rfl⟩ <;> py_heap [S.obj, S.cell, H.typing, H.cls, and_self]

/-- `x != v` is `not x == v`. -/
theorem ne_run (S : IsSet σ x r l) (v : Val) {b : Py Bool} (h : apply w (run w n) .eq (.ref x) v σ = ret .bool σ b) :
    apply w (run w (n + 1)) .ne (.ref x) v σ = ret (fun b => .bool !b) σ b := by
  simp only [apply, S.obj, special] at h ⊢
  rw [method_plain H.__ne__ rfl]
  cases b <;> (rw [ret] at h; py_heap [S.obj, special, h, ret])

theorem or_operator (S : IsSet σ x r l) (v : Val) :
    apply w (run w (n + 1)) .or (.ref x) v σ = method w (run w n) (n% "UnicodeSet") (n% "union") [.ref x, v] σ := by
  simp only [apply, S.obj, special]
  rw [method_doc H.__or__ rfl]
  generalize hres : method w (run w n) (n% "UnicodeSet") (n% "union") [.ref x, v] σ = res
  cases res <;> py_heap [S.obj, hres]

theorem and_operator (S : IsSet σ x r l) (v : Val) :
    apply w (run w (n + 1)) .and (.ref x) v σ = method w (run w n) (n% "UnicodeSet") (n% "intersection") [.ref x, v] σ := by
  simp only [apply, S.obj, special]
  rw [method_doc H.__and__ rfl]
  generalize hres : method w (run w n) (n% "UnicodeSet") (n% "intersection") [.ref x, v] σ = res
  cases res <;> py_heap [S.obj, hres]

theorem sub_operator (S : IsSet σ x r l) (v : Val) :
    apply w (run w (n + 1)) .sub (.ref x) v σ = method w (run w n) (n% "UnicodeSet") (n% "difference") [.ref x, v] σ := by
  simp only [apply, S.obj, special]
  rw [method_doc H.__sub__ rfl]
  generalize hres : method w (run w n) (n% "UnicodeSet") (n% "difference") [.ref x, v] σ = res
  cases res <;> py_heap [S.obj, hres]

theorem xor_operator (S : IsSet σ x r l) (v : Val) :
    apply w (run w (n + 1)) .xor (.ref x) v σ = method w (run w n) (n% "UnicodeSet") (n% "symmetric_difference") [.ref x, v] σ := by
  simp only [apply, S.obj, special]
  rw [method_doc H.__xor__ rfl]
  generalize hres : method w (run w n) (n% "UnicodeSet") (n% "symmetric_difference") [.ref x, v] σ = res
  cases res <;> py_heap [S.obj, hres]

theorem or_inPlace (S : IsSet σ x r l) (v : Val) :
    augment w (run w (n + 1)) .or (.ref x) v σ = method w (run w n) (n% "UnicodeSet") (n% "addAll") [.ref x, v] σ := by
  rw [augment]
  simp only [S.obj, inPlace]
  rw [method_plain H.__ior__ rfl]
  generalize hres : method w (run w n) (n% "UnicodeSet") (n% "addAll") [.ref x, v] σ = res
  cases res <;> py_heap [S.obj, hres]

theorem and_inPlace (S : IsSet σ x r l) (v : Val) :
    augment w (run w (n + 1)) .and (.ref x) v σ = method w (run w n) (n% "UnicodeSet") (n% "retainAll") [.ref x, v] σ := by
  rw [augment]
  simp only [S.obj, inPlace]
  rw [method_plain H.__iand__ rfl]
  generalize hres : method w (run w n) (n% "UnicodeSet") (n% "retainAll") [.ref x, v] σ = res
  cases res <;> py_heap [S.obj, hres]

theorem sub_inPlace (S : IsSet σ x r l) (v : Val) :
    augment w (run w (n + 1)) .sub (.ref x) v σ = method w (run w n) (n% "UnicodeSet") (n% "removeAll") [.ref x, v] σ := by
  rw [augment]
  simp only [S.obj, inPlace]
  rw [method_plain H.__isub__ rfl]
  generalize hres : method w (run w n) (n% "UnicodeSet") (n% "removeAll") [.ref x, v] σ = res
  cases res <;> py_heap [S.obj, hres]

theorem xor_inPlace (S : IsSet σ x r l) (v : Val) :
    augment w (run w (n + 1)) .xor (.ref x) v σ = method w (run w n) (n% "UnicodeSet") (n% "complementAll") [.ref x, v] σ := by
  rw [augment]
  simp only [S.obj, inPlace]
  rw [method_plain H.__ixor__ rfl]
  generalize hres : method w (run w n) (n% "UnicodeSet") (n% "complementAll") [.ref x, v] σ = res
  cases res <;> py_heap [S.obj, hres]

omit H in
theorem fdiv_two (k : Nat) : ((k : Int)).fdiv 2 = ((k / 2 : Nat) : Int) := by
  rw [Int.fdiv_eq_ediv_of_nonneg _ (by omega)]; omega

theorem getRangeCount_run (S : IsSet σ x r l) (hn : 1 ≤ n) :
    method w (run w n) (n% "UnicodeSet") (n% "getRangeCount") [.ref x] σ = .ok (.int (USet.getRangeCount l), σ) := by
  obtain ⟨n, rfl⟩ : ∃ m, n = m + 1 := ⟨n - 1, by omega⟩
  rw [method_doc H.getRangeCount rfl]
  py_heap [S.obj, S.cell, H.len, fdiv_two, USet.getRangeCount]

theorem getRangeStart_run (S : IsSet σ x r l) (i : Int) (hn : 1 ≤ n) :
    method w (run w n) (n% "UnicodeSet") (n% "getRangeStart") [.ref x, .int i] σ = ret .int σ (USet.getRangeStart l i) := by
  obtain ⟨n, rfl⟩ : ∃ m, n = m + 1 := ⟨n - 1, by omega⟩
  rw [method_doc H.getRangeStart rfl, USet.getRangeStart]
  cases eg : pyGet l (i * 2) with
  | error e => have hg := get_error eg; py_heap [S.obj, S.cell, hg, ret]
  | ok a => have hg := get_ok eg; py_heap [S.obj, S.cell, hg, ret]

theorem getRangeEnd_run (S : IsSet σ x r l) (i : Int) (hn : 1 ≤ n) :
    method w (run w n) (n% "UnicodeSet") (n% "getRangeEnd") [.ref x, .int i] σ = ret .int σ (USet.getRangeEnd l i) := by
  obtain ⟨n, rfl⟩ : ∃ m, n = m + 1 := ⟨n - 1, by omega⟩
  rw [method_doc H.getRangeEnd rfl, USet.getRangeEnd]
  cases eg : pyGet l (i * 2 + 1) with
  | error e => have hg := get_error eg; simp only [Bind.bind, Except.bind]; py_heap [S.obj, S.cell, hg, ret]
  | ok a => have hg := get_ok eg; simp only [Bind.bind, Except.bind, Pure.pure, Except.pure]; py_heap [S.obj, S.cell, hg, ret]

end

end Verif.PyHeap

import Verif.Lemmas.RunUSetChange
/-! # What the text of UnicodeSet.py does: ranges and other sets as arguments -/
namespace Verif.PyHeap
open Verif.PySyntax Verif.Data
open Verif.PyRun (R Err lift bound)
set_option Elab.async false

section
variable {w : Scope} (H : Imported w) {n : Nat} {σ : Heap} {x r o : Nat} {l m : List Int}
include H

theorem retain_run' (S : IsSet σ x r l) (ho : σ.cell o = some (.list (vals m))) (lo : o < σ.next) (pa pb : Bool) (hn : l.length + m.length + 2 ≤ n) :
    method w (run w n) (n% "UnicodeSet") (n% "_retainList") [.ref x, .ref o, .int (pol pa pb)] σ = rebind σ x (USet.retainList l m pa pb) := by
  obtain ⟨n, rfl⟩ : ∃ m, n = m + 1 := ⟨n - 1, by omega⟩
  exact retain_run H n S ho lo pa pb (by omega)

theorem add_run' (S : IsSet σ x r l) (ho : σ.cell o = some (.list (vals m))) (lo : o < σ.next) (hn : l.length + m.length + 2 ≤ n) :
    method w (run w n) (n% "UnicodeSet") (n% "_addList") [.ref x, .ref o] σ = rebind σ x (USet.addList l m) := by
  obtain ⟨n, rfl⟩ : ∃ m, n = m + 1 := ⟨n - 1, by omega⟩
  exact add_run H n S ho lo (by omega)

theorem xor_run' (S : IsSet σ x r l) (ho : σ.cell o = some (.list (vals m))) (lo : o < σ.next) (hn : l.length + m.length + 2 ≤ n) :
    method w (run w n) (n% "UnicodeSet") (n% "_exclusiveOrList") [.ref x, .ref o] σ = rebind σ x (USet.exclusiveOrList l m) := by
  obtain ⟨n, rfl⟩ : ∃ m, n = m + 1 := ⟨n - 1, by omega⟩
  exact xor_run H n S ho lo (by omega)

omit H in
/-- The list for a range, as the methods make it. -/
theorem range_cell (a b : Int) : (σ.push (.list [.int a, .int (b + 1), .int 0x110000])).cell σ.next = some (.list (vals [a, b + 1, USet.HIGH])) := by
  rw [cell_push, if_pos rfl]; rfl

omit H in
theorem guard_ok {g : Prop} [Decidable g] {res : R (Val × Heap)} {y : Py (List Int)} (S : IsSet σ x r l)
    (ht : g → ∃ c, res = rebind (σ.push c) x y) (hf : ¬ g → res = .ok (.ref x, σ)) :
    Outcome res (if g then y else .ok l) (fun l' v σ' => v = .ref x ∧ if g then Rebound σ σ' x l' else σ' = σ) := by
  by_cases h : g
  · obtain ⟨c, hc⟩ := ht h
    simp only [if_pos h, hc]
    cases y with
    | ok l => exact ⟨_, _, rfl, rfl, (rebound_rebound l (S.push c).obj_lt).of_push⟩
    | error e => exact rfl
  · simp only [if_neg h, hf h]
    exact ⟨_, _, rfl, rfl, rfl⟩

omit H in
theorem Outcome.same {α : Type} {res res' : R (Val × Heap)} {y : Py α} {Q : α → Val → Heap → Prop} (h : Outcome res y Q) (e : res' = res) :
    Outcome res' y Q := e ▸ h

omit H in
theorem Outcome.imp {α : Type} {res : R (Val × Heap)} {y : Py α} {Q Q' : α → Val → Heap → Prop} (h : Outcome res y Q) (i : ∀ a v σ, Q a v σ → Q' a v σ) :
    Outcome res y Q' := by
  cases y with
  | ok a =>
    obtain ⟨v, σ', h, hq⟩ := h
    exact ⟨v, σ', h, i _ _ _ hq⟩
  | error e => exact h


theorem removeRange_method (S : IsSet σ x r l) (s e : Int) (hn : l.length + 6 ≤ n) :
    Outcome (method w (run w n) (n% "UnicodeSet") (n% "removeRange") [.ref x, .int s, .int e] σ) (USet.removeRange l s e)
      (fun l' v σ' => v = .ref x ∧ if USet.pinCodePoint s < USet.pinCodePoint e then Rebound σ σ' x l' else σ' = σ) := by
  obtain ⟨n, rfl⟩ : ∃ m, n = m + 1 := ⟨n - 1, by omega⟩
  rw [method_doc H.removeRange rfl]
  have hp1 := pin_run' H (n := n) (by omega) s σ
  have hp2 := pin_run' H (n := n) (by omega) e σ
  have hx := eq_false (Nat.ne_of_lt S.obj_lt)
  have hc := retain_run' H (S.push (.list [.int s, .int (e + 1), .int 0x110000])) (range_cell s e) (Nat.lt_succ_self _) false true (n := n)
    (by simp only [List.length_cons, List.length_nil]; omega)
  refine guard_ok S (fun h => ?_) (fun h => ?_)
  · have h := decide_eq_true h
    refine ⟨.list [.int s, .int (e + 1), .int 0x110000], ?_⟩
    simp only [pol] at hc
    generalize USet.retainList l [s, e + 1, USet.HIGH] false true = y at hc ⊢
    cases y <;> py_heap [S.obj, S.cell, hp1, hp2, h, H.high, hx, hc, rebind]
  · have h := decide_eq_false h
    py_heap [hp1, hp2, h]

theorem retainRange_method (S : IsSet σ x r l) (s e : Int) (hn : l.length + 6 ≤ n) :
    Outcome (method w (run w n) (n% "UnicodeSet") (n% "retainRange") [.ref x, .int s, .int e] σ) (USet.retainRange l s e)
      (fun l' v σ' => v = .ref x ∧ if USet.pinCodePoint s < USet.pinCodePoint e then Rebound σ σ' x l' else σ' = σ) := by
  obtain ⟨n, rfl⟩ : ∃ m, n = m + 1 := ⟨n - 1, by omega⟩
  rw [method_doc H.retainRange rfl]
  have hp1 := pin_run' H (n := n) (by omega) s σ
  have hp2 := pin_run' H (n := n) (by omega) e σ
  have hx := eq_false (Nat.ne_of_lt S.obj_lt)
  have hc := retain_run' H (S.push (.list [.int s, .int (e + 1), .int 0x110000])) (range_cell s e) (Nat.lt_succ_self _) false false (n := n)
    (by simp only [List.length_cons, List.length_nil]; omega)
  refine guard_ok S (fun h => ?_) (fun h => ?_)
  · have h := decide_eq_true h
    refine ⟨.list [.int s, .int (e + 1), .int 0x110000], ?_⟩
    simp only [pol] at hc
    generalize USet.retainList l [s, e + 1, USet.HIGH] false false = y at hc ⊢
    cases y <;> py_heap [S.obj, S.cell, hp1, hp2, h, H.high, hx, hc, rebind]
  · have h := decide_eq_false h
    py_heap [hp1, hp2, h]

theorem complementRange_method (S : IsSet σ x r l) (s e : Int) (hn : l.length + 6 ≤ n) :
    Outcome (method w (run w n) (n% "UnicodeSet") (n% "complementRange") [.ref x, .int s, .int e] σ) (USet.complementRange l s e)
      (fun l' v σ' => v = .ref x ∧ if USet.pinCodePoint s < USet.pinCodePoint e then Rebound σ σ' x l' else σ' = σ) := by
  obtain ⟨n, rfl⟩ : ∃ m, n = m + 1 := ⟨n - 1, by omega⟩
  rw [method_doc H.complementRange rfl]
  have hp1 := pin_run' H (n := n) (by omega) s σ
  have hp2 := pin_run' H (n := n) (by omega) e σ
  have hx := eq_false (Nat.ne_of_lt S.obj_lt)
  have hc := xor_run' H (S.push (.list [.int s, .int (e + 1), .int 0x110000])) (range_cell s e) (Nat.lt_succ_self _) (n := n)
    (by simp only [List.length_cons, List.length_nil]; omega)
  refine guard_ok S (fun h => ?_) (fun h => ?_)
  · have h := decide_eq_true h
    refine ⟨.list [.int s, .int (e + 1), .int 0x110000], ?_⟩
    generalize USet.exclusiveOrList l [s, e + 1, USet.HIGH] = y at hc ⊢
    cases y <;> py_heap [S.obj, S.cell, hp1, hp2, h, H.high, hx, hc, rebind]
  · have h := decide_eq_false h
    py_heap [hp1, hp2, h]

theorem addAll_method {y q : Nat} (S : IsSet σ x r l) (T : IsSet σ y q m) (hn : l.length + m.length + 3 ≤ n) :
    method w (run w n) (n% "UnicodeSet") (n% "addAll") [.ref x, .ref y] σ = rebind σ x (USet.addAll l m) := by
  obtain ⟨n, rfl⟩ : ∃ m, n = m + 1 := ⟨n - 1, by omega⟩
  rw [method_doc H.addAll rfl]
  have hc := add_run' H S T.cell T.cell_lt (n := n) (by omega)
  rw [show USet.addAll l m = USet.addList l m from rfl]
  generalize USet.addList l m = y at hc ⊢
  cases y <;> py_heap [S.obj, T.obj, hc, rebind]

theorem removeAll_method {y q : Nat} (S : IsSet σ x r l) (T : IsSet σ y q m) (hn : l.length + m.length + 3 ≤ n) :
    method w (run w n) (n% "UnicodeSet") (n% "removeAll") [.ref x, .ref y] σ = rebind σ x (USet.removeAll l m) := by
  obtain ⟨n, rfl⟩ : ∃ m, n = m + 1 := ⟨n - 1, by omega⟩
  rw [method_doc H.removeAll rfl]
  have hc := retain_run' H S T.cell T.cell_lt false true (n := n) (by omega)
  simp only [pol] at hc
  rw [show USet.removeAll l m = USet.retainList l m false true from rfl]
  generalize USet.retainList l m false true = y at hc ⊢
  cases y <;> py_heap [S.obj, T.obj, hc, rebind]

theorem retainAll_method {y q : Nat} (S : IsSet σ x r l) (T : IsSet σ y q m) (hn : l.length + m.length + 3 ≤ n) :
    method w (run w n) (n% "UnicodeSet") (n% "retainAll") [.ref x, .ref y] σ = rebind σ x (USet.retainAll l m) := by
  obtain ⟨n, rfl⟩ : ∃ m, n = m + 1 := ⟨n - 1, by omega⟩
  rw [method_doc H.retainAll rfl]
  have hc := retain_run' H S T.cell T.cell_lt false false (n := n) (by omega)
  simp only [pol] at hc
  rw [show USet.retainAll l m = USet.retainList l m false false from rfl]
  generalize USet.retainList l m false false = y at hc ⊢
  cases y <;> py_heap [S.obj, T.obj, hc, rebind]

theorem complementAll_method {y q : Nat} (S : IsSet σ x r l) (T : IsSet σ y q m) (hn : l.length + m.length + 3 ≤ n) :
    method w (run w n) (n% "UnicodeSet") (n% "complementAll") [.ref x, .ref y] σ = rebind σ x (USet.complementAll l m) := by
  obtain ⟨n, rfl⟩ : ∃ m, n = m + 1 := ⟨n - 1, by omega⟩
  rw [method_doc H.complementAll rfl]
  have hc := xor_run' H S T.cell T.cell_lt (n := n) (by omega)
  rw [show USet.complementAll l m = USet.exclusiveOrList l m from rfl]
  generalize USet.exclusiveOrList l m = y at hc ⊢
  cases y <;> py_heap [S.obj, T.obj, hc, rebind]

theorem remove_method (S : IsSet σ x r l) (cp : Int) (hn : l.length + 7 ≤ n) :
    Outcome (method w (run w n) (n% "UnicodeSet") (n% "remove") [.ref x, .int cp] σ) (USet.remove l cp)
      (fun l' v σ' => v = .ref x ∧ if USet.pinCodePoint cp < USet.pinCodePoint cp then Rebound σ σ' x l' else σ' = σ) := by
  obtain ⟨n, rfl⟩ : ∃ m, n = m + 1 := ⟨n - 1, by omega⟩
  rw [method_doc H.remove rfl]
  refine Outcome.same (removeRange_method H S cp cp (n := n) (by omega)) ?_
  generalize hres : method w (run w n) (n% "UnicodeSet") (n% "removeRange") [.ref x, .int cp, .int cp] σ = res
  cases res <;> py_heap [S.obj, hres]

theorem retain_method (S : IsSet σ x r l) (cp : Int) (hn : l.length + 7 ≤ n) :
    Outcome (method w (run w n) (n% "UnicodeSet") (n% "retain") [.ref x, .int cp] σ) (USet.retain l cp)
      (fun l' v σ' => v = .ref x ∧ if USet.pinCodePoint cp < USet.pinCodePoint cp then Rebound σ σ' x l' else σ' = σ) := by
  obtain ⟨n, rfl⟩ : ∃ m, n = m + 1 := ⟨n - 1, by omega⟩
  rw [method_doc H.retain rfl]
  refine Outcome.same (retainRange_method H S cp cp (n := n) (by omega)) ?_
  generalize hres : method w (run w n) (n% "UnicodeSet") (n% "retainRange") [.ref x, .int cp, .int cp] σ = res
  cases res <;> py_heap [S.obj, hres]

theorem clear_method (S : IsSet σ x r l) (hn : 1 ≤ n) :
    method w (run w n) (n% "UnicodeSet") (n% "clear") [.ref x] σ = rebind σ x (.ok (USet.clear l)) := by
  obtain ⟨n, rfl⟩ : ∃ m, n = m + 1 := ⟨n - 1, by omega⟩
  rw [method_doc H.clear rfl]
  have hx := eq_false (Nat.ne_of_lt S.obj_lt)
  py_heap [S.obj, H.high, hx, rebind, rebound, USet.clear, vals, List.map_cons, List.map_nil, USet.HIGH]

end

end Verif.PyHeap

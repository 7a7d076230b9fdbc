import Verif.Lemmas.RunUSet
/-! # What the text of UnicodeSet.py does: `_exclusiveOrList` -/
namespace Verif.PyHeap
open Verif.PySyntax Verif.Data
open Verif.PyRun (R Err lift bound)
set_option Elab.async false

/-- UnicodeSet.py:373-388, what is repeated. -/
def xorBody : Stmt :=
    (.seq (.ifs (.bin .lt (.name (n% "a")) (.name (n% "b"))) (.seq (.expr (.call (.attr (.name (n% "buffer")) (n% "append")) (.cons (.name (n% "a"))
    .nil))) (.seq (.assign (.name (n% "a")) (.index (.attr (.name (n% "self")) (n% "list")) (.name (n% "i")))) (.seq (.aug .add (.name (n% "i")) (.num 1))
    .skip))) (.seq (.ifs (.bin .lt (.name (n% "b")) (.name (n% "a"))) (.seq (.expr (.call (.attr (.name (n% "buffer")) (n% "append")) (.cons (.name (n%
    "b")) .nil))) (.seq (.assign (.name (n% "b")) (.index (.name (n% "other")) (.name (n% "j")))) (.seq (.aug .add (.name (n% "j")) (.num 1)) .skip)))
    (.seq (.ifs (.bin .ne (.name (n% "a")) (.name (n% "UNICODE_SET_HIGH"))) (.seq (.assign (.name (n% "a")) (.index (.attr (.name (n% "self")) (n%
    "list")) (.name (n% "i")))) (.seq (.aug .add (.name (n% "i")) (.num 1)) (.seq (.assign (.name (n% "b")) (.index (.name (n% "other")) (.name (n%
    "j")))) (.seq (.aug .add (.name (n% "j")) (.num 1)) .skip)))) (.seq (.expr (.call (.attr (.name (n% "buffer")) (n% "append")) (.cons (.name (n%
    "UNICODE_SET_HIGH")) .nil))) (.seq .brk .skip))) .skip)) .skip)) .skip)

theorem xor_loop {w : Scope} (H : Imported w) (call : Call) (N : Nat) {σ : Heap} {x r o : Nat} {l m : List Int} (S : IsSet σ x r l)
    (ho : σ.cell o = some (.list (vals m))) (lo : o < σ.next) (p : Int) : ∀ (fuel n : Nat) (a b : Int) (i j : Nat) (buf : List Int), fuel ≤ n →
    Merged (whileLoop w call N (.name (n% "True")) xorBody n ⟨mergeEnv x o σ.next p i j a b, [], σ.push (.list (bufOf buf))⟩) x o σ
      (USet.xorLoop fuel a b (l.drop i) (m.drop j) buf) := by
  intro fuel
  have hx := eq_false (Nat.ne_of_lt S.obj_lt)
  have hr := eq_false (Nat.ne_of_lt S.cell_lt)
  have ho' := eq_false (Nat.ne_of_lt lo)
  have hobj := S.obj
  have hcell := S.cell
  have hhigh := H.high
  have hmax := H.max
  have hl := H.len
  induction fuel with
  | zero => intros; trivial
  | succ fuel ih =>
    intro n a b i j buf hn
    obtain ⟨n, rfl⟩ : ∃ k, n = k + 1 := ⟨n - 1, by omega⟩
    have ht : test w call (.name (n% "True")) ⟨mergeEnv x o σ.next p i j a b, [], σ.push (.list (bufOf buf))⟩
        = .ok (true, ⟨mergeEnv x o σ.next p i j a b, [], σ.push (.list (bufOf buf))⟩) := test_true H.true' rfl
    cases dab : decide (a < b) with
    | true =>
      have hab := of_decide_eq_true dab
      cases e1 : pyGet l (i : Int) with
      | error e =>
        have g1 := get_error e1
        rw [show USet.xorLoop (fuel + 1) a b (l.drop i) (m.drop j) buf = .error e from by simp only [USet.xorLoop, if_pos hab, pop_drop, e1, Except.map, Bind.bind, Except.bind]]
        exact merged_error ht (by py_heap [mergeEnv, pol, xorBody, hx, hr, ho', hobj, hcell, ho, hhigh, xor01, xor11, xor21, xor31, xor02, xor12, xor22, xor32, Int.natCast_add, USet.HIGH, dab, g1])
      | ok a' =>
        have g1 := get_ok e1
        rw [show USet.xorLoop (fuel + 1) a b (l.drop i) (m.drop j) buf = USet.xorLoop fuel a' b (l.drop (i + 1)) (m.drop j) (a :: buf) from by simp only [USet.xorLoop, if_pos hab, pop_drop, e1, Except.map, Bind.bind, Except.bind]]
        exact merged_step ht (s' := ⟨mergeEnv x o σ.next p (i + 1) j a' b, [], σ.push (.list (bufOf (a :: buf)))⟩)
          (by py_heap [mergeEnv, pol, xorBody, hx, hr, ho', hobj, hcell, ho, hhigh, xor01, xor11, xor21, xor31, xor02, xor12, xor22, xor32, Int.natCast_add, USet.HIGH, dab, g1]) (ih _ _ _ _ _ _ (by omega))
    | false =>
      have hab := of_decide_eq_false dab
      cases dba : decide (b < a) with
      | true =>
        have hba := of_decide_eq_true dba
        cases e2 : pyGet m (j : Int) with
        | error e =>
          have g2 := get_error e2
          rw [show USet.xorLoop (fuel + 1) a b (l.drop i) (m.drop j) buf = .error e from by simp only [USet.xorLoop, if_neg hab, if_pos hba, pop_drop, e2, Except.map, Bind.bind, Except.bind]]
          exact merged_error ht (by py_heap [mergeEnv, pol, xorBody, hx, hr, ho', hobj, hcell, ho, hhigh, xor01, xor11, xor21, xor31, xor02, xor12, xor22, xor32, Int.natCast_add, USet.HIGH, dab, dba, g2])
        | ok b' =>
          have g2 := get_ok e2
          rw [show USet.xorLoop (fuel + 1) a b (l.drop i) (m.drop j) buf = USet.xorLoop fuel a b' (l.drop i) (m.drop (j + 1)) (b :: buf) from by simp only [USet.xorLoop, if_neg hab, if_pos hba, pop_drop, e2, Except.map, Bind.bind, Except.bind]]
          exact merged_step ht (s' := ⟨mergeEnv x o σ.next p i (j + 1) a b', [], σ.push (.list (bufOf (b :: buf)))⟩)
            (by py_heap [mergeEnv, pol, xorBody, hx, hr, ho', hobj, hcell, ho, hhigh, xor01, xor11, xor21, xor31, xor02, xor12, xor22, xor32, Int.natCast_add, USet.HIGH, dab, dba, g2]) (ih _ _ _ _ _ _ (by omega))
      | false =>
        have hba := of_decide_eq_false dba
        cases dh : decide (a = 0x110000) with
        | true =>
          have hh : a = USet.HIGH := of_decide_eq_true dh
          rw [show USet.xorLoop (fuel + 1) a b (l.drop i) (m.drop j) buf = .ok (USet.HIGH :: buf) from by simp only [USet.xorLoop, if_neg hab, if_neg hba, if_neg (not_not_intro hh)]]
          exact merged_brk ht (p := p) (i := i) (j := j) (a := a) (b1 := b) (by py_heap [mergeEnv, pol, xorBody, hx, hr, ho', hobj, hcell, ho, hhigh, xor01, xor11, xor21, xor31, xor02, xor12, xor22, xor32, Int.natCast_add, USet.HIGH, dab, dba, dh])
        | false =>
          have hh : ¬ a = USet.HIGH := of_decide_eq_false dh
          cases e1 : pyGet l (i : Int) with
          | error e =>
            have g1 := get_error e1
            rw [show USet.xorLoop (fuel + 1) a b (l.drop i) (m.drop j) buf = .error e from by simp only [USet.xorLoop, if_neg hab, if_neg hba, if_pos hh, pop_drop, e1, Except.map, Bind.bind, Except.bind]]
            exact merged_error ht (by py_heap [mergeEnv, pol, xorBody, hx, hr, ho', hobj, hcell, ho, hhigh, xor01, xor11, xor21, xor31, xor02, xor12, xor22, xor32, Int.natCast_add, USet.HIGH, dab, dba, dh, g1])
          | ok a' =>
            have g1 := get_ok e1
            cases e2 : pyGet m (j : Int) with
            | error e =>
              have g2 := get_error e2
              rw [show USet.xorLoop (fuel + 1) a b (l.drop i) (m.drop j) buf = .error e from by simp only [USet.xorLoop, if_neg hab, if_neg hba, if_pos hh, pop_drop, e1, e2, Except.map, Bind.bind, Except.bind]]
              exact merged_error ht (by py_heap [mergeEnv, pol, xorBody, hx, hr, ho', hobj, hcell, ho, hhigh, xor01, xor11, xor21, xor31, xor02, xor12, xor22, xor32, Int.natCast_add, USet.HIGH, dab, dba, dh, g1, g2])
            | ok b' =>
              have g2 := get_ok e2
              rw [show USet.xorLoop (fuel + 1) a b (l.drop i) (m.drop j) buf = USet.xorLoop fuel a' b' (l.drop (i + 1)) (m.drop (j + 1)) buf from by simp only [USet.xorLoop, if_neg hab, if_neg hba, if_pos hh, pop_drop, e1, e2, Except.map, Bind.bind, Except.bind]]
              exact merged_step ht (s' := ⟨mergeEnv x o σ.next p (i + 1) (j + 1) a' b', [], σ.push (.list (bufOf buf))⟩)
                (by py_heap [mergeEnv, pol, xorBody, hx, hr, ho', hobj, hcell, ho, hhigh, xor01, xor11, xor21, xor31, xor02, xor12, xor22, xor32, Int.natCast_add, USet.HIGH, dab, dba, dh, g1, g2]) (ih _ _ _ _ _ _ (by omega))

theorem xorLoop_total : ∀ (fuel : Nat) (a b : Int) (xs ys buf : List Int), xs.length + ys.length < fuel →
    USet.xorLoop fuel a b xs ys buf ≠ .error .diverges := by
  intro fuel
  induction fuel with
  | zero => intros; omega
  | succ fuel ih =>
    intro a b xs ys buf h
    cases xs <;> cases ys <;>
      (simp only [USet.xorLoop, USet.pop, Bind.bind, Except.bind]
       repeat' split
       all_goals first | (apply ih; simp only [List.length_cons, List.length_nil] at h ⊢; omega) | simp)

theorem xor_run {w : Scope} (H : Imported w) (n : Nat) {σ : Heap} {x r o : Nat} {l m : List Int} (S : IsSet σ x r l)
    (ho : σ.cell o = some (.list (vals m))) (lo : o < σ.next) (hn : l.length + m.length + 1 ≤ n) :
    method w (run w (n + 1)) (n% "UnicodeSet") (n% "_exclusiveOrList") [.ref x, .ref o] σ = rebind σ x (USet.exclusiveOrList l m) := by
  rw [method_doc H._exclusiveOrList rfl]
  have hx := eq_false (Nat.ne_of_lt S.obj_lt)
  have hr := eq_false (Nat.ne_of_lt S.cell_lt)
  have ho' := eq_false (Nat.ne_of_lt lo)
  rw [USet.exclusiveOrList, pop_all, pop_all]
  cases e1 : pyGet l 0 with
  | error e =>
    have g1 := get_error e1
    simp only [Except.map, Bind.bind, Except.bind]
    py_heap [S.obj, S.cell, hx, hr, g1, rebind]
  | ok a =>
    have g1 := get_ok e1
    cases e2 : pyGet m 0 with
    | error e =>
      have g2 := get_error e2
      simp only [Except.map, Bind.bind, Except.bind]
      py_heap [S.obj, S.cell, ho, hx, hr, ho', g1, g2, rebind]
    | ok b =>
      have g2 := get_ok e2
      have hloop := xor_loop H (run w n) n S ho lo 0 ((l.drop 1).length + (m.drop 1).length + 1) n a b 1 1 []
        (by simp only [List.length_drop]; omega)
      have htot := xorLoop_total ((l.drop 1).length + (m.drop 1).length + 1) a b (l.drop 1) (m.drop 1) [] (by omega)
      simp only [Except.map, Bind.bind, Except.bind]
      cases em : USet.xorLoop ((l.drop 1).length + (m.drop 1).length + 1) a b (l.drop 1) (m.drop 1) [] with
      | ok buf =>
        rw [em] at hloop
        obtain ⟨p, i, j, a', b', hloop⟩ := hloop
        simp only [mergeEnv, xorBody, bufOf_nil, Int.cast_ofNat_Int] at hloop
        py_heap [S.obj, S.cell, ho, H.high, hx, hr, ho', g1, g2, hloop, rebind, rebound, Pure.pure, Except.pure, bufOf]
      | error e =>
        rw [em] at hloop htot
        have hloop : whileLoop w (run w n) n (.name (n% "True")) xorBody n
            ⟨mergeEnv x o σ.next 0 1 1 a b, [], σ.push (.list (bufOf []))⟩ = .error (.raised e) := by
          cases e <;> first | exact hloop | exact absurd rfl htot
        simp only [mergeEnv, xorBody, bufOf_nil, Int.cast_ofNat_Int] at hloop
        py_heap [S.obj, S.cell, ho, hx, hr, ho', g1, g2, hloop, rebind]

end Verif.PyHeap

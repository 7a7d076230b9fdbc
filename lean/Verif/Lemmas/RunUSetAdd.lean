import Verif.Lemmas.RunUSet
/-! # What the text of UnicodeSet.py does: `_addList` -/
namespace Verif.PyHeap
open Verif.PySyntax Verif.Data
open Verif.PyRun (R Err lift bound)
set_option Elab.async false

/-- UnicodeSet.py:243-333, what is repeated. -/
def addBody : Stmt :=
    (.seq (.ifs (.bin .eq (.name (n% "polarity")) (.num 0)) (.seq (.ifs (.bin .lt (.name (n% "a")) (.name (n% "b"))) (.seq (.ifs (.and (.bin .gt (.call
    (.name (n% "len")) (.cons (.name (n% "buffer")) .nil)) (.num 0)) (.bin .le (.name (n% "a")) (.index (.name (n% "buffer")) (.neg (.num 1))))) (.seq
    (.assign (.name (n% "a")) (.call (.name (n% "max")) (.cons (.index (.attr (.name (n% "self")) (n% "list")) (.name (n% "i"))) (.cons (.call (.attr
    (.name (n% "buffer")) (n% "pop")) .nil) .nil)))) .skip) (.seq (.expr (.call (.attr (.name (n% "buffer")) (n% "append")) (.cons (.name (n% "a"))
    .nil))) (.seq (.assign (.name (n% "a")) (.index (.attr (.name (n% "self")) (n% "list")) (.name (n% "i")))) .skip))) (.seq (.aug .add (.name (n% "i"))
    (.num 1)) (.seq (.aug .xor (.name (n% "polarity")) (.num 1)) .skip))) (.seq (.ifs (.bin .lt (.name (n% "b")) (.name (n% "a"))) (.seq (.ifs (.and (.bin
    .gt (.call (.name (n% "len")) (.cons (.name (n% "buffer")) .nil)) (.num 0)) (.bin .lt (.name (n% "b")) (.index (.name (n% "buffer")) (.neg (.num
    1))))) (.seq (.assign (.name (n% "b")) (.call (.name (n% "max")) (.cons (.index (.name (n% "other")) (.name (n% "j"))) (.cons (.call (.attr (.name (n%
    "buffer")) (n% "pop")) .nil) .nil)))) .skip) (.seq (.expr (.call (.attr (.name (n% "buffer")) (n% "append")) (.cons (.name (n% "b")) .nil))) (.seq
    (.assign (.name (n% "b")) (.index (.name (n% "other")) (.name (n% "j")))) .skip))) (.seq (.aug .add (.name (n% "j")) (.num 1)) (.seq (.aug .xor (.name
    (n% "polarity")) (.num 2)) .skip))) (.seq (.ifs (.bin .eq (.name (n% "a")) (.name (n% "UNICODE_SET_HIGH"))) (.seq .brk .skip) .skip) (.seq (.ifs (.and
    (.bin .gt (.call (.name (n% "len")) (.cons (.name (n% "buffer")) .nil)) (.num 0)) (.bin .lt (.name (n% "a")) (.index (.name (n% "buffer")) (.neg (.num
    1))))) (.seq (.assign (.name (n% "a")) (.call (.name (n% "max")) (.cons (.index (.attr (.name (n% "self")) (n% "list")) (.name (n% "i"))) (.cons
    (.call (.attr (.name (n% "buffer")) (n% "pop")) .nil) .nil)))) .skip) (.seq (.expr (.call (.attr (.name (n% "buffer")) (n% "append")) (.cons (.name
    (n% "a")) .nil))) (.seq (.assign (.name (n% "a")) (.index (.attr (.name (n% "self")) (n% "list")) (.name (n% "i")))) .skip))) (.seq (.aug .add (.name
    (n% "i")) (.num 1)) (.seq (.aug .xor (.name (n% "polarity")) (.num 1)) (.seq (.assign (.name (n% "b")) (.index (.name (n% "other")) (.name (n% "j"))))
    (.seq (.aug .add (.name (n% "j")) (.num 1)) (.seq (.aug .xor (.name (n% "polarity")) (.num 2)) .skip)))))))) .skip)) .skip) (.seq (.ifs (.bin .eq
    (.name (n% "polarity")) (.num 3)) (.seq (.ifs (.bin .le (.name (n% "b")) (.name (n% "a"))) (.seq (.ifs (.bin .eq (.name (n% "a")) (.name (n%
    "UNICODE_SET_HIGH"))) (.seq .brk .skip) .skip) (.seq (.expr (.call (.attr (.name (n% "buffer")) (n% "append")) (.cons (.name (n% "a")) .nil))) .skip))
    (.seq (.ifs (.bin .eq (.name (n% "b")) (.name (n% "UNICODE_SET_HIGH"))) (.seq .brk .skip) .skip) (.seq (.expr (.call (.attr (.name (n% "buffer")) (n%
    "append")) (.cons (.name (n% "b")) .nil))) .skip))) (.seq (.assign (.name (n% "a")) (.index (.attr (.name (n% "self")) (n% "list")) (.name (n% "i"))))
    (.seq (.aug .add (.name (n% "i")) (.num 1)) (.seq (.aug .xor (.name (n% "polarity")) (.num 1)) (.seq (.assign (.name (n% "b")) (.index (.name (n%
    "other")) (.name (n% "j")))) (.seq (.aug .add (.name (n% "j")) (.num 1)) (.seq (.aug .xor (.name (n% "polarity")) (.num 2)) .skip))))))) (.seq (.ifs
    (.bin .eq (.name (n% "polarity")) (.num 1)) (.seq (.ifs (.bin .lt (.name (n% "a")) (.name (n% "b"))) (.seq (.expr (.call (.attr (.name (n% "buffer"))
    (n% "append")) (.cons (.name (n% "a")) .nil))) (.seq (.assign (.name (n% "a")) (.index (.attr (.name (n% "self")) (n% "list")) (.name (n% "i"))))
    (.seq (.aug .add (.name (n% "i")) (.num 1)) (.seq (.aug .xor (.name (n% "polarity")) (.num 1)) .skip)))) (.seq (.ifs (.bin .lt (.name (n% "b")) (.name
    (n% "a"))) (.seq (.assign (.name (n% "b")) (.index (.name (n% "other")) (.name (n% "j")))) (.seq (.aug .add (.name (n% "j")) (.num 1)) (.seq (.aug
    .xor (.name (n% "polarity")) (.num 2)) .skip))) (.seq (.ifs (.bin .eq (.name (n% "a")) (.name (n% "UNICODE_SET_HIGH"))) (.seq .brk .skip) .skip) (.seq
    (.assign (.name (n% "a")) (.index (.attr (.name (n% "self")) (n% "list")) (.name (n% "i")))) (.seq (.aug .add (.name (n% "i")) (.num 1)) (.seq (.aug
    .xor (.name (n% "polarity")) (.num 1)) (.seq (.assign (.name (n% "b")) (.index (.name (n% "other")) (.name (n% "j")))) (.seq (.aug .add (.name (n%
    "j")) (.num 1)) (.seq (.aug .xor (.name (n% "polarity")) (.num 2)) .skip)))))))) .skip)) .skip) (.seq (.ifs (.bin .eq (.name (n% "polarity")) (.num
    2)) (.seq (.ifs (.bin .lt (.name (n% "b")) (.name (n% "a"))) (.seq (.expr (.call (.attr (.name (n% "buffer")) (n% "append")) (.cons (.name (n% "b"))
    .nil))) (.seq (.assign (.name (n% "b")) (.index (.name (n% "other")) (.name (n% "j")))) (.seq (.aug .add (.name (n% "j")) (.num 1)) (.seq (.aug .xor
    (.name (n% "polarity")) (.num 2)) .skip)))) (.seq (.ifs (.bin .lt (.name (n% "a")) (.name (n% "b"))) (.seq (.assign (.name (n% "a")) (.index (.attr
    (.name (n% "self")) (n% "list")) (.name (n% "i")))) (.seq (.aug .add (.name (n% "i")) (.num 1)) (.seq (.aug .xor (.name (n% "polarity")) (.num 1))
    .skip))) (.seq (.ifs (.bin .eq (.name (n% "a")) (.name (n% "UNICODE_SET_HIGH"))) (.seq .brk .skip) .skip) (.seq (.assign (.name (n% "a")) (.index
    (.attr (.name (n% "self")) (n% "list")) (.name (n% "i")))) (.seq (.aug .add (.name (n% "i")) (.num 1)) (.seq (.aug .xor (.name (n% "polarity")) (.num
    1)) (.seq (.assign (.name (n% "b")) (.index (.name (n% "other")) (.name (n% "j")))) (.seq (.aug .add (.name (n% "j")) (.num 1)) (.seq (.aug .xor
    (.name (n% "polarity")) (.num 2)) .skip)))))))) .skip)) .skip) .skip) .skip)) .skip)) .skip)) .skip)

theorem max_builtin (a b : Int) : (if b > a then b else a) = max a b := by
  split <;> omega

theorem len_nil : decide ((0 : Int) < (([] : List Int).length : Nat)) = false := rfl

theorem len_cons (a : Int) (l : List Int) : decide ((0 : Int) < ((a :: l).length : Nat)) = true := by simp

theorem add_loop {w : Scope} (H : Imported w) (call : Call) (N : Nat) {σ : Heap} {x r o : Nat} {l m : List Int} (S : IsSet σ x r l)
    (ho : σ.cell o = some (.list (vals m))) (lo : o < σ.next) : ∀ (fuel n : Nat) (pa pb : Bool) (a b : Int) (i j : Nat) (buf : List Int), fuel ≤ n →
    Merged (whileLoop w call N (.name (n% "True")) addBody n ⟨mergeEnv x o σ.next (pol pa pb) i j a b, [], σ.push (.list (bufOf buf))⟩) x o σ
      (USet.addLoop fuel pa pb a b (l.drop i) (m.drop j) buf) := by
  intro fuel
  have hx := eq_false (Nat.ne_of_lt S.obj_lt)
  have hr := eq_false (Nat.ne_of_lt S.cell_lt)
  have ho' := eq_false (Nat.ne_of_lt lo)
  have hobj := S.obj
  have hcell := S.cell
  have hhigh := H.high
  have hmax := H.max
  have hlen := H.len
  induction fuel with
  | zero => intros; trivial
  | succ fuel ih =>
    intro n pa pb a b i j buf hn
    obtain ⟨n, rfl⟩ : ∃ k, n = k + 1 := ⟨n - 1, by omega⟩
    have ht : test w call (.name (n% "True")) ⟨mergeEnv x o σ.next (pol pa pb) i j a b, [], σ.push (.list (bufOf buf))⟩
        = .ok (true, ⟨mergeEnv x o σ.next (pol pa pb) i j a b, [], σ.push (.list (bufOf buf))⟩) := test_true H.true' rfl
    rcases pa with _ | _ <;> rcases pb with _ | _
    · cases dab : decide (a < b) with
      | true =>
        have hab := of_decide_eq_true dab
        cases buf with
        | nil =>
          cases e1 : pyGet l (i : Int) with
          | error e =>
            have g1 := get_error e1
            rw [show USet.addLoop (fuel + 1) false false a b (l.drop i) (m.drop j) [] = .error e from by simp only [USet.addLoop, if_pos hab, pop_drop, e1, Except.map, Bind.bind, Except.bind]]
            exact merged_error ht (by py_heap [mergeEnv, pol, addBody, hx, hr, ho', hobj, hcell, ho, hhigh, xor01, xor11, xor21, xor31, xor02, xor12, xor22, xor32, Int.natCast_add, hlen, hmax, max_builtin, len_nil, len_cons, dab, g1])
          | ok a' =>
            have g1 := get_ok e1
            rw [show USet.addLoop (fuel + 1) false false a b (l.drop i) (m.drop j) [] = USet.addLoop fuel true false a' b (l.drop (i + 1)) (m.drop j) [a] from by simp only [USet.addLoop, if_pos hab, pop_drop, e1, Except.map, Bind.bind, Except.bind]]
            exact merged_step ht (s' := ⟨mergeEnv x o σ.next 1 (i + 1) j a' b, [], σ.push (.list (bufOf [a]))⟩)
              (by py_heap [mergeEnv, pol, addBody, hx, hr, ho', hobj, hcell, ho, hhigh, xor01, xor11, xor21, xor31, xor02, xor12, xor22, xor32, Int.natCast_add, hlen, hmax, max_builtin, len_nil, len_cons, dab, g1]) (ih _ _ _ _ _ _ _ _ (by omega))
        | cons last buf =>
          cases dl : decide (a ≤ last) with
          | true =>
            have hl := of_decide_eq_true dl
            cases e1 : pyGet l (i : Int) with
            | error e =>
              have g1 := get_error e1
              rw [show USet.addLoop (fuel + 1) false false a b (l.drop i) (m.drop j) (last :: buf) = .error e from by simp only [USet.addLoop, if_pos hab, if_pos hl, pop_drop, e1, Except.map, Bind.bind, Except.bind]]
              exact merged_error ht (by py_heap [mergeEnv, pol, addBody, hx, hr, ho', hobj, hcell, ho, hhigh, xor01, xor11, xor21, xor31, xor02, xor12, xor22, xor32, Int.natCast_add, hlen, hmax, max_builtin, len_nil, len_cons, dab, dl, g1])
            | ok a' =>
              have g1 := get_ok e1
              rw [show USet.addLoop (fuel + 1) false false a b (l.drop i) (m.drop j) (last :: buf) = USet.addLoop fuel true false (max a' last) b (l.drop (i + 1)) (m.drop j) buf from by simp only [USet.addLoop, if_pos hab, if_pos hl, pop_drop, e1, Except.map, Bind.bind, Except.bind]]
              exact merged_step ht (s' := ⟨mergeEnv x o σ.next 1 (i + 1) j (max a' last) b, [], σ.push (.list (bufOf buf))⟩)
                (by py_heap [mergeEnv, pol, addBody, hx, hr, ho', hobj, hcell, ho, hhigh, xor01, xor11, xor21, xor31, xor02, xor12, xor22, xor32, Int.natCast_add, hlen, hmax, max_builtin, len_nil, len_cons, dab, dl, g1]) (ih _ _ _ _ _ _ _ _ (by omega))
          | false =>
            have hl := of_decide_eq_false dl
            cases e1 : pyGet l (i : Int) with
            | error e =>
              have g1 := get_error e1
              rw [show USet.addLoop (fuel + 1) false false a b (l.drop i) (m.drop j) (last :: buf) = .error e from by simp only [USet.addLoop, if_pos hab, if_neg hl, pop_drop, e1, Except.map, Bind.bind, Except.bind]]
              exact merged_error ht (by py_heap [mergeEnv, pol, addBody, hx, hr, ho', hobj, hcell, ho, hhigh, xor01, xor11, xor21, xor31, xor02, xor12, xor22, xor32, Int.natCast_add, hlen, hmax, max_builtin, len_nil, len_cons, dab, dl, g1])
            | ok a' =>
              have g1 := get_ok e1
              rw [show USet.addLoop (fuel + 1) false false a b (l.drop i) (m.drop j) (last :: buf) = USet.addLoop fuel true false a' b (l.drop (i + 1)) (m.drop j) (a :: last :: buf) from by simp only [USet.addLoop, if_pos hab, if_neg hl, pop_drop, e1, Except.map, Bind.bind, Except.bind]]
              exact merged_step ht (s' := ⟨mergeEnv x o σ.next 1 (i + 1) j a' b, [], σ.push (.list (bufOf (a :: last :: buf)))⟩)
                (by py_heap [mergeEnv, pol, addBody, hx, hr, ho', hobj, hcell, ho, hhigh, xor01, xor11, xor21, xor31, xor02, xor12, xor22, xor32, Int.natCast_add, hlen, hmax, max_builtin, len_nil, len_cons, dab, dl, g1]) (ih _ _ _ _ _ _ _ _ (by omega))
      | false =>
        have hab := of_decide_eq_false dab
        cases dba : decide (b < a) with
        | true =>
          have hba := of_decide_eq_true dba
          cases buf with
          | nil =>
            cases e2 : pyGet m (j : Int) with
            | error e =>
              have g2 := get_error e2
              rw [show USet.addLoop (fuel + 1) false false a b (l.drop i) (m.drop j) [] = .error e from by simp only [USet.addLoop, if_neg hab, if_pos hba, pop_drop, e2, Except.map, Bind.bind, Except.bind]]
              exact merged_error ht (by py_heap [mergeEnv, pol, addBody, hx, hr, ho', hobj, hcell, ho, hhigh, xor01, xor11, xor21, xor31, xor02, xor12, xor22, xor32, Int.natCast_add, hlen, hmax, max_builtin, len_nil, len_cons, dab, dba, g2])
            | ok b' =>
              have g2 := get_ok e2
              rw [show USet.addLoop (fuel + 1) false false a b (l.drop i) (m.drop j) [] = USet.addLoop fuel false true a b' (l.drop i) (m.drop (j + 1)) [b] from by simp only [USet.addLoop, if_neg hab, if_pos hba, pop_drop, e2, Except.map, Bind.bind, Except.bind]]
              exact merged_step ht (s' := ⟨mergeEnv x o σ.next 2 i (j + 1) a b', [], σ.push (.list (bufOf [b]))⟩)
                (by py_heap [mergeEnv, pol, addBody, hx, hr, ho', hobj, hcell, ho, hhigh, xor01, xor11, xor21, xor31, xor02, xor12, xor22, xor32, Int.natCast_add, hlen, hmax, max_builtin, len_nil, len_cons, dab, dba, g2]) (ih _ _ _ _ _ _ _ _ (by omega))
          | cons last buf =>
            cases dl : decide (b < last) with
            | true =>
              have hl := of_decide_eq_true dl
              cases e2 : pyGet m (j : Int) with
              | error e =>
                have g2 := get_error e2
                rw [show USet.addLoop (fuel + 1) false false a b (l.drop i) (m.drop j) (last :: buf) = .error e from by simp only [USet.addLoop, if_neg hab, if_pos hba, if_pos hl, pop_drop, e2, Except.map, Bind.bind, Except.bind]]
                exact merged_error ht (by py_heap [mergeEnv, pol, addBody, hx, hr, ho', hobj, hcell, ho, hhigh, xor01, xor11, xor21, xor31, xor02, xor12, xor22, xor32, Int.natCast_add, hlen, hmax, max_builtin, len_nil, len_cons, dab, dba, dl, g2])
              | ok b' =>
                have g2 := get_ok e2
                rw [show USet.addLoop (fuel + 1) false false a b (l.drop i) (m.drop j) (last :: buf) = USet.addLoop fuel false true a (max b' last) (l.drop i) (m.drop (j + 1)) buf from by simp only [USet.addLoop, if_neg hab, if_pos hba, if_pos hl, pop_drop, e2, Except.map, Bind.bind, Except.bind]]
                exact merged_step ht (s' := ⟨mergeEnv x o σ.next 2 i (j + 1) a (max b' last), [], σ.push (.list (bufOf buf))⟩)
                  (by py_heap [mergeEnv, pol, addBody, hx, hr, ho', hobj, hcell, ho, hhigh, xor01, xor11, xor21, xor31, xor02, xor12, xor22, xor32, Int.natCast_add, hlen, hmax, max_builtin, len_nil, len_cons, dab, dba, dl, g2]) (ih _ _ _ _ _ _ _ _ (by omega))
            | false =>
              have hl := of_decide_eq_false dl
              cases e2 : pyGet m (j : Int) with
              | error e =>
                have g2 := get_error e2
                rw [show USet.addLoop (fuel + 1) false false a b (l.drop i) (m.drop j) (last :: buf) = .error e from by simp only [USet.addLoop, if_neg hab, if_pos hba, if_neg hl, pop_drop, e2, Except.map, Bind.bind, Except.bind]]
                exact merged_error ht (by py_heap [mergeEnv, pol, addBody, hx, hr, ho', hobj, hcell, ho, hhigh, xor01, xor11, xor21, xor31, xor02, xor12, xor22, xor32, Int.natCast_add, hlen, hmax, max_builtin, len_nil, len_cons, dab, dba, dl, g2])
              | ok b' =>
                have g2 := get_ok e2
                rw [show USet.addLoop (fuel + 1) false false a b (l.drop i) (m.drop j) (last :: buf) = USet.addLoop fuel false true a b' (l.drop i) (m.drop (j + 1)) (b :: last :: buf) from by simp only [USet.addLoop, if_neg hab, if_pos hba, if_neg hl, pop_drop, e2, Except.map, Bind.bind, Except.bind]]
                exact merged_step ht (s' := ⟨mergeEnv x o σ.next 2 i (j + 1) a b', [], σ.push (.list (bufOf (b :: last :: buf)))⟩)
                  (by py_heap [mergeEnv, pol, addBody, hx, hr, ho', hobj, hcell, ho, hhigh, xor01, xor11, xor21, xor31, xor02, xor12, xor22, xor32, Int.natCast_add, hlen, hmax, max_builtin, len_nil, len_cons, dab, dba, dl, g2]) (ih _ _ _ _ _ _ _ _ (by omega))
        | false =>
          have hba := of_decide_eq_false dba
          cases dh : decide (a = 0x110000) with
          | true =>
            have hh : a = USet.HIGH := of_decide_eq_true dh
            rw [show USet.addLoop (fuel + 1) false false a b (l.drop i) (m.drop j) buf = .ok buf from by simp only [USet.addLoop, if_neg hab, if_neg hba, if_pos hh]]
            exact merged_brk ht (p := 0) (i := i) (j := j) (a := a) (b1 := b) (by py_heap [mergeEnv, pol, addBody, hx, hr, ho', hobj, hcell, ho, hhigh, xor01, xor11, xor21, xor31, xor02, xor12, xor22, xor32, Int.natCast_add, hlen, hmax, max_builtin, len_nil, len_cons, dab, dba, dh])
          | false =>
            have hh : ¬ a = USet.HIGH := of_decide_eq_false dh
            cases buf with
            | nil =>
              cases e1 : pyGet l (i : Int) with
              | error e =>
                have g1 := get_error e1
                rw [show USet.addLoop (fuel + 1) false false a b (l.drop i) (m.drop j) [] = .error e from by simp only [USet.addLoop, if_neg hab, if_neg hba, if_neg hh, pop_drop, e1, Except.map, Bind.bind, Except.bind]]
                exact merged_error ht (by py_heap [mergeEnv, pol, addBody, hx, hr, ho', hobj, hcell, ho, hhigh, xor01, xor11, xor21, xor31, xor02, xor12, xor22, xor32, Int.natCast_add, hlen, hmax, max_builtin, len_nil, len_cons, dab, dba, dh, g1])
              | ok a' =>
                have g1 := get_ok e1
                cases e2 : pyGet m (j : Int) with
                | error e =>
                  have g2 := get_error e2
                  rw [show USet.addLoop (fuel + 1) false false a b (l.drop i) (m.drop j) [] = .error e from by simp only [USet.addLoop, if_neg hab, if_neg hba, if_neg hh, pop_drop, e1, e2, Except.map, Bind.bind, Except.bind]]
                  exact merged_error ht (by py_heap [mergeEnv, pol, addBody, hx, hr, ho', hobj, hcell, ho, hhigh, xor01, xor11, xor21, xor31, xor02, xor12, xor22, xor32, Int.natCast_add, hlen, hmax, max_builtin, len_nil, len_cons, dab, dba, dh, g1, g2])
                | ok b' =>
                  have g2 := get_ok e2
                  rw [show USet.addLoop (fuel + 1) false false a b (l.drop i) (m.drop j) [] = USet.addLoop fuel true true a' b' (l.drop (i + 1)) (m.drop (j + 1)) [a] from by simp only [USet.addLoop, if_neg hab, if_neg hba, if_neg hh, pop_drop, e1, e2, Except.map, Bind.bind, Except.bind]]
                  exact merged_step ht (s' := ⟨mergeEnv x o σ.next 3 (i + 1) (j + 1) a' b', [], σ.push (.list (bufOf [a]))⟩)
                    (by py_heap [mergeEnv, pol, addBody, hx, hr, ho', hobj, hcell, ho, hhigh, xor01, xor11, xor21, xor31, xor02, xor12, xor22, xor32, Int.natCast_add, hlen, hmax, max_builtin, len_nil, len_cons, dab, dba, dh, g1, g2]) (ih _ _ _ _ _ _ _ _ (by omega))
            | cons last buf =>
              cases dl : decide (a < last) with
              | true =>
                have hl := of_decide_eq_true dl
                cases e1 : pyGet l (i : Int) with
                | error e =>
                  have g1 := get_error e1
                  rw [show USet.addLoop (fuel + 1) false false a b (l.drop i) (m.drop j) (last :: buf) = .error e from by simp only [USet.addLoop, if_neg hab, if_neg hba, if_neg hh, if_pos hl, pop_drop, e1, Except.map, Bind.bind, Except.bind]]
                  exact merged_error ht (by py_heap [mergeEnv, pol, addBody, hx, hr, ho', hobj, hcell, ho, hhigh, xor01, xor11, xor21, xor31, xor02, xor12, xor22, xor32, Int.natCast_add, hlen, hmax, max_builtin, len_nil, len_cons, dab, dba, dh, dl, g1])
                | ok a' =>
                  have g1 := get_ok e1
                  cases e2 : pyGet m (j : Int) with
                  | error e =>
                    have g2 := get_error e2
                    rw [show USet.addLoop (fuel + 1) false false a b (l.drop i) (m.drop j) (last :: buf) = .error e from by simp only [USet.addLoop, if_neg hab, if_neg hba, if_neg hh, if_pos hl, pop_drop, e1, e2, Except.map, Bind.bind, Except.bind]]
                    exact merged_error ht (by py_heap [mergeEnv, pol, addBody, hx, hr, ho', hobj, hcell, ho, hhigh, xor01, xor11, xor21, xor31, xor02, xor12, xor22, xor32, Int.natCast_add, hlen, hmax, max_builtin, len_nil, len_cons, dab, dba, dh, dl, g1, g2])
                  | ok b' =>
                    have g2 := get_ok e2
                    rw [show USet.addLoop (fuel + 1) false false a b (l.drop i) (m.drop j) (last :: buf) = USet.addLoop fuel true true (max a' last) b' (l.drop (i + 1)) (m.drop (j + 1)) buf from by simp only [USet.addLoop, if_neg hab, if_neg hba, if_neg hh, if_pos hl, pop_drop, e1, e2, Except.map, Bind.bind, Except.bind]]
                    exact merged_step ht (s' := ⟨mergeEnv x o σ.next 3 (i + 1) (j + 1) (max a' last) b', [], σ.push (.list (bufOf buf))⟩)
                      (by py_heap [mergeEnv, pol, addBody, hx, hr, ho', hobj, hcell, ho, hhigh, xor01, xor11, xor21, xor31, xor02, xor12, xor22, xor32, Int.natCast_add, hlen, hmax, max_builtin, len_nil, len_cons, dab, dba, dh, dl, g1, g2]) (ih _ _ _ _ _ _ _ _ (by omega))
              | false =>
                have hl := of_decide_eq_false dl
                cases e1 : pyGet l (i : Int) with
                | error e =>
                  have g1 := get_error e1
                  rw [show USet.addLoop (fuel + 1) false false a b (l.drop i) (m.drop j) (last :: buf) = .error e from by simp only [USet.addLoop, if_neg hab, if_neg hba, if_neg hh, if_neg hl, pop_drop, e1, Except.map, Bind.bind, Except.bind]]
                  exact merged_error ht (by py_heap [mergeEnv, pol, addBody, hx, hr, ho', hobj, hcell, ho, hhigh, xor01, xor11, xor21, xor31, xor02, xor12, xor22, xor32, Int.natCast_add, hlen, hmax, max_builtin, len_nil, len_cons, dab, dba, dh, dl, g1])
                | ok a' =>
                  have g1 := get_ok e1
                  cases e2 : pyGet m (j : Int) with
                  | error e =>
                    have g2 := get_error e2
                    rw [show USet.addLoop (fuel + 1) false false a b (l.drop i) (m.drop j) (last :: buf) = .error e from by simp only [USet.addLoop, if_neg hab, if_neg hba, if_neg hh, if_neg hl, pop_drop, e1, e2, Except.map, Bind.bind, Except.bind]]
                    exact merged_error ht (by py_heap [mergeEnv, pol, addBody, hx, hr, ho', hobj, hcell, ho, hhigh, xor01, xor11, xor21, xor31, xor02, xor12, xor22, xor32, Int.natCast_add, hlen, hmax, max_builtin, len_nil, len_cons, dab, dba, dh, dl, g1, g2])
                  | ok b' =>
                    have g2 := get_ok e2
                    rw [show USet.addLoop (fuel + 1) false false a b (l.drop i) (m.drop j) (last :: buf) = USet.addLoop fuel true true a' b' (l.drop (i + 1)) (m.drop (j + 1)) (a :: last :: buf) from by simp only [USet.addLoop, if_neg hab, if_neg hba, if_neg hh, if_neg hl, pop_drop, e1, e2, Except.map, Bind.bind, Except.bind]]
                    exact merged_step ht (s' := ⟨mergeEnv x o σ.next 3 (i + 1) (j + 1) a' b', [], σ.push (.list (bufOf (a :: last :: buf)))⟩)
                      (by py_heap [mergeEnv, pol, addBody, hx, hr, ho', hobj, hcell, ho, hhigh, xor01, xor11, xor21, xor31, xor02, xor12, xor22, xor32, Int.natCast_add, hlen, hmax, max_builtin, len_nil, len_cons, dab, dba, dh, dl, g1, g2]) (ih _ _ _ _ _ _ _ _ (by omega))
    · cases dba : decide (b < a) with
      | true =>
        have hba := of_decide_eq_true dba
        cases e2 : pyGet m (j : Int) with
        | error e =>
          have g2 := get_error e2
          rw [show USet.addLoop (fuel + 1) false true a b (l.drop i) (m.drop j) buf = .error e from by simp only [USet.addLoop, if_pos hba, pop_drop, e2, Except.map, Bind.bind, Except.bind]]
          exact merged_error ht (by py_heap [mergeEnv, pol, addBody, hx, hr, ho', hobj, hcell, ho, hhigh, xor01, xor11, xor21, xor31, xor02, xor12, xor22, xor32, Int.natCast_add, hlen, hmax, max_builtin, len_nil, len_cons, dba, g2])
        | ok b' =>
          have g2 := get_ok e2
          rw [show USet.addLoop (fuel + 1) false true a b (l.drop i) (m.drop j) buf = USet.addLoop fuel false false a b' (l.drop i) (m.drop (j + 1)) (b :: buf) from by simp only [USet.addLoop, if_pos hba, pop_drop, e2, Except.map, Bind.bind, Except.bind]]
          exact merged_step ht (s' := ⟨mergeEnv x o σ.next 0 i (j + 1) a b', [], σ.push (.list (bufOf (b :: buf)))⟩)
            (by py_heap [mergeEnv, pol, addBody, hx, hr, ho', hobj, hcell, ho, hhigh, xor01, xor11, xor21, xor31, xor02, xor12, xor22, xor32, Int.natCast_add, hlen, hmax, max_builtin, len_nil, len_cons, dba, g2]) (ih _ _ _ _ _ _ _ _ (by omega))
      | false =>
        have hba := of_decide_eq_false dba
        cases dab : decide (a < b) with
        | true =>
          have hab := of_decide_eq_true dab
          cases e1 : pyGet l (i : Int) with
          | error e =>
            have g1 := get_error e1
            rw [show USet.addLoop (fuel + 1) false true a b (l.drop i) (m.drop j) buf = .error e from by simp only [USet.addLoop, if_neg hba, if_pos hab, pop_drop, e1, Except.map, Bind.bind, Except.bind]]
            exact merged_error ht (by py_heap [mergeEnv, pol, addBody, hx, hr, ho', hobj, hcell, ho, hhigh, xor01, xor11, xor21, xor31, xor02, xor12, xor22, xor32, Int.natCast_add, hlen, hmax, max_builtin, len_nil, len_cons, dba, dab, g1])
          | ok a' =>
            have g1 := get_ok e1
            rw [show USet.addLoop (fuel + 1) false true a b (l.drop i) (m.drop j) buf = USet.addLoop fuel true true a' b (l.drop (i + 1)) (m.drop j) buf from by simp only [USet.addLoop, if_neg hba, if_pos hab, pop_drop, e1, Except.map, Bind.bind, Except.bind]]
            exact merged_step ht (s' := ⟨mergeEnv x o σ.next 3 (i + 1) j a' b, [], σ.push (.list (bufOf buf))⟩)
              (by py_heap [mergeEnv, pol, addBody, hx, hr, ho', hobj, hcell, ho, hhigh, xor01, xor11, xor21, xor31, xor02, xor12, xor22, xor32, Int.natCast_add, hlen, hmax, max_builtin, len_nil, len_cons, dba, dab, g1]) (ih _ _ _ _ _ _ _ _ (by omega))
        | false =>
          have hab := of_decide_eq_false dab
          cases dh : decide (a = 0x110000) with
          | true =>
            have hh : a = USet.HIGH := of_decide_eq_true dh
            rw [show USet.addLoop (fuel + 1) false true a b (l.drop i) (m.drop j) buf = .ok buf from by simp only [USet.addLoop, if_neg hba, if_neg hab, if_pos hh]]
            exact merged_brk ht (p := 2) (i := i) (j := j) (a := a) (b1 := b) (by py_heap [mergeEnv, pol, addBody, hx, hr, ho', hobj, hcell, ho, hhigh, xor01, xor11, xor21, xor31, xor02, xor12, xor22, xor32, Int.natCast_add, hlen, hmax, max_builtin, len_nil, len_cons, dba, dab, dh])
          | false =>
            have hh : ¬ a = USet.HIGH := of_decide_eq_false dh
            cases e1 : pyGet l (i : Int) with
            | error e =>
              have g1 := get_error e1
              rw [show USet.addLoop (fuel + 1) false true a b (l.drop i) (m.drop j) buf = .error e from by simp only [USet.addLoop, if_neg hba, if_neg hab, if_neg hh, pop_drop, e1, Except.map, Bind.bind, Except.bind]]
              exact merged_error ht (by py_heap [mergeEnv, pol, addBody, hx, hr, ho', hobj, hcell, ho, hhigh, xor01, xor11, xor21, xor31, xor02, xor12, xor22, xor32, Int.natCast_add, hlen, hmax, max_builtin, len_nil, len_cons, dba, dab, dh, g1])
            | ok a' =>
              have g1 := get_ok e1
              cases e2 : pyGet m (j : Int) with
              | error e =>
                have g2 := get_error e2
                rw [show USet.addLoop (fuel + 1) false true a b (l.drop i) (m.drop j) buf = .error e from by simp only [USet.addLoop, if_neg hba, if_neg hab, if_neg hh, pop_drop, e1, e2, Except.map, Bind.bind, Except.bind]]
                exact merged_error ht (by py_heap [mergeEnv, pol, addBody, hx, hr, ho', hobj, hcell, ho, hhigh, xor01, xor11, xor21, xor31, xor02, xor12, xor22, xor32, Int.natCast_add, hlen, hmax, max_builtin, len_nil, len_cons, dba, dab, dh, g1, g2])
              | ok b' =>
                have g2 := get_ok e2
                rw [show USet.addLoop (fuel + 1) false true a b (l.drop i) (m.drop j) buf = USet.addLoop fuel true false a' b' (l.drop (i + 1)) (m.drop (j + 1)) buf from by simp only [USet.addLoop, if_neg hba, if_neg hab, if_neg hh, pop_drop, e1, e2, Except.map, Bind.bind, Except.bind]]
                exact merged_step ht (s' := ⟨mergeEnv x o σ.next 1 (i + 1) (j + 1) a' b', [], σ.push (.list (bufOf buf))⟩)
                  (by py_heap [mergeEnv, pol, addBody, hx, hr, ho', hobj, hcell, ho, hhigh, xor01, xor11, xor21, xor31, xor02, xor12, xor22, xor32, Int.natCast_add, hlen, hmax, max_builtin, len_nil, len_cons, dba, dab, dh, g1, g2]) (ih _ _ _ _ _ _ _ _ (by omega))
    · cases dab : decide (a < b) with
      | true =>
        have hab := of_decide_eq_true dab
        cases e1 : pyGet l (i : Int) with
        | error e =>
          have g1 := get_error e1
          rw [show USet.addLoop (fuel + 1) true false a b (l.drop i) (m.drop j) buf = .error e from by simp only [USet.addLoop, if_pos hab, pop_drop, e1, Except.map, Bind.bind, Except.bind]]
          exact merged_error ht (by py_heap [mergeEnv, pol, addBody, hx, hr, ho', hobj, hcell, ho, hhigh, xor01, xor11, xor21, xor31, xor02, xor12, xor22, xor32, Int.natCast_add, hlen, hmax, max_builtin, len_nil, len_cons, dab, g1])
        | ok a' =>
          have g1 := get_ok e1
          rw [show USet.addLoop (fuel + 1) true false a b (l.drop i) (m.drop j) buf = USet.addLoop fuel false false a' b (l.drop (i + 1)) (m.drop j) (a :: buf) from by simp only [USet.addLoop, if_pos hab, pop_drop, e1, Except.map, Bind.bind, Except.bind]]
          exact merged_step ht (s' := ⟨mergeEnv x o σ.next 0 (i + 1) j a' b, [], σ.push (.list (bufOf (a :: buf)))⟩)
            (by py_heap [mergeEnv, pol, addBody, hx, hr, ho', hobj, hcell, ho, hhigh, xor01, xor11, xor21, xor31, xor02, xor12, xor22, xor32, Int.natCast_add, hlen, hmax, max_builtin, len_nil, len_cons, dab, g1]) (ih _ _ _ _ _ _ _ _ (by omega))
      | false =>
        have hab := of_decide_eq_false dab
        cases dba : decide (b < a) with
        | true =>
          have hba := of_decide_eq_true dba
          cases e2 : pyGet m (j : Int) with
          | error e =>
            have g2 := get_error e2
            rw [show USet.addLoop (fuel + 1) true false a b (l.drop i) (m.drop j) buf = .error e from by simp only [USet.addLoop, if_neg hab, if_pos hba, pop_drop, e2, Except.map, Bind.bind, Except.bind]]
            exact merged_error ht (by py_heap [mergeEnv, pol, addBody, hx, hr, ho', hobj, hcell, ho, hhigh, xor01, xor11, xor21, xor31, xor02, xor12, xor22, xor32, Int.natCast_add, hlen, hmax, max_builtin, len_nil, len_cons, dab, dba, g2])
          | ok b' =>
            have g2 := get_ok e2
            rw [show USet.addLoop (fuel + 1) true false a b (l.drop i) (m.drop j) buf = USet.addLoop fuel true true a b' (l.drop i) (m.drop (j + 1)) buf from by simp only [USet.addLoop, if_neg hab, if_pos hba, pop_drop, e2, Except.map, Bind.bind, Except.bind]]
            exact merged_step ht (s' := ⟨mergeEnv x o σ.next 3 i (j + 1) a b', [], σ.push (.list (bufOf buf))⟩)
              (by py_heap [mergeEnv, pol, addBody, hx, hr, ho', hobj, hcell, ho, hhigh, xor01, xor11, xor21, xor31, xor02, xor12, xor22, xor32, Int.natCast_add, hlen, hmax, max_builtin, len_nil, len_cons, dab, dba, g2]) (ih _ _ _ _ _ _ _ _ (by omega))
        | false =>
          have hba := of_decide_eq_false dba
          cases dh : decide (a = 0x110000) with
          | true =>
            have hh : a = USet.HIGH := of_decide_eq_true dh
            rw [show USet.addLoop (fuel + 1) true false a b (l.drop i) (m.drop j) buf = .ok buf from by simp only [USet.addLoop, if_neg hab, if_neg hba, if_pos hh]]
            exact merged_brk ht (p := 1) (i := i) (j := j) (a := a) (b1 := b) (by py_heap [mergeEnv, pol, addBody, hx, hr, ho', hobj, hcell, ho, hhigh, xor01, xor11, xor21, xor31, xor02, xor12, xor22, xor32, Int.natCast_add, hlen, hmax, max_builtin, len_nil, len_cons, dab, dba, dh])
          | false =>
            have hh : ¬ a = USet.HIGH := of_decide_eq_false dh
            cases e1 : pyGet l (i : Int) with
            | error e =>
              have g1 := get_error e1
              rw [show USet.addLoop (fuel + 1) true false a b (l.drop i) (m.drop j) buf = .error e from by simp only [USet.addLoop, if_neg hab, if_neg hba, if_neg hh, pop_drop, e1, Except.map, Bind.bind, Except.bind]]
              exact merged_error ht (by py_heap [mergeEnv, pol, addBody, hx, hr, ho', hobj, hcell, ho, hhigh, xor01, xor11, xor21, xor31, xor02, xor12, xor22, xor32, Int.natCast_add, hlen, hmax, max_builtin, len_nil, len_cons, dab, dba, dh, g1])
            | ok a' =>
              have g1 := get_ok e1
              cases e2 : pyGet m (j : Int) with
              | error e =>
                have g2 := get_error e2
                rw [show USet.addLoop (fuel + 1) true false a b (l.drop i) (m.drop j) buf = .error e from by simp only [USet.addLoop, if_neg hab, if_neg hba, if_neg hh, pop_drop, e1, e2, Except.map, Bind.bind, Except.bind]]
                exact merged_error ht (by py_heap [mergeEnv, pol, addBody, hx, hr, ho', hobj, hcell, ho, hhigh, xor01, xor11, xor21, xor31, xor02, xor12, xor22, xor32, Int.natCast_add, hlen, hmax, max_builtin, len_nil, len_cons, dab, dba, dh, g1, g2])
              | ok b' =>
                have g2 := get_ok e2
                rw [show USet.addLoop (fuel + 1) true false a b (l.drop i) (m.drop j) buf = USet.addLoop fuel false true a' b' (l.drop (i + 1)) (m.drop (j + 1)) buf from by simp only [USet.addLoop, if_neg hab, if_neg hba, if_neg hh, pop_drop, e1, e2, Except.map, Bind.bind, Except.bind]]
                exact merged_step ht (s' := ⟨mergeEnv x o σ.next 2 (i + 1) (j + 1) a' b', [], σ.push (.list (bufOf buf))⟩)
                  (by py_heap [mergeEnv, pol, addBody, hx, hr, ho', hobj, hcell, ho, hhigh, xor01, xor11, xor21, xor31, xor02, xor12, xor22, xor32, Int.natCast_add, hlen, hmax, max_builtin, len_nil, len_cons, dab, dba, dh, g1, g2]) (ih _ _ _ _ _ _ _ _ (by omega))
    · cases dba : decide (b ≤ a) with
      | true =>
        have hba := of_decide_eq_true dba
        cases dh : decide (a = 0x110000) with
        | true =>
          have hh : a = USet.HIGH := of_decide_eq_true dh
          rw [show USet.addLoop (fuel + 1) true true a b (l.drop i) (m.drop j) buf = .ok buf from by simp only [USet.addLoop, if_pos hba, if_pos hh]]
          exact merged_brk ht (p := 3) (i := i) (j := j) (a := a) (b1 := b) (by py_heap [mergeEnv, pol, addBody, hx, hr, ho', hobj, hcell, ho, hhigh, xor01, xor11, xor21, xor31, xor02, xor12, xor22, xor32, Int.natCast_add, hlen, hmax, max_builtin, len_nil, len_cons, dba, dh])
        | false =>
          have hh : ¬ a = USet.HIGH := of_decide_eq_false dh
          cases e1 : pyGet l (i : Int) with
          | error e =>
            have g1 := get_error e1
            rw [show USet.addLoop (fuel + 1) true true a b (l.drop i) (m.drop j) buf = .error e from by simp only [USet.addLoop, if_pos hba, if_neg hh, pop_drop, e1, Except.map, Bind.bind, Except.bind]]
            exact merged_error ht (by py_heap [mergeEnv, pol, addBody, hx, hr, ho', hobj, hcell, ho, hhigh, xor01, xor11, xor21, xor31, xor02, xor12, xor22, xor32, Int.natCast_add, hlen, hmax, max_builtin, len_nil, len_cons, dba, dh, g1])
          | ok a' =>
            have g1 := get_ok e1
            cases e2 : pyGet m (j : Int) with
            | error e =>
              have g2 := get_error e2
              rw [show USet.addLoop (fuel + 1) true true a b (l.drop i) (m.drop j) buf = .error e from by simp only [USet.addLoop, if_pos hba, if_neg hh, pop_drop, e1, e2, Except.map, Bind.bind, Except.bind]]
              exact merged_error ht (by py_heap [mergeEnv, pol, addBody, hx, hr, ho', hobj, hcell, ho, hhigh, xor01, xor11, xor21, xor31, xor02, xor12, xor22, xor32, Int.natCast_add, hlen, hmax, max_builtin, len_nil, len_cons, dba, dh, g1, g2])
            | ok b' =>
              have g2 := get_ok e2
              rw [show USet.addLoop (fuel + 1) true true a b (l.drop i) (m.drop j) buf = USet.addLoop fuel false false a' b' (l.drop (i + 1)) (m.drop (j + 1)) (a :: buf) from by simp only [USet.addLoop, if_pos hba, if_neg hh, pop_drop, e1, e2, Except.map, Bind.bind, Except.bind]]
              exact merged_step ht (s' := ⟨mergeEnv x o σ.next 0 (i + 1) (j + 1) a' b', [], σ.push (.list (bufOf (a :: buf)))⟩)
                (by py_heap [mergeEnv, pol, addBody, hx, hr, ho', hobj, hcell, ho, hhigh, xor01, xor11, xor21, xor31, xor02, xor12, xor22, xor32, Int.natCast_add, hlen, hmax, max_builtin, len_nil, len_cons, dba, dh, g1, g2]) (ih _ _ _ _ _ _ _ _ (by omega))
      | false =>
        have hba := of_decide_eq_false dba
        cases dh : decide (b = 0x110000) with
        | true =>
          have hh : b = USet.HIGH := of_decide_eq_true dh
          rw [show USet.addLoop (fuel + 1) true true a b (l.drop i) (m.drop j) buf = .ok buf from by simp only [USet.addLoop, if_neg hba, if_pos hh]]
          exact merged_brk ht (p := 3) (i := i) (j := j) (a := a) (b1 := b) (by py_heap [mergeEnv, pol, addBody, hx, hr, ho', hobj, hcell, ho, hhigh, xor01, xor11, xor21, xor31, xor02, xor12, xor22, xor32, Int.natCast_add, hlen, hmax, max_builtin, len_nil, len_cons, dba, dh])
        | false =>
          have hh : ¬ b = USet.HIGH := of_decide_eq_false dh
          cases e1 : pyGet l (i : Int) with
          | error e =>
            have g1 := get_error e1
            rw [show USet.addLoop (fuel + 1) true true a b (l.drop i) (m.drop j) buf = .error e from by simp only [USet.addLoop, if_neg hba, if_neg hh, pop_drop, e1, Except.map, Bind.bind, Except.bind]]
            exact merged_error ht (by py_heap [mergeEnv, pol, addBody, hx, hr, ho', hobj, hcell, ho, hhigh, xor01, xor11, xor21, xor31, xor02, xor12, xor22, xor32, Int.natCast_add, hlen, hmax, max_builtin, len_nil, len_cons, dba, dh, g1])
          | ok a' =>
            have g1 := get_ok e1
            cases e2 : pyGet m (j : Int) with
            | error e =>
              have g2 := get_error e2
              rw [show USet.addLoop (fuel + 1) true true a b (l.drop i) (m.drop j) buf = .error e from by simp only [USet.addLoop, if_neg hba, if_neg hh, pop_drop, e1, e2, Except.map, Bind.bind, Except.bind]]
              exact merged_error ht (by py_heap [mergeEnv, pol, addBody, hx, hr, ho', hobj, hcell, ho, hhigh, xor01, xor11, xor21, xor31, xor02, xor12, xor22, xor32, Int.natCast_add, hlen, hmax, max_builtin, len_nil, len_cons, dba, dh, g1, g2])
            | ok b' =>
              have g2 := get_ok e2
              rw [show USet.addLoop (fuel + 1) true true a b (l.drop i) (m.drop j) buf = USet.addLoop fuel false false a' b' (l.drop (i + 1)) (m.drop (j + 1)) (b :: buf) from by simp only [USet.addLoop, if_neg hba, if_neg hh, pop_drop, e1, e2, Except.map, Bind.bind, Except.bind]]
              exact merged_step ht (s' := ⟨mergeEnv x o σ.next 0 (i + 1) (j + 1) a' b', [], σ.push (.list (bufOf (b :: buf)))⟩)
                (by py_heap [mergeEnv, pol, addBody, hx, hr, ho', hobj, hcell, ho, hhigh, xor01, xor11, xor21, xor31, xor02, xor12, xor22, xor32, Int.natCast_add, hlen, hmax, max_builtin, len_nil, len_cons, dba, dh, g1, g2]) (ih _ _ _ _ _ _ _ _ (by omega))

theorem addLoop_total : ∀ (fuel : Nat) (pa pb : Bool) (a b : Int) (xs ys buf : List Int), xs.length + ys.length < fuel →
    USet.addLoop fuel pa pb a b xs ys buf ≠ .error .diverges := by
  intro fuel
  induction fuel with
  | zero => intros; omega
  | succ fuel ih =>
    intro pa pb a b xs ys buf h
    cases pa <;> cases pb <;> cases xs <;> cases ys <;> cases buf <;>
      (simp only [USet.addLoop, USet.pop, Bind.bind, Except.bind]
       repeat' split
       all_goals first | (apply ih; simp only [List.length_cons, List.length_nil] at h ⊢; omega) | simp)

theorem add_run {w : Scope} (H : Imported w) (n : Nat) {σ : Heap} {x r o : Nat} {l m : List Int} (S : IsSet σ x r l)
    (ho : σ.cell o = some (.list (vals m))) (lo : o < σ.next) (hn : l.length + m.length + 1 ≤ n) :
    method w (run w (n + 1)) (n% "UnicodeSet") (n% "_addList") [.ref x, .ref o] σ = rebind σ x (USet.addList l m) := by
  rw [method_doc H._addList rfl]
  have hx := eq_false (Nat.ne_of_lt S.obj_lt)
  have hr := eq_false (Nat.ne_of_lt S.cell_lt)
  have ho' := eq_false (Nat.ne_of_lt lo)
  rw [USet.addList, pop_all, pop_all]
  cases e1 : pyGet l 0 with
  | error e =>
    have g1 := get_error e1
    simp only [Except.map, Bind.bind, Except.bind]
    py_heap [S.obj, S.cell, hx, hr, g1, rebind]
  | ok a =>
    have g1 := get_ok e1
    cases e2 : pyGet m 0 with
    | error e =>
      have g2 := get_error e2
      simp only [Except.map, Bind.bind, Except.bind]
      py_heap [S.obj, S.cell, ho, hx, hr, ho', g1, g2, rebind]
    | ok b =>
      have g2 := get_ok e2
      have hloop := add_loop H (run w n) n S ho lo ((l.drop 1).length + (m.drop 1).length + 1) n false false a b 1 1 []
        (by simp only [List.length_drop]; omega)
      have htot := addLoop_total ((l.drop 1).length + (m.drop 1).length + 1) false false a b (l.drop 1) (m.drop 1) [] (by omega)
      simp only [Except.map, Bind.bind, Except.bind]
      cases em : USet.addLoop ((l.drop 1).length + (m.drop 1).length + 1) false false a b (l.drop 1) (m.drop 1) [] with
      | ok buf =>
        rw [em] at hloop
        obtain ⟨p, i, j, a', b', hloop⟩ := hloop
        simp only [mergeEnv, pol, addBody, bufOf_nil, Int.cast_ofNat_Int] at hloop
        py_heap [S.obj, S.cell, ho, H.high, hx, hr, ho', g1, g2, hloop, rebind, rebound, Pure.pure, Except.pure, bufOf_high]
      | error e =>
        rw [em] at hloop htot
        have hloop : whileLoop w (run w n) n (.name (n% "True")) addBody n
            ⟨mergeEnv x o σ.next 0 1 1 a b, [], σ.push (.list (bufOf []))⟩ = .error (.raised e) := by
          cases e <;> first | exact hloop | exact absurd rfl htot
        simp only [mergeEnv, pol, addBody, bufOf_nil, Int.cast_ofNat_Int] at hloop
        py_heap [S.obj, S.cell, ho, hx, hr, ho', g1, g2, hloop, rebind]

end Verif.PyHeap

import Verif.Lemmas.RunUSetQuery
import Verif.Model.Hex
/-! # The methods of UnicodeSet.py with `for` loops -/
namespace Verif.PyHeap
open Verif.PySyntax Verif.Data
open Verif.PyRun (R Err lift bound)
open Verif (pyAnd)
set_option Elab.async false

theorem even_length (a : Nat) : pyAnd (a : Int) (-1 - 1) = ((a / 2 * 2 : Nat) : Int) := by
  show ((a - (a &&& 2 ^ 1 - 1) : Nat) : Int) = _
  rw [Nat.and_two_pow_sub_one_eq_mod]
  omega

theorem range_all (k : Nat) : rangeLength 0 k 1 = k := by rw [rangeLength, if_pos (by omega)]; omega
theorem range_even (k : Nat) : rangeLength 0 (k / 2 * 2 : Nat) 2 = k / 2 := by rw [rangeLength, if_pos (by omega)]; omega
theorem range_odd (k : Nat) : rangeLength 0 ((k : Int) - 1) 2 = k / 2 := by rw [rangeLength, if_pos (by omega)]; omega

theorem pairs_induct {P : List Int → Prop} (nil : ∀ m, (m = [] ∨ ∃ a, m = [a]) → P m) (cons : ∀ a b m, P m → P (a :: b :: m)) : ∀ m, P m
  | [] => nil [] (.inl rfl)
  | [a] => nil [a] (.inr ⟨a, rfl⟩)
  | a :: b :: m => cons a b m (pairs_induct nil cons m)

/-- UnicodeSet.py:714-717, what is repeated. -/
def sizeBody : Stmt :=
  (.seq (.assign (.name (n% "start")) (.call (.attr (.name (n% "self")) (n% "getRangeStart")) (.cons (.name (n% "index")) .nil)))
  (.seq (.assign (.name (n% "end")) (.call (.attr (.name (n% "self")) (n% "getRangeEnd")) (.cons (.name (n% "index")) .nil)))
  (.seq (.aug .add (.name (n% "s")) (.bin .add (.bin .sub (.name (n% "end")) (.name (n% "start"))) (.num 1))) .skip)))

section
variable {w : Scope} (H : Imported w) {n : Nat} {σ : Heap} {x r : Nat} {l : List Int}
include H

theorem size_loop (S : IsSet σ x r l) (N : Nat) (hn : 1 ≤ n) : ∀ (k i : Nat) (s : Int) (v : Env), v = [] ∨ (∃ a b c, v = [(n% "index", a), (n% "start", b), (n% "end", c)]) →
    match USet.sizeLoop l k i s with
    | .ok t => ∃ v', forLoop w (run w n) N (n% "index") sizeBody (steps i 1 k) ⟨(n% "self", .ref x) :: (n% "s", .int s) :: v, [], σ⟩
        = .ok (.next, ⟨(n% "self", .ref x) :: (n% "s", .int t) :: v', [], σ⟩)
    | .error e => forLoop w (run w n) N (n% "index") sizeBody (steps i 1 k) ⟨(n% "self", .ref x) :: (n% "s", .int s) :: v, [], σ⟩
        = .error (.raised e) := by
  intro k
  induction k with
  | zero => exact fun i s v _ => ⟨v, rfl⟩
  | succ k ih =>
    intro i s v hv
    simp only [USet.sizeLoop, steps, Bind.bind, Except.bind]
    have h1 := getRangeStart_run H S i hn
    have h2 := getRangeEnd_run H S i hn
    cases e1 : USet.getRangeStart l i with
    | error e =>
      rw [e1, ret] at h1
      refine for_error ?_
      rcases hv with rfl | ⟨a, b, c, rfl⟩ <;> py_heap [sizeBody, S.obj, h1]
    | ok a =>
      rw [e1, ret] at h1
      simp only
      cases e2 : USet.getRangeEnd l i with
      | error e =>
        rw [e2, ret] at h2
        refine for_error ?_
        rcases hv with rfl | ⟨a, b, c, rfl⟩ <;> py_heap [sizeBody, S.obj, h1, h2]
      | ok b =>
        rw [e2, ret] at h2
        simp only
        have hb : exec w (run w n) N sizeBody ⟨setVar (n% "index") (.int i) ((n% "self", .ref x) :: (n% "s", .int s) :: v), [], σ⟩ =
            .ok (.next, ⟨(n% "self", .ref x) :: (n% "s", .int (s + (b - a + 1))) :: [(n% "index", .int i), (n% "start", .int a), (n% "end", .int b)], [], σ⟩) := by
          rcases hv with rfl | ⟨a, b, c, rfl⟩ <;> py_heap [sizeBody, S.obj, h1, h2]
        rw [for_next hb]
        exact ih (i + 1) _ _ (.inr ⟨_, _, _, rfl⟩)

theorem size_run (S : IsSet σ x r l) (hn : 2 ≤ n) :
    method w (run w n) (n% "UnicodeSet") (n% "size") [.ref x] σ = ret .int σ (USet.size l) := by
  obtain ⟨n, rfl⟩ : ∃ m, n = m + 1 := ⟨n - 1, by omega⟩
  rw [method_doc H.size rfl, USet.size]
  have hc := getRangeCount_run H S (n := n) (by omega)
  have hl := size_loop H S (n := n) n (by omega) (USet.getRangeCount l) 0 0 [] (.inl rfl)
  simp only [sizeBody, Int.natCast_zero] at hl
  cases e : USet.sizeLoop l (USet.getRangeCount l) 0 0 with
  | error e' =>
    rw [e] at hl
    simp only at hl
    py_heap [S.obj, hc, H.range, iter, range_all, hl, ret]
  | ok t =>
    rw [e] at hl
    obtain ⟨v', hl⟩ := hl
    py_heap [S.obj, hc, H.range, iter, range_all, hl, ret]

omit H in
theorem pair_at {i : Nat} {a b : Int} {m : List Int} (h : l.drop i = a :: b :: m) :
    pyGet (vals l) i = .ok (.int a) ∧ pyGet (vals l) ((i : Int) + 1) = .ok (.int b) ∧ l.drop (i + 2) = m := by
  have h0 : l[i]? = some a := by have := congrArg (·[0]?) h; simpa using this
  have h1 : l[i + 1]? = some b := by have := congrArg (·[1]?) h; simpa using this
  refine ⟨get_ok ?_, get_ok ?_, ?_⟩
  · rw [pyGet, if_pos (by omega), Int.toNat_natCast, h0]
  · rw [pyGet, if_pos (by omega), show ((i : Int) + 1).toNat = i + 1 by omega, h1]
  · rw [← List.drop_drop, h]; rfl

/-- UnicodeSet.py:759-770, what is repeated. -/
def indexOfBody : Stmt :=
  (.seq (.assign (.name (n% "start")) (.index (.attr (.name (n% "self")) (n% "list")) (.name (n% "i"))))
  (.seq (.ifs (.bin .lt (.name (n% "cp")) (.name (n% "start"))) (.seq .brk .skip) .skip)
  (.seq (.assign (.name (n% "limit")) (.index (.attr (.name (n% "self")) (n% "list")) (.bin .add (.name (n% "i")) (.num 1))))
  (.seq (.ifs (.bin .lt (.name (n% "cp")) (.name (n% "limit")))
    (.seq (.ret (.bin .sub (.bin .add (.name (n% "n")) (.name (n% "cp"))) (.name (n% "start")))) .skip) .skip)
  (.seq (.aug .add (.name (n% "n")) (.bin .sub (.name (n% "limit")) (.name (n% "start")))) .skip)))))

/-- The variables of the loop of `indexOf`. -/
def indexOfEnv (x : Nat) (cp : Int) (k : Int) (n : Int) (v : Env) : Env :=
  (n% "self", .ref x) :: (n% "cp", .int cp) :: (n% "len2", .int k) :: (n% "n", .int n) :: v

omit H in
theorem indexOf_loop (S : IsSet σ x r l) (call : Call) (N : Nat) (cp k : Int) : ∀ (m : List Int) (i : Nat) (c : Int) (v : Env), l.drop i = m →
    (v = [] ∨ (∃ a b, v = [(n% "i", a), (n% "start", b)]) ∨ ∃ a b d, v = [(n% "i", a), (n% "start", b), (n% "limit", d)]) →
    match USet.indexOfLoop cp m c with
    | some t => ∃ v' c', forLoop w call N (n% "i") indexOfBody (steps i 2 (m.length / 2)) ⟨indexOfEnv x cp k c v, [], σ⟩
        = .ok (.ret (.int t), ⟨indexOfEnv x cp k c' v', [], σ⟩)
    | none => ∃ v' c', forLoop w call N (n% "i") indexOfBody (steps i 2 (m.length / 2)) ⟨indexOfEnv x cp k c v, [], σ⟩
        = .ok (.next, ⟨indexOfEnv x cp k c' v', [], σ⟩) ∧
        (v' = [] ∨ (∃ a b, v' = [(n% "i", a), (n% "start", b)]) ∨ ∃ a b d, v' = [(n% "i", a), (n% "start", b), (n% "limit", d)]) := by
  intro m
  induction m using pairs_induct with
  | nil m hm =>
    intro i c v _ hv
    have : USet.indexOfLoop cp m c = none := by
      rcases hm with rfl | ⟨a, rfl⟩ <;> rfl
    rw [this, show m.length / 2 = 0 by rcases hm with rfl | ⟨a, rfl⟩ <;> simp]
    exact ⟨v, c, rfl, hv⟩
  | cons a b m ih =>
    intro i c v hd hv
    obtain ⟨g1, g2, hd'⟩ := pair_at hd
    rw [show (a :: b :: m).length / 2 = m.length / 2 + 1 by simp only [List.length_cons]; omega, steps, USet.indexOfLoop]
    cases h1 : decide (cp < a) with
    | true =>
      rw [if_pos (of_decide_eq_true h1)]
      have hb : exec w call N indexOfBody ⟨setVar (n% "i") (.int i) (indexOfEnv x cp k c v), [], σ⟩ =
          .ok (.brk, ⟨indexOfEnv x cp k c ((n% "i", .int i) :: (n% "start", .int a) :: v.drop 2), [], σ⟩) := by
        rcases hv with rfl | ⟨u, u', rfl⟩ | ⟨u, u', u'', rfl⟩ <;>
          py_heap [indexOfEnv, indexOfBody, S.obj, S.cell, g1, h1, List.drop_nil, List.drop_succ_cons, List.drop_zero]
      refine ⟨_, c, for_brk hb, ?_⟩
      rcases hv with rfl | ⟨u, u', rfl⟩ | ⟨u, u', u'', rfl⟩
      · exact .inr (.inl ⟨_, _, rfl⟩)
      · exact .inr (.inl ⟨_, _, rfl⟩)
      · exact .inr (.inr ⟨_, _, _, rfl⟩)
    | false =>
      rw [if_neg (of_decide_eq_false h1)]
      cases h2 : decide (cp < b) with
      | true =>
        rw [if_pos (of_decide_eq_true h2)]
        refine ⟨_, c, for_ret (s' := ⟨indexOfEnv x cp k c [(n% "i", .int i), (n% "start", .int a), (n% "limit", .int b)], [], σ⟩) ?_⟩
        rcases hv with rfl | ⟨u, u', rfl⟩ | ⟨u, u', u'', rfl⟩ <;> py_heap [indexOfEnv, indexOfBody, S.obj, S.cell, g1, g2, h1, h2]
      | false =>
        rw [if_neg (of_decide_eq_false h2)]
        have hb : exec w call N indexOfBody ⟨setVar (n% "i") (.int i) (indexOfEnv x cp k c v), [], σ⟩ =
            .ok (.next, ⟨indexOfEnv x cp k (c + (b - a)) [(n% "i", .int i), (n% "start", .int a), (n% "limit", .int b)], [], σ⟩) := by
          rcases hv with rfl | ⟨u, u', rfl⟩ | ⟨u, u', u'', rfl⟩ <;> py_heap [indexOfEnv, indexOfBody, S.obj, S.cell, g1, g2, h1, h2]
        rw [for_next hb]
        exact ih (i + 2) _ _ hd' (.inr (.inr ⟨_, _, _, rfl⟩))

/-- An int or `None`. -/
def optional : Option Int → Val
  | some t => .int t
  | none => .none

theorem indexOf_run (S : IsSet σ x r l) (cp : Int) (hn : 1 ≤ n) :
    method w (run w n) (n% "UnicodeSet") (n% "indexOf") [.ref x, .int cp] σ = .ok (optional (USet.indexOf l cp), σ) := by
  obtain ⟨n, rfl⟩ : ∃ m, n = m + 1 := ⟨n - 1, by omega⟩
  rw [method_doc H.indexOf rfl, USet.indexOf]
  cases h1 : decide (cp < 0) with
  | true => rw [if_pos (.inl (of_decide_eq_true h1))]; py_heap [H.low, H.none', h1, optional]
  | false =>
    cases h2 : decide (0x110000 < cp) with
    | true => rw [if_pos (.inr (of_decide_eq_true h2))]; py_heap [H.low, H.high, H.none', h1, h2, optional]
    | false =>
      rw [if_neg (by
        have h1 := of_decide_eq_false h1
        have h2 := of_decide_eq_false h2
        rintro (h | h)
        · exact h1 h
        · exact h2 h)]
      have hl := indexOf_loop (w := w) S (run w n) n cp (l.length / 2 * 2 : Nat) l 0 0 [] rfl (.inl rfl)
      simp only [Int.natCast_zero] at hl
      cases e : USet.indexOfLoop cp l 0 with
      | some t =>
        rw [e] at hl
        obtain ⟨v', c', hl⟩ := hl
        simp only [indexOfEnv, indexOfBody] at hl
        py_heap [S.obj, S.cell, H.low, H.high, H.none', H.len, H.range, h1, h2, even_length, range_even, iter, hl, optional]
      | none =>
        rw [e] at hl
        obtain ⟨v', c', hl, hv⟩ := hl
        simp only [indexOfEnv, indexOfBody] at hl
        rcases hv with rfl | ⟨u, u', rfl⟩ | ⟨u, u', u'', rfl⟩ <;>
          py_heap [S.obj, S.cell, H.low, H.high, H.none', H.len, H.range, h1, h2, even_length, range_even, iter, hl, optional]

/-- UnicodeSet.py:786-791, what is repeated. -/
def charAtBody : Stmt :=
  (.seq (.assign (.name (n% "start")) (.index (.attr (.name (n% "self")) (n% "list")) (.name (n% "i"))))
  (.seq (.assign (.name (n% "count")) (.bin .sub (.index (.attr (.name (n% "self")) (n% "list")) (.bin .add (.name (n% "i")) (.num 1))) (.name (n% "start"))))
  (.seq (.ifs (.bin .lt (.name (n% "index")) (.name (n% "count"))) (.seq (.ret (.bin .add (.name (n% "start")) (.name (n% "index")))) .skip) .skip)
  (.seq (.aug .sub (.name (n% "index")) (.name (n% "count"))) .skip))))

/-- The variables of the loop of `charAt`. -/
def charAtEnv (x : Nat) (j k : Int) (v : Env) : Env := (n% "self", .ref x) :: (n% "index", .int j) :: (n% "len2", .int k) :: v

omit H in
theorem charAt_loop (S : IsSet σ x r l) (call : Call) (N : Nat) (k : Int) : ∀ (m : List Int) (i : Nat) (j : Int) (v : Env), l.drop i = m →
    (v = [] ∨ ∃ a b d, v = [(n% "i", a), (n% "start", b), (n% "count", d)]) →
    match USet.charAtLoop m j with
    | some t => ∃ v' j', forLoop w call N (n% "i") charAtBody (steps i 2 (m.length / 2)) ⟨charAtEnv x j k v, [], σ⟩
        = .ok (.ret (.int t), ⟨charAtEnv x j' k v', [], σ⟩)
    | none => ∃ v' j', forLoop w call N (n% "i") charAtBody (steps i 2 (m.length / 2)) ⟨charAtEnv x j k v, [], σ⟩
        = .ok (.next, ⟨charAtEnv x j' k v', [], σ⟩) ∧ (v' = [] ∨ ∃ a b d, v' = [(n% "i", a), (n% "start", b), (n% "count", d)]) := by
  intro m
  induction m using pairs_induct with
  | nil m hm =>
    intro i j v _ hv
    have : USet.charAtLoop m j = none := by
      rcases hm with rfl | ⟨a, rfl⟩ <;> rfl
    rw [this, show m.length / 2 = 0 by rcases hm with rfl | ⟨a, rfl⟩ <;> simp]
    exact ⟨v, j, rfl, hv⟩
  | cons a b m ih =>
    intro i j v hd hv
    obtain ⟨g1, g2, hd'⟩ := pair_at hd
    rw [show (a :: b :: m).length / 2 = m.length / 2 + 1 by simp only [List.length_cons]; omega, steps, USet.charAtLoop]
    cases h1 : decide (j < b - a) with
    | true =>
      rw [if_pos (of_decide_eq_true h1)]
      refine ⟨_, j, for_ret (s' := ⟨charAtEnv x j k [(n% "i", .int i), (n% "start", .int a), (n% "count", .int (b - a))], [], σ⟩) ?_⟩
      rcases hv with rfl | ⟨u, u', u'', rfl⟩ <;> py_heap [charAtEnv, charAtBody, S.obj, S.cell, g1, g2, h1]
    | false =>
      rw [if_neg (of_decide_eq_false h1)]
      have hb : exec w call N charAtBody ⟨setVar (n% "i") (.int i) (charAtEnv x j k v), [], σ⟩ =
          .ok (.next, ⟨charAtEnv x (j - (b - a)) k [(n% "i", .int i), (n% "start", .int a), (n% "count", .int (b - a))], [], σ⟩) := by
        rcases hv with rfl | ⟨u, u', u'', rfl⟩ <;> py_heap [charAtEnv, charAtBody, S.obj, S.cell, g1, g2, h1]
      rw [for_next hb]
      exact ih (i + 2) _ _ hd' (.inr ⟨_, _, _, rfl⟩)

theorem charAt_run (S : IsSet σ x r l) (j : Int) (hn : 1 ≤ n) :
    method w (run w n) (n% "UnicodeSet") (n% "charAt") [.ref x, .int j] σ = .ok (optional (USet.charAt l j), σ) := by
  obtain ⟨n, rfl⟩ : ∃ m, n = m + 1 := ⟨n - 1, by omega⟩
  rw [method_doc H.charAt rfl, USet.charAt]
  cases h1 : decide (0 ≤ j) with
  | false => rw [if_neg (of_decide_eq_false h1)]; py_heap [H.none', h1, optional]
  | true =>
    rw [if_pos (of_decide_eq_true h1)]
    have hl := charAt_loop (w := w) S (run w n) n (l.length / 2 * 2 : Nat) l 0 j [] rfl (.inl rfl)
    simp only [Int.natCast_zero] at hl
    cases e : USet.charAtLoop l j with
    | some t =>
      rw [e] at hl
      obtain ⟨v', c', hl⟩ := hl
      simp only [charAtEnv, charAtBody] at hl
      py_heap [S.obj, S.cell, H.none', H.len, H.range, h1, even_length, range_even, iter, hl, optional]
    | none =>
      rw [e] at hl
      obtain ⟨v', c', hl, hv⟩ := hl
      simp only [charAtEnv, charAtBody] at hl
      rcases hv with rfl | ⟨u, u', u'', rfl⟩ <;>
        py_heap [S.obj, S.cell, H.none', H.len, H.range, h1, even_length, range_even, iter, hl, optional]

/-- UnicodeSet.py:815, what is repeated. -/
def getRangesBody : Stmt :=
  (.seq (.expr (.call (.attr (.name (n% "ranges")) (n% "append")) (.cons (.call (.name (n% "range"))
    (.cons (.index (.attr (.name (n% "self")) (n% "list")) (.name (n% "i")))
    (.cons (.index (.attr (.name (n% "self")) (n% "list")) (.bin .add (.name (n% "i")) (.num 1))) .nil))) .nil))) .skip)

/-- The list of ranges as a value. -/
def rangeVals (rs : List (Int × Int)) : List Val := rs.map fun p => .range p.1 p.2 1

theorem getRanges_loop (S : IsSet σ x r l) (call : Call) (N : Nat) : ∀ (m : List Int) (i : Nat) (rs : List (Int × Int)) (v : Env), l.drop i = m →
    (v = [] ∨ ∃ a, v = [(n% "i", a)]) →
    ∃ v', forLoop w call N (n% "i") getRangesBody (steps i 2 (m.length / 2))
        ⟨(n% "self", .ref x) :: (n% "ranges", .ref σ.next) :: v, [], σ.push (.list (rangeVals rs))⟩
      = .ok (.next, ⟨(n% "self", .ref x) :: (n% "ranges", .ref σ.next) :: v', [], σ.push (.list (rangeVals (rs ++ USet.getRanges m)))⟩) := by
  have hx : (x = σ.next) = False := eq_false (by have := S.obj_lt; omega)
  have hr : (r = σ.next) = False := eq_false (by have := S.cell_lt; omega)
  intro m
  induction m using pairs_induct with
  | nil m hm =>
    intro i rs v _ hv
    have : USet.getRanges m = [] := by rcases hm with rfl | ⟨a, rfl⟩ <;> rfl
    rw [this, show m.length / 2 = 0 by rcases hm with rfl | ⟨a, rfl⟩ <;> simp, List.append_nil]
    exact ⟨v, rfl⟩
  | cons a b m ih =>
    intro i rs v hd hv
    obtain ⟨g1, g2, hd'⟩ := pair_at hd
    rw [show (a :: b :: m).length / 2 = m.length / 2 + 1 by simp only [List.length_cons]; omega, steps, USet.getRanges]
    have hb : exec w call N getRangesBody ⟨setVar (n% "i") (.int i) ((n% "self", .ref x) :: (n% "ranges", .ref σ.next) :: v), [], σ.push (.list (rangeVals rs))⟩ =
        .ok (.next, ⟨(n% "self", .ref x) :: (n% "ranges", .ref σ.next) :: [(n% "i", .int i)], [], σ.push (.list (rangeVals (rs ++ [(a, b)])))⟩) := by
      have ha : rangeVals rs ++ [.range a b 1] = rangeVals (rs ++ [(a, b)]) := by simp [rangeVals]
      rcases hv with rfl | ⟨u, rfl⟩ <;> py_heap [getRangesBody, S.obj, S.cell, hx, hr, H.range, g1, g2, ha]
    rw [for_next hb]
    obtain ⟨v', h'⟩ := ih (i + 2) (rs ++ [(a, b)]) _ hd' (.inr ⟨_, rfl⟩)
    exact ⟨v', by rw [List.append_assoc] at h'; exact h'⟩

theorem getRanges_run (S : IsSet σ x r l) (hn : 1 ≤ n) : method w (run w n) (n% "UnicodeSet") (n% "getRanges") [.ref x] σ =
    .ok (.ref σ.next, σ.push (.list (rangeVals (USet.getRanges l)))) := by
  obtain ⟨n, rfl⟩ : ∃ m, n = m + 1 := ⟨n - 1, by omega⟩
  have hx : (x = σ.next) = False := eq_false (by have := S.obj_lt; omega)
  have hr : (r = σ.next) = False := eq_false (by have := S.cell_lt; omega)
  rw [method_doc H.getRanges rfl]
  obtain ⟨v', hl⟩ := getRanges_loop H S (run w n) n l 0 [] [] rfl (.inl rfl)
  simp only [Int.natCast_zero, getRangesBody, rangeVals, List.map_nil, List.nil_append] at hl
  py_heap [S.obj, S.cell, hx, hr, H.len, H.range, range_odd, iter, hl, rangeVals]

omit H in
theorem yield_loop (call : Call) (N : Nat) : ∀ (k : Nat) (a u : Int) (out : List Val) (v : Env), (v = [] ∨ ∃ u, v = [(n% "cp", u)]) →
    ∃ v', forLoop w call N (n% "cp") (.seq (.yield (.name (n% "cp"))) .skip) (steps a 1 k) ⟨(n% "self", .ref x) :: (n% "i", .int u) :: v, out, σ⟩
      = .ok (.next, ⟨(n% "self", .ref x) :: (n% "i", .int u) :: v', out ++ vals ((List.range k).map fun j : Nat => a + (j : Int)), σ⟩) ∧
      (v' = [] ∨ ∃ u, v' = [(n% "cp", u)]) := by
  intro k
  induction k with
  | zero => exact fun a u out v hv => ⟨v, by simp [steps, vals, for_nil], hv⟩
  | succ k ih =>
    intro a u out v hv
    rw [steps]
    have hb : exec w call N (.seq (.yield (.name (n% "cp"))) .skip) ⟨setVar (n% "cp") (.int a) ((n% "self", .ref x) :: (n% "i", .int u) :: v), out, σ⟩ =
        .ok (.next, ⟨(n% "self", .ref x) :: (n% "i", .int u) :: [(n% "cp", .int a)], out ++ [.int a], σ⟩) := by
      rcases hv with rfl | ⟨u, rfl⟩ <;> py_heap []
    rw [for_next hb]
    obtain ⟨v', h1, h2⟩ := ih (a + 1) u (out ++ [.int a]) _ (.inr ⟨_, rfl⟩)
    refine ⟨v', h1.trans ?_, h2⟩
    have : (List.range k).map (fun j : Nat => a + 1 + (j : Int)) = (List.range k).map fun j : Nat => a + ((j + 1 : Nat) : Int) :=
      List.map_congr_left fun j _ => by omega
    rw [this, List.range_succ_eq_map]
    simp [vals, Function.comp_def]

/-- UnicodeSet.py:821-822, what is repeated. -/
def iterBody : Stmt :=
  (.seq (.for (.name (n% "cp")) (.call (.name (n% "range")) (.cons (.index (.attr (.name (n% "self")) (n% "list")) (.name (n% "i")))
    (.cons (.index (.attr (.name (n% "self")) (n% "list")) (.bin .add (.name (n% "i")) (.num 1))) .nil)))
    (.seq (.yield (.name (n% "cp"))) .skip)) .skip)

omit H in
theorem range_count (a b : Int) : rangeLength a b 1 = (b - a).toNat := by rw [rangeLength, if_pos (by omega)]; omega

theorem iter_loop (S : IsSet σ x r l) (call : Call) (N : Nat) : ∀ (m : List Int) (i : Nat) (out : List Val) (v : Env), l.drop i = m →
    (v = [] ∨ (∃ a, v = [(n% "i", a)]) ∨ ∃ a b, v = [(n% "i", a), (n% "cp", b)]) →
    ∃ v', forLoop w call N (n% "i") iterBody (steps i 2 (m.length / 2)) ⟨(n% "self", .ref x) :: v, out, σ⟩
      = .ok (.next, ⟨(n% "self", .ref x) :: v', out ++ vals (USet.iter m), σ⟩) := by
  intro m
  induction m using pairs_induct with
  | nil m hm =>
    intro i out v _ hv
    have : USet.iter m = [] := by rcases hm with rfl | ⟨a, rfl⟩ <;> rfl
    rw [this, show m.length / 2 = 0 by rcases hm with rfl | ⟨a, rfl⟩ <;> simp]
    exact ⟨v, by simp [steps, vals, for_nil]⟩
  | cons a b m ih =>
    intro i out v hd hv
    obtain ⟨g1, g2, hd'⟩ := pair_at hd
    rw [show (a :: b :: m).length / 2 = m.length / 2 + 1 by simp only [List.length_cons]; omega, steps, USet.iter]
    have hs : ∃ v1 : Env, (v1 = [] ∨ ∃ u, v1 = [(n% "cp", u)]) ∧ setVar (n% "i") (.int i) ((n% "self", .ref x) :: v) =
        (n% "self", .ref x) :: (n% "i", .int i) :: v1 := by
      rcases hv with rfl | ⟨u, rfl⟩ | ⟨u, u', rfl⟩
      · exact ⟨[], .inl rfl, rfl⟩
      · exact ⟨[], .inl rfl, rfl⟩
      · exact ⟨_, .inr ⟨_, rfl⟩, rfl⟩
    obtain ⟨v1, hv1, hs⟩ := hs
    obtain ⟨v2, h1, h2⟩ := yield_loop (w := w) (σ := σ) (x := x) call N (b - a).toNat a i out v1 hv1
    have hb : exec w call N iterBody ⟨setVar (n% "i") (.int i) ((n% "self", .ref x) :: v), out, σ⟩ =
        .ok (.next, ⟨(n% "self", .ref x) :: (n% "i", .int i) :: v2, out ++ vals (USet.pyRange a b), σ⟩) := by
      rw [hs]
      rcases hv1 with rfl | ⟨u, rfl⟩ <;> py_heap [iterBody, S.obj, S.cell, H.range, g1, g2, iter, range_count, h1, USet.pyRange]
    rw [for_next hb]
    obtain ⟨v', h'⟩ := ih (i + 2) (out ++ vals (USet.pyRange a b)) ((n% "i", .int i) :: v2) hd' (by
      rcases h2 with rfl | ⟨u, rfl⟩
      · exact .inr (.inl ⟨_, rfl⟩)
      · exact .inr (.inr ⟨_, _, rfl⟩))
    have ev : vals (USet.pyRange a b) ++ vals (USet.iter m) = vals (USet.pyRange a b ++ USet.iter m) := by simp [vals]
    rw [List.append_assoc, ev] at h'
    exact ⟨v', h'⟩

theorem iter_run (S : IsSet σ x r l) (hn : 1 ≤ n) : method w (run w n) (n% "UnicodeSet") (n% "__iter__") [.ref x] σ =
    .ok (.ref σ.next, σ.push (.gen (vals (USet.iter l)))) := by
  obtain ⟨n, rfl⟩ : ∃ m, n = m + 1 := ⟨n - 1, by omega⟩
  rw [method_plain H.__iter__ rfl]
  obtain ⟨v', hl⟩ := iter_loop H S (run w n) n l 0 [] [] rfl (.inl rfl)
  simp only [Int.natCast_zero, iterBody, List.nil_append] at hl
  py_heap [S.obj, S.cell, H.len, H.range, range_odd, iter, hl]

omit H in
theorem hexDigits_eq (f n : Nat) (s : Str) : hexDigits f n s = hexLoop f n ++ s := by
  induction f generalizing n s with
  | zero => rfl
  | succ f ih =>
    rw [hexDigits, hexLoop]
    by_cases h : n < 16
    · rw [if_pos h, if_pos h]; rfl
    · rw [if_neg h, if_neg h, ih]; simp [hexDigit, hexChar]

omit H in
theorem hex4_eq (i : Int) : hex4 i = signedHex 4 i := by
  rw [hex4, signedHex]
  by_cases h : 0 ≤ i
  · rw [if_pos h, if_neg (by omega), show i.toNat = i.natAbs by omega]
    simp only [hexDigits_eq, List.append_nil, paddedHex, upperHex]
  · rw [if_neg h, if_pos (by omega), show (-i).toNat = i.natAbs by omega]
    simp only [hexDigits_eq, List.append_nil, paddedHex, upperHex]

omit H in
theorem join_eq (s : Str) (ts : List Str) : join s (ts.map .str) = .ok (Verif.join s ts) := by
  induction ts with
  | nil => rfl
  | cons t ts ih =>
    cases ts with
    | nil => simp [join, Verif.join, List.intercalate]
    | cons u us =>
      rw [List.map_cons] at ih
      simp only [List.map_cons, join, ih, Except.map, Verif.join]
      simp [List.intercalate]

/-- UnicodeSet.py:800-801, what is repeated. -/
def strBody : Stmt :=
  (.seq (.expr (.call (.attr (.name (n% "pieces")) (n% "append")) (.cons (.fstr [48, 120, 123, 99, 112, 58, 48, 52, 88, 125]) .nil))) .skip)

omit H in
theorem str_loop (call : Call) (N : Nat) : ∀ (m : List Int) (ts : List Str) (v : Env), (v = [] ∨ ∃ a, v = [(n% "cp", a)]) →
    ∃ v', forLoop w call N (n% "cp") strBody (vals m)
        ⟨(n% "self", .ref x) :: (n% "pieces", .ref σ.next) :: v, [], σ.push (.list (ts.map .str))⟩
      = .ok (.next, ⟨(n% "self", .ref x) :: (n% "pieces", .ref σ.next) :: v', [],
          σ.push (.list ((ts ++ m.map fun cp => txt "0x" ++ signedHex 4 cp).map .str))⟩) ∧ (v' = [] ∨ ∃ a, v' = [(n% "cp", a)]) := by
  intro m
  induction m with
  | nil => exact fun ts v hv => ⟨v, by simp [vals, for_nil], hv⟩
  | cons a m ih =>
    intro ts v hv
    have hf : formats ((n% "self", .ref x) :: (n% "pieces", .ref σ.next) :: [(n% "cp", .int a)]) 11 [48, 120, 123, 99, 112, 58, 48, 52, 88, 125] =
        .ok (txt "0x" ++ signedHex 4 a) := by
      rw [← hex4_eq]
      show Except.ok (48 :: 120 :: (hex4 a ++ [])) = _
      rw [List.append_nil]; rfl
    have hb : exec w call N strBody ⟨setVar (n% "cp") (.int a) ((n% "self", .ref x) :: (n% "pieces", .ref σ.next) :: v), [], σ.push (.list (ts.map .str))⟩ =
        .ok (.next, ⟨(n% "self", .ref x) :: (n% "pieces", .ref σ.next) :: [(n% "cp", .int a)], [],
          σ.push (.list ((ts ++ [txt "0x" ++ signedHex 4 a]).map .str))⟩) := by
      have ha : ∀ t : Str, ts.map Val.str ++ [.str t] = (ts ++ [t]).map .str := by simp
      rcases hv with rfl | ⟨u, rfl⟩ <;> py_heap [strBody, List.length_cons, List.length_nil, hf, ha]
    obtain ⟨v', h1, h2⟩ := ih (ts ++ [txt "0x" ++ signedHex 4 a]) _ (.inr ⟨_, rfl⟩)
    refine ⟨v', ?_, h2⟩
    rw [show vals (a :: m) = .int a :: vals m from rfl, for_next hb, h1, List.append_assoc]
    rfl

theorem str_run (S : IsSet σ x r l) (hn : 1 ≤ n) : ∃ ts, method w (run w n) (n% "UnicodeSet") (n% "__str__") [.ref x] σ =
    .ok (.str (USet.str l), σ.push (.list ts)) := by
  obtain ⟨n, rfl⟩ : ∃ m, n = m + 1 := ⟨n - 1, by omega⟩
  have hx : (x = σ.next) = False := eq_false (by have := S.obj_lt; omega)
  have hr : (r = σ.next) = False := eq_false (by have := S.cell_lt; omega)
  rw [method_doc H.__str__ rfl]
  obtain ⟨v', hl, hv⟩ := str_loop (w := w) (σ := σ) (x := x) (run w n) n l [] [] (.inl rfl)
  simp only [strBody, List.map_nil, List.nil_append] at hl
  have hj : join [44, 32] ((l.map fun cp => txt "0x" ++ signedHex 4 cp).map .str) = .ok (Verif.join (txt ", ") (l.map fun cp => txt "0x" ++ signedHex 4 cp)) :=
    join_eq (txt ", ") _
  have hf : ∀ t : Str, formats ((n% "self", .ref x) :: (n% "pieces", .ref σ.next) :: (v' ++ [(n% "s", .str t)])) 6 [91, 123, 115, 125, 93] =
      .ok (txt "[" ++ t ++ txt "]") := by
    intro t
    rcases hv with rfl | ⟨u, rfl⟩ <;> rfl
  rcases hv with rfl | ⟨u, rfl⟩
  all_goals
    simp only [List.nil_append, List.cons_append] at hf
    refine ⟨(l.map fun cp => txt "0x" ++ signedHex 4 cp).map .str, ?_⟩
    py_heap [S.obj, S.cell, hx, hr, iter, hl, hj, List.length_cons, List.length_nil, hf]
    rfl

end

end Verif.PyHeap

import Verif.Lemmas.PyHeap
import Verif.Data.Syntax
/-! # What the text of UnicodeSet.py does: the private functions -/
namespace Verif.PyHeap
open Verif.PySyntax Verif.Data
open Verif.PyRun (R Err lift bound)
set_option Elab.async false

/-- The names that UnicodeSet.py defines. -/
structure Imported (w : Scope) : Prop where
  high : w.find 0 (n% "UNICODE_SET_HIGH") = some (.val (.int 0x110000))
  low : w.find 0 (n% "UNICODE_SET_LOW") = some (.val (.int 0))
  typing : w.find 0 (n% "typing") = some (.val (.mod (n% "typing")))
  cls : w.find 0 (n% "UnicodeSet") = some .cls
  pin : w.find 0 (n% "_pinCodePoint") = fnOf Syntax.UnicodeSet._pinCodePoint
  _findCodePoint : w.find (n% "UnicodeSet") (n% "_findCodePoint") = fnOf Syntax.UnicodeSet.UnicodeSet._findCodePoint
  _retainList : w.find (n% "UnicodeSet") (n% "_retainList") = fnOf Syntax.UnicodeSet.UnicodeSet._retainList
  _addList : w.find (n% "UnicodeSet") (n% "_addList") = fnOf Syntax.UnicodeSet.UnicodeSet._addList
  _exclusiveOrList : w.find (n% "UnicodeSet") (n% "_exclusiveOrList") = fnOf Syntax.UnicodeSet.UnicodeSet._exclusiveOrList
  add : w.find (n% "UnicodeSet") (n% "add") = fnOf Syntax.UnicodeSet.UnicodeSet.add
  addRange : w.find (n% "UnicodeSet") (n% "addRange") = fnOf Syntax.UnicodeSet.UnicodeSet.addRange
  addAll : w.find (n% "UnicodeSet") (n% "addAll") = fnOf Syntax.UnicodeSet.UnicodeSet.addAll
  removeRange : w.find (n% "UnicodeSet") (n% "removeRange") = fnOf Syntax.UnicodeSet.UnicodeSet.removeRange
  remove : w.find (n% "UnicodeSet") (n% "remove") = fnOf Syntax.UnicodeSet.UnicodeSet.remove
  removeAll : w.find (n% "UnicodeSet") (n% "removeAll") = fnOf Syntax.UnicodeSet.UnicodeSet.removeAll
  retainRange : w.find (n% "UnicodeSet") (n% "retainRange") = fnOf Syntax.UnicodeSet.UnicodeSet.retainRange
  retain : w.find (n% "UnicodeSet") (n% "retain") = fnOf Syntax.UnicodeSet.UnicodeSet.retain
  retainAll : w.find (n% "UnicodeSet") (n% "retainAll") = fnOf Syntax.UnicodeSet.UnicodeSet.retainAll
  complementRange : w.find (n% "UnicodeSet") (n% "complementRange") = fnOf Syntax.UnicodeSet.UnicodeSet.complementRange
  complement : w.find (n% "UnicodeSet") (n% "complement") = fnOf Syntax.UnicodeSet.UnicodeSet.complement
  complementAll : w.find (n% "UnicodeSet") (n% "complementAll") = fnOf Syntax.UnicodeSet.UnicodeSet.complementAll
  clear : w.find (n% "UnicodeSet") (n% "clear") = fnOf Syntax.UnicodeSet.UnicodeSet.clear
  contains : w.find (n% "UnicodeSet") (n% "contains") = fnOf Syntax.UnicodeSet.UnicodeSet.contains
  union : w.find (n% "UnicodeSet") (n% "union") = fnOf Syntax.UnicodeSet.UnicodeSet.union
  intersection : w.find (n% "UnicodeSet") (n% "intersection") = fnOf Syntax.UnicodeSet.UnicodeSet.intersection
  difference : w.find (n% "UnicodeSet") (n% "difference") = fnOf Syntax.UnicodeSet.UnicodeSet.difference
  symmetric_difference : w.find (n% "UnicodeSet") (n% "symmetric_difference") = fnOf Syntax.UnicodeSet.UnicodeSet.symmetric_difference
  __eq__ : w.find (n% "UnicodeSet") (n% "__eq__") = fnOf Syntax.UnicodeSet.UnicodeSet.__eq__
  __ne__ : w.find (n% "UnicodeSet") (n% "__ne__") = fnOf Syntax.UnicodeSet.UnicodeSet.__ne__
  __or__ : w.find (n% "UnicodeSet") (n% "__or__") = fnOf Syntax.UnicodeSet.UnicodeSet.__or__
  __and__ : w.find (n% "UnicodeSet") (n% "__and__") = fnOf Syntax.UnicodeSet.UnicodeSet.__and__
  __sub__ : w.find (n% "UnicodeSet") (n% "__sub__") = fnOf Syntax.UnicodeSet.UnicodeSet.__sub__
  __xor__ : w.find (n% "UnicodeSet") (n% "__xor__") = fnOf Syntax.UnicodeSet.UnicodeSet.__xor__
  __isub__ : w.find (n% "UnicodeSet") (n% "__isub__") = fnOf Syntax.UnicodeSet.UnicodeSet.__isub__
  __iand__ : w.find (n% "UnicodeSet") (n% "__iand__") = fnOf Syntax.UnicodeSet.UnicodeSet.__iand__
  __ior__ : w.find (n% "UnicodeSet") (n% "__ior__") = fnOf Syntax.UnicodeSet.UnicodeSet.__ior__
  __ixor__ : w.find (n% "UnicodeSet") (n% "__ixor__") = fnOf Syntax.UnicodeSet.UnicodeSet.__ixor__
  __contains__ : w.find (n% "UnicodeSet") (n% "__contains__") = fnOf Syntax.UnicodeSet.UnicodeSet.__contains__
  __init__ : w.find (n% "UnicodeSet") (n% "__init__") = fnOf Syntax.UnicodeSet.UnicodeSet.__init__
  size : w.find (n% "UnicodeSet") (n% "size") = fnOf Syntax.UnicodeSet.UnicodeSet.size
  getRangeCount : w.find (n% "UnicodeSet") (n% "getRangeCount") = fnOf Syntax.UnicodeSet.UnicodeSet.getRangeCount
  getRangeStart : w.find (n% "UnicodeSet") (n% "getRangeStart") = fnOf Syntax.UnicodeSet.UnicodeSet.getRangeStart
  getRangeEnd : w.find (n% "UnicodeSet") (n% "getRangeEnd") = fnOf Syntax.UnicodeSet.UnicodeSet.getRangeEnd
  indexOf : w.find (n% "UnicodeSet") (n% "indexOf") = fnOf Syntax.UnicodeSet.UnicodeSet.indexOf
  charAt : w.find (n% "UnicodeSet") (n% "charAt") = fnOf Syntax.UnicodeSet.UnicodeSet.charAt
  __str__ : w.find (n% "UnicodeSet") (n% "__str__") = fnOf Syntax.UnicodeSet.UnicodeSet.__str__
  dump : w.find (n% "UnicodeSet") (n% "dump") = fnOf Syntax.UnicodeSet.UnicodeSet.dump
  getRanges : w.find (n% "UnicodeSet") (n% "getRanges") = fnOf Syntax.UnicodeSet.UnicodeSet.getRanges
  __iter__ : w.find (n% "UnicodeSet") (n% "__iter__") = fnOf Syntax.UnicodeSet.UnicodeSet.__iter__
  len : w.find 0 (n% "len") = none
  max : w.find 0 (n% "max") = none
  range : w.find 0 (n% "range") = none
  type : w.find 0 (n% "type") = none
  int : w.find 0 (n% "int") = none
  true' : w.find 0 (n% "True") = none
  none' : w.find 0 (n% "None") = none

/-- Object `x` is a set, and its list is the list `l` in cell `r`. -/
structure IsSet (σ : Heap) (x r : Nat) (l : List Int) : Prop where
  obj : σ.cell x = some (.obj (n% "UnicodeSet") [(n% "list", .ref r)])
  cell : σ.cell r = some (.list (vals l))
  obj_lt : x < σ.next
  cell_lt : r < σ.next

/-- A result of the model, with the heap. -/
def ret {α : Type} (v : α → Val) (σ : Heap) : Py α → R (Val × Heap)
  | .ok a => .ok (v a, σ)
  | .error e => .error (.raised e)

theorem pin_run {w : Scope} (H : Imported w) (n : Nat) (cp : Int) (σ : Heap) :
    callName w (run w (n + 1)) (n% "_pinCodePoint") [.int cp] σ = .ok (.int (USet.pinCodePoint cp), σ) := by
  rw [fn_doc H.pin rfl]
  cases h1 : decide (cp < 0) with
  | true => py_heap [H.low, h1, show USet.pinCodePoint cp = 0 from if_pos (of_decide_eq_true h1)]
  | false =>
    cases h2 : decide (0x110000 - 1 < cp) with
    | true =>
      py_heap [H.low, H.high, h1, h2,
        show USet.pinCodePoint cp = 0x110000 - 1 from (if_neg (of_decide_eq_false h1)).trans (if_pos (of_decide_eq_true h2))]
    | false =>
      py_heap [H.low, H.high, h1, h2,
        show USet.pinCodePoint cp = cp from (if_neg (of_decide_eq_false h1)).trans (if_neg (of_decide_eq_false h2))]

/-- The variables of the loop of `_findCodePoint`. -/
def findEnv (x : Nat) (cp : Int) (length : Nat) (lo hi : Nat) (i : List (Nat × Val)) : Env :=
  [(n% "self", .ref x), (n% "cp", .int cp), (n% "length", .int length), (n% "lo", .int lo), (n% "hi", .int hi)] ++ i

/-- UnicodeSet.py:88-96, what is repeated. -/
def findBody : Stmt :=
  (.seq (.assign (.name (n% "i")) (.bin .shr (.bin .add (.name (n% "lo")) (.name (n% "hi"))) (.num 1)))
  (.seq (.ifs (.bin .eq (.name (n% "i")) (.name (n% "lo"))) (.seq .brk .skip) .skip)
  (.seq (.ifs (.bin .lt (.name (n% "cp")) (.index (.attr (.name (n% "self")) (n% "list")) (.name (n% "i"))))
    (.seq (.assign (.name (n% "hi")) (.name (n% "i"))) .skip) (.seq (.assign (.name (n% "lo")) (.name (n% "i"))) .skip)) .skip)))

theorem find_loop {w : Scope} (H : Imported w) (call : Call) (N : Nat) {σ : Heap} {x r : Nat} {l : List Int} (S : IsSet σ x r l) (cp : Int)
    (k : Nat) : ∀ (fuel n lo hi : Nat) (v : List (Nat × Val)), fuel ≤ n → v = [] ∨ (∃ u, v = [(n% "i", u)]) →
    match USet.findLoop l cp fuel lo hi with
    | .ok a => ∃ lo' v', whileLoop w call N (.name (n% "True")) findBody n ⟨findEnv x cp k lo hi v, [], σ⟩
        = .ok (.next, ⟨findEnv x cp k lo' a v', [], σ⟩)
    | .error .diverges => True
    | .error e => whileLoop w call N (.name (n% "True")) findBody n ⟨findEnv x cp k lo hi v, [], σ⟩ = .error (.raised e) := by
  intro fuel
  induction fuel with
  | zero => intros; trivial
  | succ fuel ih =>
    intro n lo hi v hn hv
    obtain ⟨n, rfl⟩ : ∃ m, n = m + 1 := ⟨n - 1, by omega⟩
    have hd : ((lo : Int) + hi) / 2 ^ (1 : Int).toNat = (((lo + hi) / 2 : Nat) : Int) := by simp
    have ht : test w call (.name (n% "True")) ⟨findEnv x cp k lo hi v, [], σ⟩ = .ok (true, ⟨findEnv x cp k lo hi v, [], σ⟩) :=
      test_true H.true' (by rcases hv with rfl | ⟨u, rfl⟩ <;> rfl)
    simp only [USet.findLoop]
    by_cases h1 : (lo + hi) / 2 = lo
    · rw [if_pos h1]
      refine ⟨lo, [(n% "i", .int ((lo + hi) / 2 : Nat))], while_brk ht ?_⟩
      rcases hv with rfl | ⟨u, rfl⟩ <;>
        py_heap [findEnv, List.cons_append, List.nil_append, findBody, hd, PyRun.cast_eq, h1]
    · rw [if_neg h1]
      have hg := get_vals l ((lo + hi) / 2 : Nat)
      cases h2 : pyGet l ((lo + hi) / 2 : Nat) with
      | error e =>
        rw [h2] at hg
        have : exec w call N findBody ⟨findEnv x cp k lo hi v, [], σ⟩ = .error (.raised e) := by
          rcases hv with rfl | ⟨u, rfl⟩ <;>
            py_heap [findEnv, List.cons_append, List.nil_append, findBody, hd, PyRun.cast_eq, h1, S.obj, S.cell, hg]
        cases e <;> first | exact while_error ht this | trivial
      | ok li =>
        rw [h2] at hg
        simp only [Bind.bind, Except.bind]
        cases h3 : decide (cp < li) with
        | true =>
          have : exec w call N findBody ⟨findEnv x cp k lo hi v, [], σ⟩
              = .ok (.next, ⟨findEnv x cp k lo ((lo + hi) / 2) [(n% "i", .int ((lo + hi) / 2 : Nat))], [], σ⟩) := by
            rcases hv with rfl | ⟨u, rfl⟩ <;>
              py_heap [findEnv, List.cons_append, List.nil_append, findBody, hd, PyRun.cast_eq, h1, S.obj, S.cell, hg, h3]
          rw [if_pos (of_decide_eq_true h3), while_next ht this]
          exact ih n lo ((lo + hi) / 2) _ (by omega) (.inr ⟨_, rfl⟩)
        | false =>
          have : exec w call N findBody ⟨findEnv x cp k lo hi v, [], σ⟩
              = .ok (.next, ⟨findEnv x cp k ((lo + hi) / 2) hi [(n% "i", .int ((lo + hi) / 2 : Nat))], [], σ⟩) := by
            rcases hv with rfl | ⟨u, rfl⟩ <;>
              py_heap [findEnv, List.cons_append, List.nil_append, findBody, hd, PyRun.cast_eq, h1, S.obj, S.cell, hg, h3]
          rw [if_neg (of_decide_eq_false h3), while_next ht this]
          exact ih n ((lo + hi) / 2) hi _ (by omega) (.inr ⟨_, rfl⟩)

theorem findLoop_total (l : List Int) (cp : Int) : ∀ (fuel lo hi : Nat), hi < fuel + lo → lo < hi → USet.findLoop l cp fuel lo hi ≠ .error .diverges := by
  intro fuel
  induction fuel with
  | zero => intros; omega
  | succ fuel ih =>
    intro lo hi h h'
    simp only [USet.findLoop, Bind.bind, Except.bind]
    split
    · simp
    · split
      · rename_i h
        intro he
        unfold pyGet at h
        rw [Except.error.inj he] at h
        repeat' split at h
        all_goals simp at h
      · split
        · exact ih _ _ (by omega) (by omega)
        · exact ih _ _ (by omega) (by omega)

theorem pyGet_total {α : Type} (l : List α) (i : Int) : pyGet l i ≠ .error .diverges := by
  unfold pyGet
  repeat' split
  all_goals simp

theorem find_run {w : Scope} (H : Imported w) (n : Nat) {σ : Heap} {x r : Nat} {l : List Int} (S : IsSet σ x r l) (cp : Int) (hn : l.length ≤ n) :
    method w (run w (n + 1)) (n% "UnicodeSet") (n% "_findCodePoint") [.ref x, .int cp] σ = ret (fun i : Nat => .int i) σ (USet.findCodePoint l cp) := by
  rw [method_doc H._findCodePoint rfl]
  simp only [USet.findCodePoint, Bind.bind, Except.bind]
  have h0 := get_vals l 0
  cases e0 : pyGet l 0 with
  | error e =>
    rw [e0] at h0
    py_heap [S.obj, S.cell, h0, ret]
  | ok l0 =>
    rw [e0] at h0
    cases h1 : decide (cp < l0) with
    | true =>
      py_heap [S.obj, S.cell, h0, h1, ret, if_pos (of_decide_eq_true h1), Pure.pure, Except.pure, Int.natCast_zero]
    | false =>
      have hl : 0 < l.length := by
        cases l with
        | nil => simp [pyGet] at e0
        | cons a l => simp
      have hlen : (l.length : Int) - 1 = ((l.length - 1 : Nat) : Int) := by omega
      have hle (a : Nat) : ((a : Int) ≤ 0) = (a ≤ 0) := by simp
      cases h2 : decide (l.length - 1 ≤ 0) with
      | true =>
        py_heap [S.obj, S.cell, h0, h1, H.len, hlen, hle, h2, ret, if_neg (of_decide_eq_false h1), if_pos (of_decide_eq_true h2), ge_iff_le, Pure.pure, Except.pure]
      | false =>
        have hg := get_vals l (((l.length - 1 : Nat) : Int) - 1)
        cases eh : pyGet l (((l.length - 1 : Nat) : Int) - 1) with
        | error e =>
          rw [eh] at hg
          py_heap [S.obj, S.cell, h0, h1, H.len, hlen, hle, h2, hg, ret, if_neg (of_decide_eq_false h1), if_neg (of_decide_eq_false h2), ge_iff_le]
        | ok lh =>
          rw [eh] at hg
          cases h3 : decide (lh ≤ cp) with
          | true =>
            py_heap [S.obj, S.cell, h0, h1, H.len, hlen, hle, h2, hg, h3, ret, if_neg (of_decide_eq_false h1), if_neg (of_decide_eq_false h2),
              if_pos (of_decide_eq_true h3), ge_iff_le, Pure.pure, Except.pure]
          | false =>
            have hloop := find_loop H (run w n) n S cp l.length l.length n 0 (l.length - 1) [] hn (.inl rfl)
            have htot := findLoop_total l cp l.length 0 (l.length - 1) (by omega) (by have := of_decide_eq_false h2; omega)
            simp only [if_neg (of_decide_eq_false h1), if_neg (of_decide_eq_false h2), if_neg (of_decide_eq_false h3), ge_iff_le]
            cases ef : USet.findLoop l cp l.length 0 (l.length - 1) with
            | ok a =>
              rw [ef] at hloop
              obtain ⟨lo', v', hloop⟩ := hloop
              simp only [findEnv, findBody, List.cons_append, List.nil_append, Int.natCast_zero] at hloop
              py_heap [S.obj, S.cell, h0, h1, H.len, hlen, hle, h2, hg, h3, ret, hloop]
            | error e =>
              rw [ef] at hloop htot
              have hloop : whileLoop w (run w n) n (.name (n% "True")) findBody n ⟨findEnv x cp l.length 0 (l.length - 1) [], [], σ⟩ = .error (.raised e) := by
                cases e <;> first | exact hloop | exact absurd rfl htot
              simp only [findEnv, findBody, List.cons_append, List.nil_append, Int.natCast_zero] at hloop
              py_heap [S.obj, S.cell, h0, h1, H.len, hlen, hle, h2, hg, h3, ret, hloop]

/-- The variables of the loops that merge two lists. -/
def mergeEnv (x o n : Nat) (p : Int) (i j : Nat) (a b : Int) : Env :=
  [(n% "self", .ref x), (n% "other", .ref o), (n% "polarity", .int p), (n% "buffer", .ref n), (n% "i", .int i), (n% "j", .int j), (n% "a", .int a),
    (n% "b", .int b)]

/-- The value of `polarity`. -/
def pol : Bool → Bool → Int
  | false, false => 0
  | true, false => 1
  | false, true => 2
  | true, true => 3

/-- A loop that merges two lists ends with the buffer of the model. -/
def Merged (res : R (Flow × St)) (x o : Nat) (σ : Heap) : Py (List Int) → Prop
  | .ok buf => ∃ (p : Int) (i j : Nat) (a b : Int), res = .ok (.next, ⟨mergeEnv x o σ.next p i j a b, [], σ.push (.list (bufOf buf))⟩)
  | .error .diverges => True
  | .error e => res = .error (.raised e)

theorem merged_step {w : Scope} {call : Call} {N n x o : Nat} {c : Expr} {b : Stmt} {s s' : St} {σ : Heap} {r : Py (List Int)}
    (hc : test w call c s = .ok (true, s)) (hb : exec w call N b s = .ok (.next, s')) (h : Merged (whileLoop w call N c b n s') x o σ r) :
    Merged (whileLoop w call N c b (n + 1) s) x o σ r := by
  rw [while_next hc hb]; exact h

theorem merged_brk {w : Scope} {call : Call} {N n x o : Nat} {c : Expr} {b : Stmt} {s : St} {σ : Heap} {buf : List Int} {p a b1 : Int} {i j : Nat}
    (hc : test w call c s = .ok (true, s)) (hb : exec w call N b s = .ok (.brk, ⟨mergeEnv x o σ.next p i j a b1, [], σ.push (.list (bufOf buf))⟩)) :
    Merged (whileLoop w call N c b (n + 1) s) x o σ (.ok buf) := by
  rw [while_brk hc hb]; exact ⟨p, i, j, a, b1, rfl⟩

theorem merged_error {w : Scope} {call : Call} {N n x o : Nat} {c : Expr} {b : Stmt} {s : St} {σ : Heap} {e : PyErr}
    (hc : test w call c s = .ok (true, s)) (hb : exec w call N b s = .error (.raised e)) :
    Merged (whileLoop w call N c b (n + 1) s) x o σ (.error e) := by
  rw [while_error hc hb]
  cases e <;> first | exact rfl | trivial

theorem get_ok {l : List Int} {i a : Int} (h : pyGet l i = .ok a) : pyGet (vals l) i = .ok (.int a) := by rw [get_vals, h]; rfl

theorem get_error {l : List Int} {i : Int} {e : PyErr} (h : pyGet l i = .error e) : pyGet (vals l) i = .error e := by rw [get_vals, h]; rfl

/-- The heap after the list of a set was replaced by a new one. -/
def rebound (σ : Heap) (x : Nat) (l : List Int) : Heap :=
  (σ.push (.list (vals l))).set x (.obj (n% "UnicodeSet") [(n% "list", .ref σ.next)])

/-- A method that replaces the list of set `x` and returns the set. -/
def rebind (σ : Heap) (x : Nat) : Py (List Int) → R (Val × Heap)
  | .ok l => .ok (.ref x, rebound σ x l)
  | .error e => .error (.raised e)

theorem bufOf_high (b : List Int) : bufOf (0x110000 :: b) = vals (b.reverse ++ [USet.HIGH]) := by simp [bufOf, vals, USet.HIGH]

end Verif.PyHeap

import Verif.Lemmas.PyRun
import Verif.Model.PyHeap
import Verif.Model.UnicodeSet
/-! # Executing statements that change lists and objects symbolically -/
namespace Verif.PyHeap
open Verif.PySyntax
open Verif.PyRun (R Err lift bound)

theorem andThen_match {α β : Type} (x : R (α × Heap)) (f : α → Heap → R (β × Heap)) :
    andThen x f = match x with | .ok p => f p.1 p.2 | .error e => .error e := by
  rcases x with _ | ⟨_, _⟩ <;> rfl

theorem run_succ (w : Scope) (n : Nat) (ps : Expr) (b : Stmt) (args : List Val) (h : Heap) : run w (n + 1) ps b args h =
    match arguments default ps args with
    | .ok env =>
      match exec w (run w n) n b ⟨env, [], h⟩ with
      | .ok r => finish (PyRun.yields b) r.1 r.2
      | .error e => .error e
    | .error e => .error e := by
  rw [run, PyRun.bind_match]
  cases arguments default ps args with
  | error e => rfl
  | ok env =>
    simp only [PyRun.bind_match]
    cases exec w (run w n) n b ⟨env, [], h⟩ <;> rfl

/-- The loop of a `while` statement. -/
def whileLoop (w : Scope) (call : Call) (N : Nat) (c : Expr) (b : Stmt) (n : Nat) (s : St) : R (Flow × St) :=
  loop (test w call c) (exec w call N b) n s

/-- The loop of a `for` statement. -/
def forLoop (w : Scope) (call : Call) (N x : Nat) (b : Stmt) (vs : List Val) (s : St) : R (Flow × St) := each x (exec w call N b) vs s

theorem exec_while (w : Scope) (call : Call) (N : Nat) (c : Expr) (b : Stmt) (s : St) :
    exec w call N (.while c b) s = whileLoop w call N c b N s := rfl

theorem exec_for (w : Scope) (call : Call) (N x : Nat) (it : Expr) (b : Stmt) (s : St) :
    exec w call N (.for (.name x) it b) s =
      match eval w call s.env it s.heap with
      | .ok p =>
        match iter p.1 p.2 with
        | .ok vs => forLoop w call N x b vs { s with heap := p.2 }
        | .error e => .error e
      | .error e => .error e := by
  rw [exec, PyRun.bind_match]
  cases eval w call s.env it s.heap with
  | error e => rfl
  | ok p =>
    simp only [PyRun.bind_match]
    cases iter p.1 p.2 <;> rfl

theorem while_next {w : Scope} {call : Call} {N n : Nat} {c : Expr} {b : Stmt} {s s' : St} (hc : test w call c s = .ok (true, s))
    (hb : exec w call N b s = .ok (.next, s')) : whileLoop w call N c b (n + 1) s = whileLoop w call N c b n s' := by
  rw [whileLoop, loop, hc, PyRun.bind_match]
  simp only [if_true, hb, PyRun.bind_match]; rfl

theorem while_brk {w : Scope} {call : Call} {N n : Nat} {c : Expr} {b : Stmt} {s s' : St} (hc : test w call c s = .ok (true, s))
    (hb : exec w call N b s = .ok (.brk, s')) : whileLoop w call N c b (n + 1) s = .ok (.next, s') := by
  rw [whileLoop, loop, hc, PyRun.bind_match]
  simp only [if_true, hb, PyRun.bind_match]

theorem while_error {w : Scope} {call : Call} {N n : Nat} {c : Expr} {b : Stmt} {s : St} {e : Err} (hc : test w call c s = .ok (true, s))
    (hb : exec w call N b s = .error e) : whileLoop w call N c b (n + 1) s = .error e := by
  rw [whileLoop, loop, hc, PyRun.bind_match]
  simp only [if_true, hb, PyRun.bind_match]

theorem for_nil {w : Scope} {call : Call} {N x : Nat} {b : Stmt} {s : St} : forLoop w call N x b [] s = .ok (.next, s) := rfl

theorem for_next {w : Scope} {call : Call} {N x : Nat} {b : Stmt} {v : Val} {vs : List Val} {s s' : St}
    (hb : exec w call N b { s with env := setVar x v s.env } = .ok (.next, s')) :
    forLoop w call N x b (v :: vs) s = forLoop w call N x b vs s' := by
  rw [forLoop, each, PyRun.bind_match, hb]; rfl

theorem for_brk {w : Scope} {call : Call} {N x : Nat} {b : Stmt} {v : Val} {vs : List Val} {s s' : St}
    (hb : exec w call N b { s with env := setVar x v s.env } = .ok (.brk, s')) :
    forLoop w call N x b (v :: vs) s = .ok (.next, s') := by
  rw [forLoop, each, PyRun.bind_match, hb]

theorem for_ret {w : Scope} {call : Call} {N x : Nat} {b : Stmt} {v u : Val} {vs : List Val} {s s' : St}
    (hb : exec w call N b { s with env := setVar x v s.env } = .ok (.ret u, s')) :
    forLoop w call N x b (v :: vs) s = .ok (.ret u, s') := by
  rw [forLoop, each, PyRun.bind_match, hb]

theorem for_error {w : Scope} {call : Call} {N x : Nat} {b : Stmt} {v : Val} {vs : List Val} {s : St} {e : Err}
    (hb : exec w call N b { s with env := setVar x v s.env } = .error e) :
    forLoop w call N x b (v :: vs) s = .error e := by
  rw [forLoop, each, PyRun.bind_match, hb]

theorem test_true {w : Scope} {call : Call} {s : St} (hw : w.find 0 (n% "True") = none) (h : getVar (n% "True") s.env = none) :
    test w call (.name (n% "True")) s = .ok (true, s) := by
  rw [test, eval, nameValue, h]
  simp only [hw, if_true]; rfl

theorem exec_doc (w : Scope) (call : Call) (n : Nat) (s : Str) (b : Stmt) (st : St) :
    exec w call n (.seq (.expr (.str s)) b) st = exec w call n b st := rfl

theorem yields_doc (s : Str) (b : Stmt) : PyRun.yields (.seq (.expr (.str s)) b) = PyRun.yields b := rfl

theorem cell_set (h : Heap) (r a : Nat) (c : Cell) : (h.set r c).cell a = if a = r then some c else h.cell a := rfl
theorem cell_push (h : Heap) (a : Nat) (c : Cell) : (h.push c).cell a = if a = h.next then some c else h.cell a := rfl
theorem next_set (h : Heap) (r : Nat) (c : Cell) : (h.set r c).next = h.next := rfl
theorem next_push (h : Heap) (c : Cell) : (h.push c).next = h.next + 1 := rfl

theorem push_set (h : Heap) (c c' : Cell) : (h.push c).set h.next c' = h.push c' := by
  simp only [Heap.push, Heap.set, Heap.mk.injEq, true_and]
  funext a; split <;> rfl

theorem set_set (h : Heap) (r : Nat) (c c' : Cell) : (h.set r c).set r c' = h.set r c' := by
  simp only [Heap.set, Heap.mk.injEq, true_and]
  funext a; split <;> rfl

/-- A list of ints as a list of values. -/
def vals (l : List Int) : List Val := l.map .int

theorem vals_length (l : List Int) : (vals l).length = l.length := List.length_map ..

theorem get_vals (l : List Int) (i : Int) : pyGet (vals l) i = (pyGet l i).map Val.int := by
  unfold pyGet vals
  simp only [List.getElem?_map, List.length_map]
  split
  · cases l[i.toNat]? <;> rfl
  · split
    · cases l[(l.length + i).toNat]? <;> rfl
    · rfl

theorem pop_drop (l : List Int) (i : Nat) : USet.pop (l.drop i) = (pyGet l (i : Int)).map fun v => (v, l.drop (i + 1)) := by
  rw [pyGet, if_pos (by omega), Int.toNat_natCast]
  cases h : l[i]? with
  | none =>
    rw [List.drop_eq_nil_of_le (by simpa using h)]; rfl
  | some v =>
    obtain ⟨hi, hv⟩ := List.getElem?_eq_some_iff.1 h
    rw [List.drop_eq_getElem_cons hi, hv]; rfl

theorem pop_all (l : List Int) : USet.pop l = (pyGet l 0).map fun v => (v, l.drop 1) := pop_drop l 0

/-- The buffer of the model is reversed. -/
def bufOf (b : List Int) : List Val := vals b.reverse

theorem bufOf_append (b : List Int) (a : Int) : bufOf b ++ [.int a] = bufOf (a :: b) := by
  simp [bufOf, vals]

theorem bufOf_nil : bufOf [] = [] := rfl

theorem bufOf_length (b : List Int) : (bufOf b).length = b.length := by simp [bufOf, vals]

theorem bufOf_last (b : List Int) (a : Int) : pyGet (bufOf (a :: b)) (-1) = .ok (.int a) := by
  rw [← bufOf_append, pyGet, if_neg (by omega), List.length_append, List.length_singleton, if_pos (by omega),
    show (((bufOf b).length + 1 : Nat) : Int) + -1 = ((bufOf b).length : Nat) by omega, Int.toNat_natCast, List.getElem?_concat_length]

theorem bufOf_getLast (b : List Int) (a : Int) : (bufOf (a :: b)).getLast? = some (.int a) := by
  rw [← bufOf_append]; simp

theorem bufOf_dropLast (b : List Int) (a : Int) : (bufOf (a :: b)).dropLast = bufOf b := by
  rw [← bufOf_append]; simp

/-- The function that a statement defines. -/
def fnOf : Stmt → Option Def
  | .defn _ ps b => some (.fn ps b)
  | _ => none

/-- The body of a function after its documentation, in a call with the variables `env`. -/
def runBody (w : Scope) (n : Nat) (b : Stmt) (env : R Env) (h : Heap) : R (Val × Heap) :=
  match env with
  | .ok env =>
    match exec w (run w n) n b ⟨env, [], h⟩ with
    | .ok r => finish (PyRun.yields b) r.1 r.2
    | .error e => .error e
  | .error e => .error e

theorem fn_doc {w : Scope} {n f x : Nat} {args : List Val} {h : Heap} {d b : Stmt} {ps : Expr} {s : Str}
    (hf : w.find 0 f = fnOf d) (hd : d = .defn x ps (.seq (.expr (.str s)) b)) :
    callName w (run w (n + 1)) f args h = runBody w n b (arguments default ps args) h := by
  rw [callName, hf, hd]
  exact run_succ w n ps _ args h

theorem method_doc {w : Scope} {n c f x : Nat} {args : List Val} {h : Heap} {d b : Stmt} {ps : Expr} {s : Str}
    (hf : w.find c f = fnOf d) (hd : d = .defn x ps (.seq (.expr (.str s)) b)) :
    method w (run w (n + 1)) c f args h = runBody w n b (arguments default ps args) h := by
  rw [method, hf, hd]
  exact run_succ w n ps _ args h

theorem method_plain {w : Scope} {n c f x : Nat} {args : List Val} {h : Heap} {d b : Stmt} {ps : Expr}
    (hf : w.find c f = fnOf d) (hd : d = .defn x ps b) :
    method w (run w (n + 1)) c f args h = runBody w n b (arguments default ps args) h := by
  rw [method, hf, hd]
  exact run_succ w n ps _ args h

theorem listEq_vals (l m : List Int) : listEq (vals l) (vals m) = .ok (decide (l = m)) := by
  induction l generalizing m with
  | nil => cases m <;> simp [listEq, vals]
  | cons a l ih =>
    cases m with
    | nil => simp [listEq, vals]
    | cons b m =>
      have := ih m
      simp only [vals, List.map_cons, listEq] at this ⊢
      by_cases h : a = b
      · simp [h, this]
      · simp [h]

theorem position_nat (n i : Nat) : position n (i : Int) = if i < n then .ok i else .error .indexError := by
  rw [position, if_pos (by omega)]
  simp

theorem xor01 : PyExpr.pyXor 0 1 = 1 := rfl
theorem xor11 : PyExpr.pyXor 1 1 = 0 := rfl
theorem xor21 : PyExpr.pyXor 2 1 = 3 := rfl
theorem xor31 : PyExpr.pyXor 3 1 = 2 := rfl
theorem xor02 : PyExpr.pyXor 0 2 = 2 := rfl
theorem xor12 : PyExpr.pyXor 1 2 = 3 := rfl
theorem xor22 : PyExpr.pyXor 2 2 = 0 := rfl
theorem xor32 : PyExpr.pyXor 3 2 = 1 := rfl

theorem call_builtin {w : Scope} {f : Nat} (call : Call) (args : List Val) (h : Heap) (hf : w.find 0 f = none) :
    callName w call f args h = match builtin f args h with | .ok v => .ok (v, h) | .error e => .error e := by
  rw [callName, hf]
  simp only [PyRun.bind_match]
  cases builtin f args h <;> rfl

theorem call_class {w : Scope} {f : Nat} (call : Call) (args : List Val) (h : Heap) (hf : w.find 0 f = some .cls) :
    callName w call f args h =
      match method w call f (n% "__init__") (.ref h.next :: args) (h.push (.obj f [])) with
      | .ok p => .ok (.ref h.next, p.2)
      | .error e => .error e := by
  rw [callName, hf]
  simp only [andThen_match]
  cases method w call f (n% "__init__") (.ref h.next :: args) (h.push (.obj f [])) <;> rfl

theorem cast_two : ((2 : Nat) : Int) = 2 := rfl

macro "py_heap" "[" ls:Lean.Parser.Tactic.simpLemma,* "]" : tactic => `(tactic|
  simp only [↓PyRun.bind_match, ↓PyRun.map_match, ↓andThen_match, lift, ↓exec_while, ↓exec_for, runBody, finish, arguments, default, exec, eval, evals,
    nameValue, getVar, setVar, assign, augment, apply, ints, test, Val.truth, index, setIndex, setAttr, attr, call_builtin, call_class, callMethod, listMethod, builtin,
    typeOf, same, elements, slice, splice, bounds,
    PyRun.yields, Bool.or_self, Bool.false_eq_true, cell_set, cell_push, next_set, next_push, push_set, Except.map,
    Nat.reduceEqDiff, Nat.reduceAdd, Nat.reduceSub, Nat.reducePow, ↓reduceIte, Int.toNat_natCast, decide_not, not_false_eq_true,
    vals_length, bufOf_append, bufOf_length, bufOf_last, bufOf_getLast, bufOf_dropLast, decide_true, decide_false, reduceCtorEq,
    Int.cast_ofNat_Int, Int.reduceEq, Int.reduceLT, Int.reduceLE, Bool.not_true, Bool.not_false, Bool.or_false, Bool.false_or,
    $ls,*])

end Verif.PyHeap

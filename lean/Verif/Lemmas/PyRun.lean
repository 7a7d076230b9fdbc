import Verif.Model.Library
import Verif.Data.Syntax
/-! # Executing statements symbolically

`py_run` computes what a statement does. Non-negative ints are kept as casts of natural numbers.
-/
namespace Verif.PyRun
open Verif.PySyntax

theorem bind_match {α β : Type} (x : R α) (f : α → R β) : (x >>= f) = match x with | .ok v => f v | .error e => .error e := by
  cases x <;> rfl

theorem map_match {α β : Type} (x : R α) (f : α → β) : Except.map f x = match x with | .ok v => .ok (f v) | .error e => .error e := by
  cases x <;> rfl

theorem pyBind_match {α β : Type} (x : Py α) (f : α → Py β) : (x >>= f) = match x with | .ok v => f v | .error e => .error e := by
  cases x <;> rfl

theorem pyMap_match {α β : Type} (x : Py α) (f : α → β) : Except.map f x = match x with | .ok v => .ok (f v) | .error e => .error e := by
  cases x <;> rfl

theorem shr_nat (a n : Nat) : (a : Int) / 2 ^ n = ((a >>> n : Nat) : Int) := by
  rw [Nat.shiftRight_eq_div_pow]; norm_cast

theorem shl_nat (a n : Nat) : (a : Int) * 2 ^ n = ((a <<< n : Nat) : Int) := by
  rw [Nat.shiftLeft_eq]; norm_cast

theorem and_nat (a b : Nat) : pyAnd (a : Int) (b : Int) = ((a &&& b : Nat) : Int) := rfl

theorem or_nat (a b : Nat) : PyExpr.pyOr (a : Int) (b : Int) = ((a ||| b : Nat) : Int) := by
  have h (n : Nat) : -1 - (n : Int) = Int.negSucc n := by omega
  rw [PyExpr.pyOr, h, h, pyAnd]; omega

theorem mul_nat (a b : Nat) : (a : Int) * (b : Int) = ((a * b : Nat) : Int) := (Int.natCast_mul a b).symm

theorem not_neg (a : Nat) : ((a : Int) < 0) = False := eq_false (by omega)

theorem cast_eq (a b : Nat) : decide ((a : Int) = b) = decide (a = b) := decide_eq_decide.2 Int.ofNat_inj

theorem cast_ne (a b : Nat) : decide ((a : Int) ≠ b) = !decide (a = b) := by
  rw [decide_not, cast_eq]

theorem cast_lt (a b : Nat) : intLt a b = decide (a < b) := rfl

theorem cast_le (a b : Nat) : (!intLt b a) = decide (a ≤ b) := by
  rw [cast_lt, ← decide_not]; exact decide_eq_decide.2 Nat.not_lt

theorem intLt_eq (a b : Int) : intLt a b = decide (a < b) := by
  cases a <;> cases b <;> simp [intLt] <;> omega

theorem run_succ (w : World) (n m : Nat) (ps : Expr) (b : Stmt) (args : Val) : run w (n + 1) m ps b args =
    match arguments (eval w (run w n) m []) ps args with
    | .ok env =>
      match exec w (run w n) n m b (env, []) with
      | .ok r => finish (yields b) r.1 r.2
      | .error e => .error e
    | .error e => .error e := by
  rw [run, bind_match]
  cases arguments (eval w (run w n) m []) ps args with
  | error e => rfl
  | ok env =>
    simp only [bind_match]
    cases exec w (run w n) n m b (env, []) <;> rfl

theorem and_ok (a b : Bool) : (if a = true then (.ok (.bool b) : R Val) else .ok (.bool a)) = .ok (.bool (a && b)) := by cases a <;> rfl

theorem or_ok (a b : Bool) : (if a = true then (.ok (.bool a) : R Val) else .ok (.bool b)) = .ok (.bool (a || b)) := by cases a <;> rfl

/-- The function that a statement defines. -/
def fnOf (m : Nat) : Stmt → Option Def
  | .defn _ ps b => some (.fn m ps b false)
  | _ => none

theorem fn_call {w : World} {call : Call} {m m' f x : Nat} {args : Val} {d b : Stmt} {ps : Expr}
    (h : w.find m 0 f = fnOf m' d) (hd : d = .defn x ps b) : callName w call m f args = (call m' ps b args).map Prod.fst := by
  simp only [callName, h, hd, fnOf]

theorem builtin_call {w : World} {call : Call} {m f : Nat} {args : Val} (h : w.find m 0 f = none) :
    callName w call m f args = builtin f args := by
  simp only [callName, h]

/-- The names, when there is no exception. -/
def scopeOf : R Scope → Scope
  | .ok s => s
  | .error _ => []

theorem getVar_setVar (x y : Nat) (v : Val) (env : Env) : getVar x (setVar y v env) = if y = x then some v else getVar x env := by
  induction env with
  | nil => simp only [setVar, getVar]
  | cons p env ih =>
    rw [setVar]
    by_cases h : p.1 = y
    · rw [if_pos h, getVar, getVar, h]
      by_cases h' : y = x
      · rw [if_pos h', if_pos h']
      · rw [if_neg h', if_neg h', if_neg h']
    · rw [if_neg h, getVar, getVar, ih]
      by_cases h' : p.1 = x
      · rw [if_pos h', if_pos h', if_neg (by rw [← h']; exact fun e => h e.symm)]
      · rw [if_neg h', if_neg h']

macro "py_run" "[" ls:Lean.Parser.Tactic.simpLemma,* "]" : tactic => `(tactic|
  simp only [↓bind_match, ↓map_match, ↓pyBind_match, ↓pyMap_match, lift, Pure.pure, Except.pure, fnOf, run_succ,
    finish, arguments, exec, eval, effect, nameValue, getVar, setVar, assign, Op.apply, Op.ints, Val.truth, yields, Bool.or_self, Bool.false_eq_true,
    Nat.reduceEqDiff, Nat.reduceAdd, Nat.reduceSub, Nat.reducePow, ↓reduceIte, Int.toNat_natCast, not_neg, shr_nat, shl_nat, and_nat, or_nat, decide_not,
    ← Int.natCast_add, cast_eq, cast_ne, ↓cast_le, cast_lt, not_false_eq_true, and_ok, or_ok,
    $ls,*])

end Verif.PyRun

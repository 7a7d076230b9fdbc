import Verif.Model.PyHeap
import Verif.Model.UnicodeSetHeap
/-!
# Programs that use `UnicodeSet` objects

A program of `Model/UnicodeSetHeap` as the calls that it makes: the constructor and the methods of the class in UnicodeSet.py, executed by
`Model/PyHeap`. The program keeps every set that it got from a call in a variable; `vars` has the objects, in the order in which they were made.
-/
namespace Verif.PyHeap
open Verif.PySyntax
open Verif.PyRun (R)

/-- The object in a variable. Using a variable without an object is a `NameError`, modelled as `attributeError`, as in `Model/UnicodeSetHeap`. -/
def variable' (vars : List Nat) (x : Nat) : R Val :=
  match vars[x]? with
  | some a => .ok (.ref a)
  | none => .error (.raised .attributeError)

/-- `x.f(args)` with ints as arguments. -/
def callInts (w : Scope) (n : Nat) (vars : List Nat) (x f : Nat) (args : List Int) (σ : Heap) : R (Val × Heap) := do
  let v ← variable' vars x
  callMethod w (run w n) v f (args.map .int) σ

/-- `x.f(y)` -/
def callSet (w : Scope) (n : Nat) (vars : List Nat) (x f y : Nat) (σ : Heap) : R (Val × Heap) := do
  let v ← variable' vars x
  let u ← variable' vars y
  callMethod w (run w n) v f [u] σ

/-- `UnicodeSet(args)` -/
def callNew (w : Scope) (n : Nat) (args : List Val) (σ : Heap) : R (Val × Heap) := callName w (run w n) (n% "UnicodeSet") args σ

/-- One call of a program. -/
def callOp (w : Scope) (n : Nat) (vars : List Nat) (op : USet.Op) (σ : Heap) : R (Val × Heap) :=
  match op with
  | .new => callNew w n [] σ
  | .newCopy x => do
    let v ← variable' vars x
    callNew w n [v] σ
  | .newInt cp => callNew w n [.int cp] σ
  | .newRange s e => callNew w n [.range s e 1] σ
  | .add x cp => callInts w n vars x (n% "add") [cp] σ
  | .addRange x s e => callInts w n vars x (n% "addRange") [s, e] σ
  | .addAll x y => callSet w n vars x (n% "addAll") y σ
  | .remove x cp => callInts w n vars x (n% "remove") [cp] σ
  | .removeRange x s e => callInts w n vars x (n% "removeRange") [s, e] σ
  | .removeAll x y => callSet w n vars x (n% "removeAll") y σ
  | .retain x cp => callInts w n vars x (n% "retain") [cp] σ
  | .retainRange x s e => callInts w n vars x (n% "retainRange") [s, e] σ
  | .retainAll x y => callSet w n vars x (n% "retainAll") y σ
  | .complement x => callInts w n vars x (n% "complement") [] σ
  | .complementInt x cp => callInts w n vars x (n% "complement") [cp] σ
  | .complementPyRange x s e => do
    let v ← variable' vars x
    callMethod w (run w n) v (n% "complement") [.range s e 1] σ
  | .complementRange x s e => callInts w n vars x (n% "complementRange") [s, e] σ
  | .complementAll x y => callSet w n vars x (n% "complementAll") y σ
  | .clear x => callInts w n vars x (n% "clear") [] σ
  | .union x y => callSet w n vars x (n% "union") y σ
  | .intersection x y => callSet w n vars x (n% "intersection") y σ
  | .difference x y => callSet w n vars x (n% "difference") y σ
  | .symmetricDifference x y => callSet w n vars x (n% "symmetric_difference") y σ

/-- The calls whose result is kept in a new variable. -/
def makes : USet.Op → Bool
  | .new => true
  | .newCopy _ => true
  | .newInt _ => true
  | .newRange _ _ => true
  | .union _ _ => true
  | .intersection _ _ => true
  | .difference _ _ => true
  | .symmetricDifference _ _ => true
  | _ => false

/-- The variables after a call with result `v`. -/
def keep (vars : List Nat) (op : USet.Op) (v : Val) : R (List Nat) :=
  if makes op then
    match v with
    | .ref a => .ok (vars ++ [a])
    | _ => .error .stuck
  else .ok vars

/-- A program, with the values that its calls returned. -/
def runOps (w : Scope) (n : Nat) : List USet.Op → List Nat → Heap → R (List Nat × Heap × List Val)
  | [], vars, σ => .ok (vars, σ, [])
  | op :: ops, vars, σ => do
    let p ← callOp w n vars op σ
    let vars ← keep vars op p.1
    let r ← runOps w n ops vars p.2
    .ok (r.1, r.2.1, p.1 :: r.2.2)

/-- `c in x` -/
def isIn (w : Scope) (n : Nat) (vars : List Nat) (c : Int) (x : Nat) (σ : Heap) : R (Val × Heap) := do
  let v ← variable' vars x
  apply w (run w n) .in' (.int c) v σ

/-- `x == y` -/
def isEq (w : Scope) (n : Nat) (vars : List Nat) (x y : Nat) (σ : Heap) : R (Val × Heap) := do
  let v ← variable' vars x
  let u ← variable' vars y
  apply w (run w n) .eq v u σ

/-- The model of a program, with the values that its calls returned. -/
def modelOps (h : USet.Heap) : List USet.Op → Py (USet.Heap × List USet.Ret)
  | [] => .ok (h, [])
  | op :: ops => do
    let (h, v) ← USet.step h op
    let (h, vs) ← modelOps h ops
    return (h, v :: vs)

end Verif.PyHeap

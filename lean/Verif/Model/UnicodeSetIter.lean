import Verif.Model.UnicodeSetHeap
/-!
# Iterators over `UnicodeSet` objects that change meanwhile

`__iter__` (UnicodeSet.py:819-822) is a generator function: `iter(x)` runs nothing, and each `next` runs the body up to the next `yield`.
The number of pairs is computed once, at the first `next`; the two boundaries of a pair are read when its turn comes, from the list
that `x` has then; the `range` of the inner loop does not change afterwards.
-/
namespace Verif.USet

/-- A generator object: not begun; suspended at the `yield`, where the outer loop goes on with the pair number `m` and has `k` pairs left,
and the inner loop goes on with `cur`; at its end, after which `next` raises `StopIteration`. -/
inductive Iter
  | fresh (x : Nat)
  | inside (x m k : Nat) (cur limit : Int)
  | done
  deriving DecidableEq, Repr

/-- UnicodeSet.py:820-822, the outer loop from the pair number `m` on, with `k` pairs left, up to the next `yield`; `none` is `StopIteration`. -/
def advance (h : Heap) (x : Nat) : Nat → Nat → Py (Iter × Option Int)
  | _, 0 => .ok (.done, none)
  | m, k + 1 => do
    let l ← h.read x
    let start ← pyGet l (2 * m : Nat)
    let limit ← pyGet l (2 * m + 1 : Nat)
    if start < limit then return (.inside x (m + 1) k (start + 1) limit, some start)
    else advance h x (m + 1) k

/-- `next(it)`: `range(0, len(self.list) - 1, 2)` has half as many elements as the list, rounded down. -/
def next (h : Heap) : Iter → Py (Iter × Option Int)
  | .fresh x => do
    let l ← h.read x
    advance h x 0 (l.length / 2)
  | .inside x m k cur limit =>
    if cur < limit then .ok (.inside x m k (cur + 1) limit, some cur) else advance h x m k
  | .done => .ok (.done, none)

/-- What a program does: a call, `iter(x)`, or `next` of the iterator number `j`. -/
inductive Event
  | call (op : Op)
  | iter (x : Nat)
  | next (j : Nat)
  deriving DecidableEq, Repr

/-- The sets and the iterators. -/
structure World where
  heap : Heap
  iters : List Iter

def World.empty : World := ⟨Heap.empty, []⟩

/-- What the calls of `next` delivered: number of the iterator, and a value, the end of the iteration (`none`) or an exception. -/
abbrev Log := List (Nat × Py (Option Int))

/-- One event. An exception inside a generator ends it. -/
def stepEvent (w : World) : Event → Py (World × Log)
  | .call op => do
    let (h, _) ← step w.heap op
    return ({ w with heap := h }, [])
  | .iter x => do
    let _ ← w.heap.read x
    return ({ w with iters := w.iters ++ [.fresh x] }, [])
  | .next j =>
    match w.iters[j]? with
    | none => .error .attributeError
    | some it =>
      match next w.heap it with
      | .ok (it', v) => .ok ({ w with iters := w.iters.set j it' }, [(j, .ok v)])
      | .error e => .ok ({ w with iters := w.iters.set j .done }, [(j, .error e)])

/-- A program. -/
def runEvents (w : World) : List Event → Py (World × Log)
  | [] => .ok (w, [])
  | e :: es => do
    let (w1, log1) ← stepEvent w e
    let (w2, log2) ← runEvents w1 es
    return (w2, log1 ++ log2)

end Verif.USet

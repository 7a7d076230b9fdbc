import Verif.Model.UnicodeSet
/-!
# `UnicodeSet` objects as mutable objects

The Python objects: a set object owns a reference to a list object (`self.list`), and operations either
change the list object in place or bind `self.list` to a new list object. The value computed for the list
is the one of `Model/UnicodeSet.lean`; what this file adds is which list object receives it.
-/
namespace Verif.USet

/-- The set objects (`objs[x]` is the reference held by `self.list` of object `x`) and the list
objects (`cells[r]` is the content of list object `r`). -/
structure Heap where
  objs : List Nat
  cells : List (List Int)

/-- No object yet. -/
def Heap.empty : Heap := ⟨[], []⟩

/-- Content of `x.list`. Using an object that does not exist is a `NameError`, modelled as `attributeError`. -/
def Heap.read (h : Heap) (x : Nat) : Py (List Int) :=
  match h.objs[x]? with
  | none => .error .attributeError
  | some r =>
    match h.cells[r]? with
    | none => .error .attributeError
    | some l => .ok l

/-- The list object of `x` is changed in place. -/
def Heap.mutate (h : Heap) (x : Nat) (v : List Int) : Heap :=
  match h.objs[x]? with
  | none => h
  | some r => { h with cells := h.cells.set r v }

/-- `x.list = <new list object>`. -/
def Heap.rebind (h : Heap) (x : Nat) (v : List Int) : Heap :=
  { objs := h.objs.set x h.cells.length, cells := h.cells ++ [v] }

/-- A new set object with a new list object. -/
def Heap.alloc (h : Heap) (v : List Int) : Heap :=
  { objs := h.objs ++ [h.cells.length], cells := h.cells ++ [v] }

/-- The public constructors, mutators and operators. Arguments `x y : Nat` are set objects. The in-place
operators `|=`, `&=`, `-=`, `^=` (UnicodeSet.py:672-682) are `addAll`, `retainAll`, `removeAll`,
`complementAll`; the operators `|`, `&`, `-`, `^` (656-670) are `union`, `intersection`, `difference`,
`symmetricDifference`. -/
inductive Op
  | new
  | newCopy (x : Nat)
  | newInt (cp : Int)
  | newRange (start stop : Int)
  | add (x : Nat) (cp : Int)
  | addRange (x : Nat) (start stop : Int)
  | addAll (x y : Nat)
  | remove (x : Nat) (cp : Int)
  | removeRange (x : Nat) (start stop : Int)
  | removeAll (x y : Nat)
  | retain (x : Nat) (cp : Int)
  | retainRange (x : Nat) (start stop : Int)
  | retainAll (x y : Nat)
  | complement (x : Nat)
  | complementInt (x : Nat) (cp : Int)
  | complementPyRange (x : Nat) (start stop : Int)
  | complementRange (x : Nat) (start stop : Int)
  | complementAll (x y : Nat)
  | clear (x : Nat)
  | union (x y : Nat)
  | intersection (x y : Nat)
  | difference (x y : Nat)
  | symmetricDifference (x y : Nat)
  deriving DecidableEq, Repr

/-- What a call returns: a set object or `None`. -/
abbrev Ret := Option Nat

/-- UnicodeSet.py:205-212, 334-337, 388-391: the private list operations end with
`self.list = buffer; return self`. -/
def Heap.assign (h : Heap) (x : Nat) (r : Py (List Int)) : Py (Heap × Ret) := do
  let v ← r
  return (h.rebind x v, some x)

/-- UnicodeSet.py:467-511, 531-546: the common shape of `removeRange`, `retainRange`,
`complementRange` — a private list operation under the guard, then `return self`. -/
def Heap.guarded (h : Heap) (x : Nat) (start stop : Int) (r : Py (List Int)) : Py (Heap × Ret) :=
  if pinCodePoint start < pinCodePoint stop then h.assign x r else .ok (h, some x)

/-- UnicodeSet.py:609-647: `result = UnicodeSet(self); return result.<op>(other)`. `f` is the
private list operation. The new object's list object (702 `arg.list.copy()`) has the content of the list of `x`; it is replaced by the
result of the private list operation. -/
def Heap.copyThen (h : Heap) (x y : Nat) (f : List Int → List Int → Py (List Int)) : Py (Heap × Ret) := do
  let lx ← h.read x
  let ly ← h.read y
  (h.alloc lx).assign h.objs.length (f lx ly)

/-- One call. -/
def step (h : Heap) : Op → Py (Heap × Ret)
  -- 699-700
  | .new => .ok (h.alloc [HIGH], some h.objs.length)
  -- 701-702
  | .newCopy x => do
    let l ← h.read x
    return (h.alloc l, some h.objs.length)
  -- 703-704
  | .newInt cp => .ok (h.alloc (newInt cp), some h.objs.length)
  -- 705-706
  | .newRange s e => .ok (h.alloc (newRange s e), some h.objs.length)
  -- 393-419: all paths change the list object in place
  | .add x cp => do
    let l ← h.read x
    let v ← add l cp
    return (h.mutate x v, some x)
  -- 421-456: the fast path changes the list object in place and returns None; a single code point goes
  -- through `add`; the slow path binds a new list
  | .addRange x s e => do
    let l ← h.read x
    let (v, retSelf) ← addRangeRet l s e
    if retSelf then
      if pinCodePoint s < pinCodePoint e then return (h.rebind x v, some x)
      else return (h.mutate x v, some x)
    else return (h.mutate x v, none)
  -- 458-465
  | .addAll x y => do
    let l ← h.read x
    let m ← h.read y
    h.assign x (addList l m)
  -- 481-488
  | .remove x cp => do
    let l ← h.read x
    h.guarded x cp cp (retainList l [cp, cp + 1, HIGH] false true)
  -- 467-479
  | .removeRange x s e => do
    let l ← h.read x
    h.guarded x s e (retainList l [s, e + 1, HIGH] false true)
  -- 490-497
  | .removeAll x y => do
    let l ← h.read x
    let m ← h.read y
    h.assign x (retainList l m false true)
  -- 513-520
  | .retain x cp => do
    let l ← h.read x
    h.guarded x cp cp (retainList l [cp, cp + 1, HIGH] false false)
  -- 499-511
  | .retainRange x s e => do
    let l ← h.read x
    h.guarded x s e (retainList l [s, e + 1, HIGH] false false)
  -- 522-529
  | .retainAll x y => do
    let l ← h.read x
    let m ← h.read y
    h.assign x (retainList l m false false)
  -- 559-563: line 561 binds a new list, line 563 changes the list object in place
  | .complement x => do
    let l ← h.read x
    let l0 ← pyGet l 0
    if l0 = LOW then return (h.rebind x (l.drop 1), some x)
    else return (h.mutate x (LOW :: l), some x)
  -- 564-565
  | .complementInt x cp => do
    let l ← h.read x
    h.guarded x cp cp (exclusiveOrList l [cp, cp + 1, HIGH])
  -- 566-567
  | .complementPyRange x s e => do
    let l ← h.read x
    h.guarded x s (e - 1) (exclusiveOrList l [s, e - 1 + 1, HIGH])
  -- 531-546
  | .complementRange x s e => do
    let l ← h.read x
    h.guarded x s e (exclusiveOrList l [s, e + 1, HIGH])
  -- 573-580
  | .complementAll x y => do
    let l ← h.read x
    let m ← h.read y
    h.assign x (exclusiveOrList l m)
  -- 582-585
  | .clear x => do
    let _ ← h.read x
    return (h.rebind x [HIGH], some x)
  -- 609-617
  | .union x y => h.copyThen x y addList
  -- 619-627
  | .intersection x y => h.copyThen x y (fun l m => retainList l m false false)
  -- 629-637
  | .difference x y => h.copyThen x y (fun l m => retainList l m false true)
  -- 639-647
  | .symmetricDifference x y => h.copyThen x y exclusiveOrList

/-- A history of calls. -/
def run (h : Heap) : List Op → Py Heap
  | [] => .ok h
  | op :: ops => do
    let (h', _) ← step h op
    run h' ops

/-- `cp in x`. -/
def Heap.contains (h : Heap) (x : Nat) (cp : Int) : Py Bool := do
  let l ← h.read x
  USet.contains l cp

end Verif.USet

import Verif.Model.UnicodeSet
/-!
# The arguments of `UnicodeSet`'s constructor, `contains`, `complement` and `==`

These calls look at the type of their argument. Python's `type(x) is T` is false for instances of subclasses of `T`, such as
`True` for `int`.
-/
namespace Verif.USet

/-- A Python value passed as an argument. A `range` object has a step that is not 0. -/
inductive PyArg where
  | none
  | set (l : List Int)
  | int (n : Int)
  | range (start stop step : Int)
  /-- An instance of `bool`, the subclass of `int`. -/
  | bool (b : Bool)
  /-- A value of another type, with no attribute `list`. -/
  | other
  deriving DecidableEq

/-- UnicodeSet.py:688-708 `__init__`. -/
def newArg : PyArg → Py (List Int)
  | .none => .ok new
  | .set l => .ok (newCopy l)
  | .int n => .ok (newInt n)
  | .range start stop _ => .ok (newRange start stop)
  | _ => .error .typeError

/-- UnicodeSet.py:587-606 `contains`, 684-686 `__contains__`. -/
def containsArg (l : List Int) : PyArg → Py Bool
  | .int n => contains l n
  | .range start stop _ => containsRange l start stop
  | _ => .error .typeError

/-- UnicodeSet.py:547-570 `complement`. -/
def complementArg (l : List Int) : PyArg → Py (List Int)
  | .none => complement l
  | .int n => complementInt l n
  | .range start stop _ => complementPyRange l start stop
  | _ => .error .typeError

/-- UnicodeSet.py:649-651 `__eq__`: `typing.cast` does nothing, `other.list` raises if there is no such attribute. -/
def eqArg (l : List Int) : PyArg → Py Bool
  | .set m => .ok (eq l m)
  | _ => .error .attributeError

/-- UnicodeSet.py:653-654 `__ne__`. -/
def neArg (l : List Int) (x : PyArg) : Py Bool := do
  let r ← eqArg l x
  return !r

end Verif.USet

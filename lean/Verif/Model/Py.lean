/-!
# Python runtime vocabulary used by all models

Exceptions are values, indexing is Python indexing.
-/
namespace Verif

/-- The ways a modelled Python call can fail to return: an exception, or a loop that never ends
(`diverges` is only produced when the fuel of a modelled `while` loop is used up). -/
inductive PyErr
  | indexError
  | keyError
  | valueError
  | typeError
  | assertionError
  | structError
  | attributeError
  | zeroDivisionError
  | diverges
  deriving DecidableEq, Repr

deriving instance DecidableEq for Except

/-- Result of a modelled Python call. -/
abbrev Py (α : Type) := Except PyErr α

/-- `true` when the call returned normally. -/
def Py.isOk {α : Type} : Py α → Bool
  | .ok _ => true
  | .error _ => false

/-- Python `seq[i]`: negative indices count from the end, others outside raise `IndexError`. -/
def pyGet {α : Type} (l : List α) (i : Int) : Py α :=
  if 0 ≤ i then
    match l[i.toNat]? with
    | some x => .ok x
    | none => .error .indexError
  else if -(l.length : Int) ≤ i then
    match l[(l.length + i).toNat]? with
    | some x => .ok x
    | none => .error .indexError
  else .error .indexError

/-- Python `x & mask` on (possibly negative) ints, two's complement with infinitely many sign bits. -/
def pyAnd : Int → Int → Int
  | .ofNat a, .ofNat b => .ofNat (a &&& b)
  | .ofNat a, .negSucc b => .ofNat (a - (a &&& b))
  | .negSucc a, .ofNat b => .ofNat (b - (a &&& b))
  | .negSucc a, .negSucc b => .negSucc (a ||| b)

end Verif

/-!
# Specification: expressions of set algebra

Written without reference to the model of the sets.
-/
namespace Verif.Spec

/-- An expression over sets `0, 1, 2, …`: `|`, `&`, `-`, `^` and the complement. -/
inductive SetExpr where
  | var (n : Nat)
  | or (a b : SetExpr)
  | and (a b : SetExpr)
  | sub (a b : SetExpr)
  | xor (a b : SetExpr)
  | not (a : SetExpr)

/-- Whether an element is in the value of the expression, given in which of the sets it is. -/
def SetExpr.holds (P : Nat → Bool) : SetExpr → Bool
  | .var n => P n
  | .or a b => a.holds P || b.holds P
  | .and a b => a.holds P && b.holds P
  | .sub a b => a.holds P && !b.holds P
  | .xor a b => a.holds P != b.holds P
  | .not a => !a.holds P

/-- The law `a = b` of set algebra: true whichever sets the element is in. -/
def SetExpr.Law (a b : SetExpr) : Prop := ∀ P, a.holds P = b.holds P

/-- The expression does not use `|`. -/
def SetExpr.NoOr : SetExpr → Prop
  | .var _ => True
  | .or _ _ => False
  | .and a b => a.NoOr ∧ b.NoOr
  | .sub a b => a.NoOr ∧ b.NoOr
  | .xor a b => a.NoOr ∧ b.NoOr
  | .not a => a.NoOr

end Verif.Spec

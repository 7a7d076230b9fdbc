import Verif.Model.UnicodeSetHeap
import Verif.Spec.CodePointSet
/-!
# Reference semantics of `UnicodeSet` histories

Mathematical sets of integers under the documented meaning of every public call. Nothing here mentions
range lists.
-/
namespace Verif.USet
open Verif.Spec

/-- The object a mutator works on; constructors and the copying operators have none. -/
def Op.receiver : Op → Option Nat
  | .new | .newCopy _ | .newInt _ | .newRange _ _ => none
  | .union _ _ | .intersection _ _ | .difference _ _ | .symmetricDifference _ _ => none
  | .add x _ | .addRange x _ _ | .addAll x _ | .remove x _ | .removeRange x _ _ | .removeAll x _
  | .retain x _ | .retainRange x _ _ | .retainAll x _ | .complement x | .complementInt x _
  | .complementPyRange x _ _ | .complementRange x _ _ | .complementAll x _ | .clear x => some x

/-- Number of set objects after the call, when there are `n` before. -/
def Op.count (n : Nat) (op : Op) : Nat := match op.receiver with | none => n + 1 | some _ => n

/-- Legal arguments when `n` set objects exist: the objects exist, code points are code points, range
bounds are code points. A Python `range(start, stop)` argument has `0 ≤ start ≤ stop ≤ 0x110000` and step 1. -/
def Op.Legal (n : Nat) : Op → Prop
  | .new => True
  | .newCopy x | .complement x | .clear x => x < n
  | .newInt cp => IsCodePoint cp
  | .newRange s e => 0 ≤ s ∧ s ≤ e ∧ e ≤ 0x110000
  | .add x cp | .remove x cp | .retain x cp | .complementInt x cp => x < n ∧ IsCodePoint cp
  | .addRange x s e | .removeRange x s e | .complementRange x s e => x < n ∧ IsCodePoint s ∧ IsCodePoint e
  | .retainRange x s e => x < n ∧ IsCodePoint s ∧ IsCodePoint e ∧ s ≤ e
  | .complementPyRange x s e => x < n ∧ 0 ≤ s ∧ s ≤ e ∧ e ≤ 0x110000 ∧ s ≤ 0x10FFFF
  | .addAll x y | .removeAll x y | .retainAll x y | .complementAll x y | .union x y | .intersection x y
  | .difference x y | .symmetricDifference x y => x < n ∧ y < n

/-- Every call of a history has legal arguments; `n` objects exist at the beginning. -/
def LegalHistory (n : Nat) : List Op → Prop
  | [] => True
  | op :: ops => op.Legal n ∧ LegalHistory (op.count n) ops

/-- Reference value of set number `x`. -/
def refGet (S : List (Int → Prop)) (x : Nat) : Int → Prop := S.getD x (fun _ => False)

/-- The documented result of each call, as a mathematical set. A range from `s` to `e` inclusive is empty
when `e < s`. -/
def refVal (S : List (Int → Prop)) : Op → (Int → Prop)
  | .new => fun _ => False
  | .newCopy x => refGet S x
  | .newInt cp => fun c => c = cp
  | .newRange s e => fun c => s ≤ c ∧ c < e
  | .add x cp => fun c => refGet S x c ∨ c = cp
  | .addRange x s e => fun c => refGet S x c ∨ (s ≤ c ∧ c ≤ e)
  | .addAll x y | .union x y => fun c => refGet S x c ∨ refGet S y c
  | .remove x cp => fun c => refGet S x c ∧ c ≠ cp
  | .removeRange x s e => fun c => refGet S x c ∧ ¬ (s ≤ c ∧ c ≤ e)
  | .removeAll x y | .difference x y => fun c => refGet S x c ∧ ¬ refGet S y c
  | .retain x cp => fun c => refGet S x c ∧ c = cp
  | .retainRange x s e => fun c => refGet S x c ∧ (s ≤ c ∧ c ≤ e)
  | .retainAll x y | .intersection x y => fun c => refGet S x c ∧ refGet S y c
  | .complement x => fun c => ¬ refGet S x c
  | .complementInt x cp => fun c => ¬ (refGet S x c ↔ c = cp)
  | .complementPyRange x s e => fun c => ¬ (refGet S x c ↔ (s ≤ c ∧ c < e))
  | .complementRange x s e => fun c => ¬ (refGet S x c ↔ (s ≤ c ∧ c ≤ e))
  | .complementAll x y | .symmetricDifference x y => fun c => ¬ (refGet S x c ↔ refGet S y c)
  | .clear _ => fun _ => False

/-- The reference store after a call: a mutator replaces its receiver, anything else appends a new set. -/
def refStep (S : List (Int → Prop)) (op : Op) : List (Int → Prop) :=
  match op.receiver with
  | none => S ++ [refVal S op]
  | some x => S.set x (refVal S op)

/-- The reference store after a history. -/
def refRun (S : List (Int → Prop)) : List Op → List (Int → Prop)
  | [] => S
  | op :: ops => refRun (refStep S op) ops

/-- The calls that act as documented: everything but `remove`, `retain`, `complement` of a
single code point and the range forms of these on a range of one code point, which are no-ops in the
code (finding C08). -/
def Op.Supported : Op → Prop
  | .remove _ _ | .retain _ _ | .complementInt _ _ => False
  | .removeRange _ s e | .retainRange _ s e | .complementRange _ s e => s ≠ e
  | .complementPyRange _ s e => e ≠ s + 1
  | _ => True

instance (n : Nat) (op : Op) : Decidable (op.Legal n) := by
  cases op <;> unfold Op.Legal <;> infer_instance

instance (op : Op) : Decidable op.Supported := by
  cases op <;> unfold Op.Supported <;> infer_instance

instance : (n : Nat) → (ops : List Op) → Decidable (LegalHistory n ops)
  | _, [] => .isTrue trivial
  | n, op :: ops => by
    unfold LegalHistory
    have := instDecidableLegalHistory (op.count n) ops
    infer_instance

end Verif.USet

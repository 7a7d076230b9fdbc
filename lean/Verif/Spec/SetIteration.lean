import Verif.Model.UnicodeSetIter
import Verif.Spec.SetHistory
/-! # Specification of iterations over sets that change meanwhile -/
namespace Verif.USet

/-- Every event has legal arguments; `n` sets and `m` iterators exist at the beginning. -/
def LegalEvents (n m : Nat) : List Event → Prop
  | [] => True
  | .call op :: es => op.Legal n ∧ LegalEvents (op.count n) m es
  | .iter x :: es => x < n ∧ LegalEvents n (m + 1) es
  | .next j :: es => j < m ∧ LegalEvents n m es

/-- The sets for which iterators have been made: iterator number `j` is for set number `(iterated es)[j]`. -/
def iterated : List Event → List Nat
  | [] => []
  | .iter x :: es => x :: iterated es
  | _ :: es => iterated es

/-- What the calls of `next` of one iterator delivered. -/
def delivered (j : Nat) (log : Log) : List (Py (Option Int)) := (log.filter fun e => e.1 == j).map (·.2)

/-- Values among the results of `next`. -/
def isValue : Py (Option Int) → Bool
  | .ok (some _) => true
  | _ => false

end Verif.USet

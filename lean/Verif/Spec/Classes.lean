import Verif.Spec.CategoryMap
import Verif.Spec.Runs
/-! # The general category of a code point in the standard -/
namespace Verif.Char.Spec
open Verif.Spec

/-- The general category of `c` in Unicode 13.0 is one of `l`. -/
def HasCategory (c : Nat) (l : List String) : Prop :=
  ∃ name ∈ l, categoryLegend.lookup (valueIn 0 categoryRuns c) = some name

end Verif.Char.Spec

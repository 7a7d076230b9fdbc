import Verif.Model.Table
/-!
# Python dictionaries with constant keys

The name dictionaries of `Blocks.py`, `Scripts.py` and others are literals whose keys are constants of the module. Most constants
are integers; the ones written with a trailing comma are tuples of one integer (for example Scripts.py:51, Blocks.py:264).
-/
namespace Verif

/-- A key: an integer, or a tuple of one integer. -/
inductive Key where
  | int (n : Int)
  | tuple (n : Int)
  deriving DecidableEq

/-- `d.get(k)` of the dictionary written `{k0: v0, k1: v1, …}`: the last entry with an equal key counts. -/
def literalGet {κ ν : Type} [BEq κ] (d : List (κ × ν)) (k : κ) : Option ν := d.reverse.lookup k

end Verif

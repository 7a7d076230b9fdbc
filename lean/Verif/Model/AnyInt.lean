import Verif.Model.CPTrie
import Verif.Model.NumericFloat
/-!
# Lookups with any integer as the argument

`Model/Utrie2` and `Model/CPTrie` take natural numbers. A negative argument takes the first branch of each chain of comparisons; the
indices that result count from the end of the list.
-/
namespace Verif

/-- `a[i]` for any integer. -/
def Arr.getInt (a : Arr) (i : Int) : Py Nat :=
  if 0 ≤ i then a.get i.toNat
  else if -(a.size : Int) ≤ i then a.get (a.size + i).toNat
  else .error .indexError

namespace UTrie2

/-- Utrie2.py:52-53 `indexRaw` with offset 0: `c >> 5` rounds down, `c & 31` is not negative. -/
def indexRawInt (t : UTrie2) (c : Int) : Py Int := do
  let e ← t.index.getInt (c / 32)
  return (e : Int) * 4 + c % 32

/-- Utrie2.py:81-95 `get`: a negative `c` is less than 0xD800. -/
def getInt (t : UTrie2) (c : Int) : Py Nat :=
  if 0 ≤ c then t.get c.toNat
  else do
    let i ← t.indexRawInt c
    t.index.getInt i

end UTrie2

/-- CPTrie.py:237-244 `get`: a negative `c` is at most 0x7F. -/
def CPTrie.getInt (t : CPTrie) (c : Int) : Py Nat :=
  if 0 ≤ c then t.get c.toNat else t.data.getInt c

namespace Char

/-- CharProps.py:32-34 `getGeneralCategory`. -/
noncomputable def getGeneralCategoryInt (c : Int) : Py Nat := do
  let props ← propsTrie.getInt c
  return generalCategoryFromProps props

/-- CharProps.py:142-144 `ispunct`. -/
noncomputable def ispunctInt (c : Int) : Py Bool := do
  let gc ← getGeneralCategoryInt c
  return decide (gcMask gc &&& (P_MASK) ≠ 0)

/-- CharProps.py:265-267 `getNumericValue`. -/
noncomputable def getNumericValueInt (c : Int) : Py (Option Rat) := do
  let props ← propsTrie.getInt c
  numericValueFromProps props

end Char

end Verif

import Verif.Model.Utrie2
import Verif.Data.Bidi
/-!
# Model of `UnicodeData/BidiProps.py`

Code points are natural numbers. The constants of lines 17-67 that are not used by any function are not modelled.
-/
namespace Verif.Bidi
open Verif.Data

/-- BidiProps.py:69-70 `bidiPropsTrie`. -/
noncomputable def bidiPropsTrie : UTrie2 where
  index := bidiIndex.arr
  indexLength := bidiIndexLength
  index2NullOffset := bidiIndex2NullOffset
  dataNullOffset := bidiDataNullOffset
  highStart := bidiHighStart
  highValueIndex := bidiHighValueIndex

/-- BidiProps.py:40-41 `UBIDI_MIRROR_DELTA_BITS`. -/
def MIRROR_DELTA_BITS : Nat := 16 - 13

/-- BidiProps.py:51-52 `getClassFromProps`. -/
def getClassFromProps (props : Nat) : Nat := props &&& 0x1f

/-- BidiProps.py:54-55 `getFlagFromProps`. -/
def getFlagFromProps (props shift : Nat) : Bool := decide ((props >>> shift) &&& 1 ≠ 0)

/-- BidiProps.py:57-58 `getMirrorDeltaFromProps`. -/
def getMirrorDeltaFromProps (props : Nat) : Py Int := Utilities.arithmeticShift props 16 MIRROR_DELTA_BITS

/-- BidiProps.py:72-73 `getMirrorCodePointFromProps`. -/
def getMirrorCodePointFromProps (m : Nat) : Nat := m &&& 0x1FFFFF

/-- BidiProps.py:75-76 `getMirrorIndexFromProps`. -/
def getMirrorIndexFromProps (m : Nat) : Nat := m >>> 21

/-- BidiProps.py:78-80 `getCharDirection`. -/
noncomputable def getCharDirection (c : Nat) : Py Nat := do
  let props ← bidiPropsTrie.get c
  return getClassFromProps props

/-- BidiProps.py:82-84 `isMirrored`. -/
noncomputable def isMirrored (c : Nat) : Py Bool := do
  let props ← bidiPropsTrie.get c
  return getFlagFromProps props 12

/-- BidiProps.py:92-102: the search in `ubidi_props_mirrors`, `n` entries left from number `i` on. -/
def searchMirrors (mirrors : Arr) (c : Nat) : Nat → Nat → Py Int
  | 0, _ => .ok c
  | n + 1, i => do
    let m ← mirrors.get i
    let c2 := getMirrorCodePointFromProps m
    if c = c2 then
      let m2 ← mirrors.get (getMirrorIndexFromProps m)
      return (getMirrorCodePointFromProps m2 : Int)
    else if c < c2 then return c
    else searchMirrors mirrors c n (i + 1)

/-- BidiProps.py:86-102 `getMirrorFromProps`. -/
noncomputable def getMirrorFromProps (c props : Nat) : Py Int := do
  let delta ← getMirrorDeltaFromProps props
  if delta ≠ -4 then return c + delta
  else searchMirrors bidiMirrors.arr c bidiMirrors.size 0

/-- BidiProps.py:104-106 `getMirror`. -/
noncomputable def getMirror (c : Nat) : Py Int := do
  let props ← bidiPropsTrie.get c
  getMirrorFromProps c props

/-- BidiProps.py:108-110 `isBidiControl`. -/
noncomputable def isBidiControl (c : Nat) : Py Bool := do
  let props ← bidiPropsTrie.get c
  return getFlagFromProps props 11

/-- BidiProps.py:112-114 `isJoinControl`. -/
noncomputable def isJoinControl (c : Nat) : Py Bool := do
  let props ← bidiPropsTrie.get c
  return getFlagFromProps props 10

/-- BidiProps.py:116-118 `getJoiningType`. -/
noncomputable def getJoiningType (c : Nat) : Py Nat := do
  let props ← bidiPropsTrie.get c
  return (props &&& 0xe0) >>> 5

/-- BidiProps.py:120-133 `getJoiningGroup`; `U_JG_NO_JOINING_GROUP` (uchar_h.py) is 0. -/
noncomputable def getJoiningGroup (c : Nat) : Py Nat := do
  let start ← bidiIndexes.arr.get 4
  let limit ← bidiIndexes.arr.get 5
  if start ≤ c ∧ c < limit then bidiJg1.arr.get (c - start)
  else
    let start ← bidiIndexes.arr.get 6
    let limit ← bidiIndexes.arr.get 7
    if start ≤ c ∧ c < limit then bidiJg2.arr.get (c - start)
    else return 0

/-- BidiProps.py:135-137 `getPairedBracketType`. -/
noncomputable def getPairedBracketType (c : Nat) : Py Nat := do
  let props ← bidiPropsTrie.get c
  return (props &&& 0x300) >>> 8

/-- BidiProps.py:139-144 `getPairedBracket`. -/
noncomputable def getPairedBracket (c : Nat) : Py Int := do
  let props ← bidiPropsTrie.get c
  if props &&& 0x300 = 0 then return c
  else getMirrorFromProps c props

end Verif.Bidi

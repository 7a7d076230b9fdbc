import Verif.Model.Utrie2
import Verif.Data.Case
/-!
# Model of `UnicodeData/CaseProps.py`

Code points are natural numbers; results of the simple mappings are integers because a delta is added. A string
is the list of its code points. The functions that read `ucase_props_exceptions` take the table as a parameter
`exc` so that the slot arithmetic can be stated for all tables; the API functions pass the shipped one.
-/
namespace Verif.Case
open Verif.Data

noncomputable section

/-- CaseProps.py:313-314 `casePropsTrie`. -/
def casePropsTrie : UTrie2 where
  index := caseIndex.arr
  indexLength := caseIndexLength
  index2NullOffset := caseIndex2NullOffset
  dataNullOffset := caseDataNullOffset
  highStart := caseHighStart
  highValueIndex := caseHighValueIndex

/-- CaseProps.py:56-63 the slot numbers. -/
def EXC_LOWER : Nat := 0
/-- CaseProps.py:58 `UCASE_EXC_UPPER`. -/
def EXC_UPPER : Nat := 2
/-- CaseProps.py:59 `UCASE_EXC_TITLE`. -/
def EXC_TITLE : Nat := 3
/-- CaseProps.py:60 `UCASE_EXC_DELTA`. -/
def EXC_DELTA : Nat := 4
/-- CaseProps.py:63 `UCASE_EXC_FULL_MAPPINGS`. -/
def EXC_FULL_MAPPINGS : Nat := 7

/-- CaseProps.py:120-121 `getDeltaFromProps`. -/
def getDeltaFromProps (props : Nat) : Py Int := Utilities.arithmeticShift props 16 9

/-- CaseProps.py:123-124 `getTypeFromProps`. -/
def getTypeFromProps (props : Nat) : Nat := props &&& 3

/-- CaseProps.py:126-127 `getTypeAndIgnorableFromProps`. -/
def getTypeAndIgnorableFromProps (props : Nat) : Nat := props &&& (3 ||| 4)

/-- CaseProps.py:129-130 `isUpperOrTitle`. -/
def isUpperOrTitle (props : Nat) : Bool := decide (props &&& (2 &&& 3) ≠ 0)

/-- CaseProps.py:132-133 `hasException`. -/
def hasException (props : Nat) : Bool := decide (props &&& 8 ≠ 0)

/-- CaseProps.py:135-136 `hasSlot`. -/
def hasSlot (flags index : Nat) : Bool := decide (flags &&& (1 <<< index) ≠ 0)

/-- CaseProps.py:138-139 `slotOffset`. -/
def slotOffset (flags index : Nat) : Py Nat := caseFlagsOffset.arr.get (flags &&& ((1 <<< index) - 1))

/-- CaseProps.py:141-148 `getSlotValue`: the value and the offset of its last unit. -/
def getSlotValue (exc : Arr) (excWord index exceptionIndex : Nat) : Py (Nat × Nat) := do
  let slot_offset ← slotOffset excWord index
  if excWord &&& 0x100 = 0 then
    let v ← exc.get (exceptionIndex + slot_offset)
    return (v, slot_offset)
  else
    let exceptionIndex := exceptionIndex + 2 * slot_offset
    let hi ← exc.get exceptionIndex
    let lo ← exc.get (exceptionIndex + 1)
    return (hi <<< 16 ||| lo, 2 * slot_offset + 1)

/-- CaseProps.py:163, 182, 201, 240, 293: the delta of the exception word, with its sign. -/
def addDelta (excWord c delta : Nat) : Int := if excWord &&& 0x400 = 0 then (c : Int) + delta else (c : Int) - delta

/-- CaseProps.py:150-168 `toLower`, after the trie lookup. -/
def toLowerProps (exc : Arr) (c props : Nat) : Py Int :=
  if ¬ hasException props then
    if isUpperOrTitle props then do
      let d ← getDeltaFromProps props
      return c + d
    else .ok c
  else do
    let exceptionIndex := props >>> 4
    let excWord ← exc.get exceptionIndex
    let exceptionIndex := exceptionIndex + 1
    if hasSlot excWord EXC_DELTA && isUpperOrTitle props then
      let r ← getSlotValue exc excWord EXC_DELTA exceptionIndex
      return addDelta excWord c r.1
    else if hasSlot excWord EXC_LOWER then
      let r ← getSlotValue exc excWord EXC_LOWER exceptionIndex
      return (r.1 : Int)
    else return c

/-- CaseProps.py:170-187 `toUpper`, after the trie lookup. -/
def toUpperProps (exc : Arr) (c props : Nat) : Py Int :=
  if ¬ hasException props then
    if getTypeFromProps props = 1 then do
      let d ← getDeltaFromProps props
      return c + d
    else .ok c
  else do
    let exceptionIndex := props >>> 4
    let excWord ← exc.get exceptionIndex
    let exceptionIndex := exceptionIndex + 1
    if hasSlot excWord EXC_DELTA && getTypeFromProps props = 1 then
      let r ← getSlotValue exc excWord EXC_DELTA exceptionIndex
      return addDelta excWord c r.1
    else if hasSlot excWord EXC_UPPER then
      let r ← getSlotValue exc excWord EXC_UPPER exceptionIndex
      return (r.1 : Int)
    else return c

/-- CaseProps.py:189-207 `toTitle`, after the trie lookup. -/
def toTitleProps (exc : Arr) (c props : Nat) : Py Int :=
  if ¬ hasException props then
    if getTypeFromProps props = 1 then do
      let d ← getDeltaFromProps props
      return c + d
    else .ok c
  else do
    let exceptionIndex := props >>> 4
    let excWord ← exc.get exceptionIndex
    let exceptionIndex := exceptionIndex + 1
    if hasSlot excWord EXC_DELTA && getTypeFromProps props = 1 then
      let r ← getSlotValue exc excWord EXC_DELTA exceptionIndex
      return addDelta excWord c r.1
    else if hasSlot excWord EXC_TITLE then
      let r ← getSlotValue exc excWord EXC_TITLE exceptionIndex
      return (r.1 : Int)
    else if hasSlot excWord EXC_UPPER then
      let r ← getSlotValue exc excWord EXC_UPPER exceptionIndex
      return (r.1 : Int)
    else return c

/-- The builtin `chr`: a one-character string, or ValueError outside 0..0x10FFFF. -/
def chr (c : Int) : Py (List Nat) := if 0 ≤ c ∧ c ≤ 0x10FFFF then .ok [c.toNat] else .error .valueError

/-- CaseProps.py:233-236, 286-289: the join of `n` characters read from `exc` at `i` on. -/
def readChars (exc : Arr) : Nat → Nat → Py (List Nat)
  | 0, _ => .ok []
  | n + 1, i => do
    let v ← exc.get i
    let ch ← chr v
    let rest ← readChars exc n (i + 1)
    return ch ++ rest

/-- CaseProps.py:238-246: the tail of `toFullLower`. -/
def fullLowerTail (exc : Arr) (c props excWord exceptionIndex : Nat) (result : List Nat) : Py (List Nat) :=
  if hasSlot excWord EXC_DELTA && isUpperOrTitle props then do
    let r ← getSlotValue exc excWord EXC_DELTA exceptionIndex
    chr (addDelta excWord c r.1)
  else if hasSlot excWord EXC_LOWER then do
    let r ← getSlotValue exc excWord EXC_LOWER exceptionIndex
    chr r.1
  else .ok result

/-- CaseProps.py:210-246 `toFullLower`, after the trie lookup. -/
def toFullLowerProps (exc : Arr) (c props : Nat) : Py (List Nat) := do
  let result ← chr c
  if ¬ hasException props then
    if isUpperOrTitle props then
      let d ← getDeltaFromProps props
      chr (c + d)
    else return result
  else
    let exceptionIndex := props >>> 4
    let excWord ← exc.get exceptionIndex
    let exceptionIndex := exceptionIndex + 1
    if excWord &&& 0x4000 ≠ 0 then
      if c = 0x0130 then return [0x69, 0x307]
      else fullLowerTail exc c props excWord exceptionIndex result
    else if hasSlot excWord EXC_FULL_MAPPINGS then
      let r ← getSlotValue exc excWord EXC_FULL_MAPPINGS exceptionIndex
      let full := r.1 &&& 0xf
      if full ≠ 0 then readChars exc full (exceptionIndex + r.2 + 1)
      else fullLowerTail exc c props excWord exceptionIndex result
    else fullLowerTail exc c props excWord exceptionIndex result

/-- CaseProps.py:291-303: the tail of `toUpperOrTitle`. -/
def fullUpperTail (exc : Arr) (c props excWord exceptionIndex : Nat) (upperNotTitle : Bool) (result : List Nat) :
    Py (List Nat) :=
  if hasSlot excWord EXC_DELTA && getTypeFromProps props = 1 then do
    let r ← getSlotValue exc excWord EXC_DELTA exceptionIndex
    chr (addDelta excWord c r.1)
  else if !upperNotTitle && hasSlot excWord EXC_TITLE then do
    let r ← getSlotValue exc excWord EXC_TITLE exceptionIndex
    chr r.1
  else if hasSlot excWord EXC_UPPER then do
    let r ← getSlotValue exc excWord EXC_UPPER exceptionIndex
    chr r.1
  else .ok result

/-- CaseProps.py:249-305 `toUpperOrTitle`, after the trie lookup. The literals of line 269 are U+0535 U+0552 and
U+0535 U+0582. -/
def toUpperOrTitleProps (exc : Arr) (c props : Nat) (upperNotTitle : Bool) : Py (List Nat) := do
  let result ← chr c
  if ¬ hasException props then
    if getTypeFromProps props = 1 then
      let d ← getDeltaFromProps props
      chr (c + d)
    else return result
  else
    let exceptionIndex := props >>> 4
    let excWord ← exc.get exceptionIndex
    let exceptionIndex := exceptionIndex + 1
    if excWord &&& 0x4000 ≠ 0 then
      if c = 0x0587 then return if upperNotTitle then [0x535, 0x552] else [0x535, 0x582]
      else fullUpperTail exc c props excWord exceptionIndex upperNotTitle result
    else if hasSlot excWord EXC_FULL_MAPPINGS then
      let r ← getSlotValue exc excWord EXC_FULL_MAPPINGS exceptionIndex
      let i := exceptionIndex + (r.2 + 1 + (r.1 &&& 0xf)) + ((r.1 >>> 4) &&& 0xF)
      let full := (r.1 >>> 4) >>> 4
      let i' := if upperNotTitle then i else i + (full &&& 0xF)
      let full := if upperNotTitle then full &&& 0xF else (full >>> 4) &&& 0xF
      if full ≠ 0 then readChars exc full i'
      else fullUpperTail exc c props excWord exceptionIndex upperNotTitle result
    else fullUpperTail exc c props excWord exceptionIndex upperNotTitle result

/-- CaseProps.py:150 `toLower`. -/
def toLower (c : Nat) : Py Int := do
  let props ← casePropsTrie.get c
  toLowerProps caseExceptions.arr c props

/-- CaseProps.py:170 `toUpper`. -/
def toUpper (c : Nat) : Py Int := do
  let props ← casePropsTrie.get c
  toUpperProps caseExceptions.arr c props

/-- CaseProps.py:189 `toTitle`. -/
def toTitle (c : Nat) : Py Int := do
  let props ← casePropsTrie.get c
  toTitleProps caseExceptions.arr c props

/-- CaseProps.py:210 `toFullLower`; line 211 runs before the lookup of line 212 in the code, which makes no
difference because the lookup in the shipped trie never raises (`Verif.Case.trie_ok`). -/
def toFullLower (c : Nat) : Py (List Nat) := do
  let props ← casePropsTrie.get c
  toFullLowerProps caseExceptions.arr c props

/-- CaseProps.py:249 `toUpperOrTitle`; lines 250 and 251 in the other order, see `toFullLower`. -/
def toUpperOrTitle (c : Nat) (upperNotTitle : Bool) : Py (List Nat) := do
  let props ← casePropsTrie.get c
  toUpperOrTitleProps caseExceptions.arr c props upperNotTitle

/-- CaseProps.py:307-308 `toFullUpper`. -/
def toFullUpper (c : Nat) : Py (List Nat) := toUpperOrTitle c true

/-- CaseProps.py:310-311 `toFullTitle`. -/
def toFullTitle (c : Nat) : Py (List Nat) := toUpperOrTitle c false

end

end Verif.Case

import Verif.Model.CPTrie
import Verif.Model.Utilities
import Verif.Model.Text
import Verif.Data.Norm2
/-!
# Model of `UnicodeData/Normalizer2.py`

Code point arguments are natural numbers. `x >> n` is `x / 2 ^ n`. Not modelled: the constants that no function uses,
`maybeYesCompositions` (line 119, never read), and the fields of lines 104-105 and 109-112 (never read).
`createFromFileData` (lines 129-154) is in `Model/LayoutProps.lean`.
-/
namespace Verif

/-- Normalizer2.py:100-120 the fields of a `Normalizer2` that are read. -/
structure Normalizer2 where
  trie : CPTrie
  minDecompNoCP : Nat
  minYesNo : Nat
  minYesNoMappingsOnly : Nat
  limitNoNo : Nat
  minMaybeYes : Nat
  centerNoNoDelta : Int
  extraData : Arr

namespace Normalizer2

/-- Normalizer2.py:20 `MIN_NORMAL_MAYBE_YES`. -/
def MIN_NORMAL_MAYBE_YES : Nat := 0xfc00
/-- Normalizer2.py:21 `JAMO_L`. -/
def JAMO_L : Nat := 2
/-- Normalizer2.py:19 `JAMO_VT`. -/
def JAMO_VT : Nat := 0xfe00
/-- Normalizer2.py:22 `INERT`. -/
def INERT : Nat := 1
/-- Normalizer2.py:25 `HAS_COMP_BOUNDARY_AFTER`. -/
def HAS_COMP_BOUNDARY_AFTER : Nat := 1
/-- Normalizer2.py:26 `OFFSET_SHIFT`. -/
def OFFSET_SHIFT : Nat := 1
/-- Normalizer2.py:34 `DELTA_SHIFT`. -/
def DELTA_SHIFT : Nat := 3
/-- Normalizer2.py:36 `MAX_DELTA`. -/
def MAX_DELTA : Nat := 0x40
/-- Normalizer2.py:75 `MAPPING_HAS_RAW_MAPPING`. -/
def MAPPING_HAS_RAW_MAPPING : Nat := 0x40
/-- Normalizer2.py:77 `MAPPING_LENGTH_MASK`. -/
def MAPPING_LENGTH_MASK : Nat := 0x1f
/-- Normalizer2.py:80 `JAMO_L_BASE`. -/
def JAMO_L_BASE : Int := 0x1100
/-- Normalizer2.py:82 `JAMO_V_BASE`. -/
def JAMO_V_BASE : Int := 0x1161
/-- Normalizer2.py:84 `JAMO_T_BASE`. -/
def JAMO_T_BASE : Int := 0x11a7
/-- Normalizer2.py:87 `HANGUL_BASE`. -/
def HANGUL_BASE : Int := 0xac00
/-- Normalizer2.py:91 `JAMO_V_COUNT`. -/
def JAMO_V_COUNT : Int := 21
/-- Normalizer2.py:92 `JAMO_T_COUNT`. -/
def JAMO_T_COUNT : Int := 28

/-- Normalizer2.py:100-120 `__init__`; `indexes[k]` are lines 103-114 with the positions of lines 49-63. -/
def init (trie : CPTrie) (indexes extraData : Arr) : Py Normalizer2 := do
  let minDecompNoCP ← indexes.get 8
  let _ ← indexes.get 9
  let _ ← indexes.get 18
  let minYesNo ← indexes.get 10
  let minYesNoMappingsOnly ← indexes.get 14
  let _ ← indexes.get 11
  let _ ← indexes.get 15
  let _ ← indexes.get 16
  let _ ← indexes.get 17
  let limitNoNo ← indexes.get 12
  let minMaybeYes ← indexes.get 13
  if minMaybeYes % 8 ≠ 0 then throw .assertionError
  let centerNoNoDelta : Int := ((minMaybeYes / 2 ^ DELTA_SHIFT : Nat) : Int) - MAX_DELTA - 1
  let extraDataStart : Int := ((MIN_NORMAL_MAYBE_YES : Int) - minMaybeYes) / 2 ^ OFFSET_SHIFT
  return ⟨trie, minDecompNoCP, minYesNo, minYesNoMappingsOnly, limitNoNo, minMaybeYes, centerNoNoDelta,
    extraData.sliceFrom extraDataStart⟩

/-- Normalizer2.py:156-157 `getNorm16`. -/
def getNorm16 (n : Normalizer2) (c : Nat) : Py Nat := if Utilities.isLead c then .ok INERT else n.trie.get c

/-- Normalizer2.py:159-160 `getRawNorm16`. -/
def getRawNorm16 (n : Normalizer2) (c : Nat) : Py Nat := n.trie.get c

/-- Normalizer2.py:162-163 `isMaybeOrNonZeroCC`. -/
def isMaybeOrNonZeroCC (n : Normalizer2) (norm16 : Nat) : Bool := decide (norm16 ≥ n.minMaybeYes)

/-- Normalizer2.py:165-166 `isDecompNoAlgorithmic`. -/
def isDecompNoAlgorithmic (n : Normalizer2) (norm16 : Nat) : Bool := decide (norm16 ≥ n.limitNoNo)

/-- Normalizer2.py:168-169 `isDecompYes`. -/
def isDecompYes (n : Normalizer2) (norm16 : Nat) : Bool := decide (norm16 < n.minYesNo ∨ n.minMaybeYes ≤ norm16)

/-- Normalizer2.py:171-172 `isInert`. -/
def isInert (norm16 : Nat) : Bool := decide (norm16 = INERT)

/-- Normalizer2.py:174-175 `isJamoL`. -/
def isJamoL (norm16 : Nat) : Bool := decide (norm16 = JAMO_L)

/-- Normalizer2.py:177-178 `isJamoVT`. -/
def isJamoVT (norm16 : Nat) : Bool := decide (norm16 = JAMO_VT)

/-- Normalizer2.py:180-181 `hangulLVT`. -/
def hangulLVT (n : Normalizer2) : Nat := n.minYesNoMappingsOnly ||| HAS_COMP_BOUNDARY_AFTER

/-- Normalizer2.py:183-184 `isHangulLV`. -/
def isHangulLV (n : Normalizer2) (norm16 : Nat) : Bool := decide (norm16 = n.minYesNo)

/-- Normalizer2.py:186-187 `isHangulLVT`. -/
def isHangulLVT (n : Normalizer2) (norm16 : Nat) : Bool := decide (norm16 = n.hangulLVT)

/-- Normalizer2.py:189-201 `hangulDecomposition`; any int. -/
def hangulDecomposition (c : Int) : Py Str := do
  let c := c - HANGUL_BASE
  let c2 := c % JAMO_T_COUNT
  let c := c / JAMO_T_COUNT
  let l ← chr (JAMO_L_BASE + c / JAMO_V_COUNT)
  let v ← chr (JAMO_V_BASE + c % JAMO_V_COUNT)
  if c2 ≠ 0 then
    let t ← chr (JAMO_T_BASE + c2)
    return [l, v, t]
  else return [l, v]

/-- Normalizer2.py:203-217 `rawHangulDecomposition`; any int. -/
def rawHangulDecomposition (c : Int) : Py Str := do
  let orig := c
  let c := c - HANGUL_BASE
  let c2 := c % JAMO_T_COUNT
  if c2 = 0 then
    let c := c / JAMO_T_COUNT
    let l ← chr (JAMO_L_BASE + c / JAMO_V_COUNT)
    let v ← chr (JAMO_V_BASE + c % JAMO_V_COUNT)
    return [l, v]
  else
    let lv ← chr (orig - c2)
    let t ← chr (JAMO_T_BASE + c2)
    return [lv, t]

/-- Normalizer2.py:219-220 `mapAlgorithmic`. -/
def mapAlgorithmic (n : Normalizer2) (c norm16 : Nat) : Int := (c : Int) + (norm16 / 2 ^ DELTA_SHIFT : Nat) - n.centerNoNoDelta

/-- Normalizer2.py:222-223 `getMappingIndex`. -/
def getMappingIndex (norm16 : Nat) : Nat := norm16 / 2 ^ OFFSET_SHIFT

/-- Normalizer2.py:228-239: the loop of `stringFromData`, `n` code units left from position `i` on; `lead = 0` means none. -/
def stringLoop (data : Arr) : Nat → Int → Nat → Py Str
  | 0, _, _ => .ok []
  | n + 1, i, lead => do
    let ch ← data.getI i
    if lead ≠ 0 then
      let x ← chr (Utilities.charFromSurrogates lead ch)
      let rest ← stringLoop data n (i + 1) 0
      return x :: rest
    else if Utilities.isLead ch then stringLoop data n (i + 1) ch
    else
      let x ← chr ch
      let rest ← stringLoop data n (i + 1) 0
      return x :: rest

/-- Normalizer2.py:225-241 `stringFromData`; a negative length gives an empty loop. -/
def stringFromData (n : Normalizer2) (index length : Int) : Py Str := stringLoop n.extraData length.toNat index 0

/-- Normalizer2.py:260-271: the end of `getDecomposition` for a `norm16` that is not below `minYesNo`. -/
def mappingOf (n : Normalizer2) (c norm16 : Nat) : Py (Option Str) := do
  if n.isHangulLV norm16 ∨ n.isHangulLVT norm16 then
    let d ← hangulDecomposition c
    return some d
  else
    let ix := getMappingIndex norm16
    let firstUnit ← n.extraData.getI ix
    let d ← n.stringFromData (ix + 1) (firstUnit &&& MAPPING_LENGTH_MASK : Nat)
    return some d

/-- Normalizer2.py:244-271 `getDecomposition`. -/
def getDecomposition (n : Normalizer2) (c : Nat) : Py (Option Str) := do
  let norm16 ← n.getNorm16 c
  if c < n.minDecompNoCP ∨ n.isMaybeOrNonZeroCC norm16 then return none
  else if n.isDecompNoAlgorithmic norm16 then
    let c ← chr (n.mapAlgorithmic c norm16)
    let norm16 ← n.getRawNorm16 c
    if norm16 < n.minYesNo then return some [c] else n.mappingOf c norm16
  else if norm16 < n.minYesNo then return none
  else n.mappingOf c norm16

/-- Normalizer2.py:288-314: the end of `getRawDecomposition`, which reads the mapping from the extra data. -/
def rawMappingOf (n : Normalizer2) (norm16 : Nat) : Py (Option Str) := do
  let ix := getMappingIndex norm16
  let firstUnit ← n.extraData.getI ix
  let length := firstUnit &&& MAPPING_LENGTH_MASK
  if firstUnit &&& MAPPING_HAS_RAW_MAPPING ≠ 0 then
    let rawMappingIndex : Int := (ix : Int) - (firstUnit / 2 ^ 7 % 2 : Nat) - 1
    let rm0 ← n.extraData.getI rawMappingIndex
    if rm0 ≤ MAPPING_LENGTH_MASK then
      if rm0 = 0 then return none
      else
        let d ← n.stringFromData (rawMappingIndex - rm0) rm0
        return some d
    else
      let x ← chr rm0
      let d ← n.stringFromData (ix + 3) ((length : Int) - 2)
      return some (x :: d)
  else if length = 0 then return none
  else
    let d ← n.stringFromData (ix + 1) length
    return some d

/-- Normalizer2.py:273-314 `getRawDecomposition`. -/
def getRawDecomposition (n : Normalizer2) (c : Nat) : Py (Option Str) := do
  let norm16 ← n.getNorm16 c
  if c < n.minDecompNoCP ∨ n.isDecompYes norm16 then return none
  else if n.isHangulLV norm16 ∨ n.isHangulLVT norm16 then
    let d ← rawHangulDecomposition c
    return some d
  else if n.isDecompNoAlgorithmic norm16 then
    let x ← chr (n.mapAlgorithmic c norm16)
    return some [x]
  else n.rawMappingOf norm16

end Normalizer2

open Verif.Data

/-- Normalizer2.py:124-125: the trie of `createFromHardCodedData`. -/
noncomputable def nfcTrie : CPTrie where
  index := nfcTrieIndex.arr
  data := nfcTrieData.arr
  trieType := nfcType
  valueWidth := nfcValueWidth
  index3NullOffset := nfcIndex3NullOffset
  dataNullOffset := nfcDataNullOffset
  highStart := nfcHighStart
  shifted12HighStart := nfcShifted12HighStart

/-- Normalizer2.py:122-127 `createFromHardCodedData`. -/
noncomputable def createFromHardCodedData : Py Normalizer2 := do
  let trie ← CPTrie.init nfcTrieIndex.arr nfcTrieData.arr nfcType nfcValueWidth nfcIndex3NullOffset nfcDataNullOffset nfcHighStart
    nfcShifted12HighStart
  Normalizer2.init trie nfcIndexes.arr nfcExtraData.arr

end Verif

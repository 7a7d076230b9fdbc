import Verif.Model.Utrie2
import Verif.Data.CharProps
/-!
# Model of `UnicodeData/CharProps.py`

Code points are natural numbers. `x >> n`, `x << n`, `x & m`, `x | m` are the operations of the same name on
natural numbers. The float results of `numericValueFromProps` are modelled by the exact rational number: Python
rounds the two divisions and the powers of ten to a double. The unannotated result of
`getUnicodeProperties` is a natural number. Functions that read `propsVectors` after the trie lookup take the vector
index, as in the code.
-/
namespace Verif.Char
open Verif.Data

noncomputable section

/-- CharProps.py:13-14 `propsTrie`. -/
def propsTrie : UTrie2 where
  index := propsIndex.arr
  indexLength := propsIndexLength
  index2NullOffset := propsIndex2NullOffset
  dataNullOffset := propsDataNullOffset
  highStart := propsHighStart
  highValueIndex := propsHighValueIndex

/-- CharProps.py:16-17 `propsVectorTrie`. -/
def propsVectorTrie : UTrie2 where
  index := propsVectorsIndex.arr
  indexLength := propsVectorsIndexLength
  index2NullOffset := propsVectorsIndex2NullOffset
  dataNullOffset := propsVectorsDataNullOffset
  highStart := propsVectorsHighStart
  highValueIndex := propsVectorsHighValueIndex

/-! ## Masks of general categories (GeneralCategories.py:82-172) -/

/-- GeneralCategories.py:82 `GC_CN_MASK`. -/
def CN_MASK : Nat := 1 <<< 0
/-- GeneralCategories.py:85 `GC_LU_MASK`. -/
def LU_MASK : Nat := 1 <<< 1
/-- GeneralCategories.py:87 `GC_LL_MASK`. -/
def LL_MASK : Nat := 1 <<< 2
/-- GeneralCategories.py:89 `GC_LT_MASK`. -/
def LT_MASK : Nat := 1 <<< 3
/-- GeneralCategories.py:91 `GC_LM_MASK`. -/
def LM_MASK : Nat := 1 <<< 4
/-- GeneralCategories.py:93 `GC_LO_MASK`. -/
def LO_MASK : Nat := 1 <<< 5
/-- GeneralCategories.py:96 `GC_MN_MASK`. -/
def MN_MASK : Nat := 1 <<< 6
/-- GeneralCategories.py:98 `GC_ME_MASK`. -/
def ME_MASK : Nat := 1 <<< 7
/-- GeneralCategories.py:100 `GC_MC_MASK`. -/
def MC_MASK : Nat := 1 <<< 8
/-- GeneralCategories.py:103 `GC_ND_MASK`. -/
def ND_MASK : Nat := 1 <<< 9
/-- GeneralCategories.py:105 `GC_NL_MASK`. -/
def NL_MASK : Nat := 1 <<< 10
/-- GeneralCategories.py:107 `GC_NO_MASK`. -/
def NO_MASK : Nat := 1 <<< 11
/-- GeneralCategories.py:110 `GC_ZS_MASK`. -/
def ZS_MASK : Nat := 1 <<< 12
/-- GeneralCategories.py:112 `GC_ZL_MASK`. -/
def ZL_MASK : Nat := 1 <<< 13
/-- GeneralCategories.py:114 `GC_ZP_MASK`. -/
def ZP_MASK : Nat := 1 <<< 14
/-- GeneralCategories.py:117 `GC_CC_MASK`. -/
def CC_MASK : Nat := 1 <<< 15
/-- GeneralCategories.py:119 `GC_CF_MASK`. -/
def CF_MASK : Nat := 1 <<< 16
/-- GeneralCategories.py:121 `GC_CO_MASK`. -/
def CO_MASK : Nat := 1 <<< 17
/-- GeneralCategories.py:123 `GC_CS_MASK`. -/
def CS_MASK : Nat := 1 <<< 18
/-- GeneralCategories.py:126 `GC_PD_MASK`. -/
def PD_MASK : Nat := 1 <<< 19
/-- GeneralCategories.py:128 `GC_PS_MASK`. -/
def PS_MASK : Nat := 1 <<< 20
/-- GeneralCategories.py:130 `GC_PE_MASK`. -/
def PE_MASK : Nat := 1 <<< 21
/-- GeneralCategories.py:132 `GC_PC_MASK`. -/
def PC_MASK : Nat := 1 <<< 22
/-- GeneralCategories.py:134 `GC_PO_MASK`. -/
def PO_MASK : Nat := 1 <<< 23
/-- GeneralCategories.py:137 `GC_SM_MASK`. -/
def SM_MASK : Nat := 1 <<< 24
/-- GeneralCategories.py:139 `GC_SC_MASK`. -/
def SC_MASK : Nat := 1 <<< 25
/-- GeneralCategories.py:141 `GC_SK_MASK`. -/
def SK_MASK : Nat := 1 <<< 26
/-- GeneralCategories.py:143 `GC_SO_MASK`. -/
def SO_MASK : Nat := 1 <<< 27
/-- GeneralCategories.py:146 `GC_PI_MASK`. -/
def PI_MASK : Nat := 1 <<< 28
/-- GeneralCategories.py:148 `GC_PF_MASK`. -/
def PF_MASK : Nat := 1 <<< 29
/-- GeneralCategories.py:152 `GC_L_MASK`. -/
def L_MASK : Nat := LU_MASK ||| LL_MASK ||| LT_MASK ||| LM_MASK ||| LO_MASK
/-- GeneralCategories.py:158 `GC_M_MASK`. -/
def M_MASK : Nat := MN_MASK ||| ME_MASK ||| MC_MASK
/-- GeneralCategories.py:161 `GC_N_MASK`. -/
def N_MASK : Nat := ND_MASK ||| NL_MASK ||| NO_MASK
/-- GeneralCategories.py:164 `GC_Z_MASK`. -/
def Z_MASK : Nat := ZS_MASK ||| ZL_MASK ||| ZP_MASK
/-- GeneralCategories.py:167 `GC_C_MASK`. -/
def C_MASK : Nat := CN_MASK ||| CC_MASK ||| CF_MASK ||| CO_MASK ||| CS_MASK
/-- GeneralCategories.py:170 `GC_P_MASK`. -/
def P_MASK : Nat := PD_MASK ||| PS_MASK ||| PE_MASK ||| PC_MASK ||| PO_MASK ||| PI_MASK ||| PF_MASK
/-- GeneralCategories.py:173 `GC_S_MASK`. -/
def S_MASK : Nat := SM_MASK ||| SC_MASK ||| SK_MASK ||| SO_MASK

/-- CharProps.py:19-20 `unicodePropertiesFromVecIndex`. -/
def unicodePropertiesFromVecIndex (vecIndex column : Nat) : Py Nat :=
  propsVectorsTable.arr.get (vecIndex + column)

/-- CharProps.py:22-27 `getUnicodeProperties`. -/
def getUnicodeProperties (c column : Nat) : Py Nat :=
  if column > propsVectorsColumns then .ok 0
  else do
    let vecIndex ← propsVectorTrie.get c
    unicodePropertiesFromVecIndex vecIndex column

/-- CharProps.py:29-30 `generalCategoryFromProps`. -/
def generalCategoryFromProps (props : Nat) : Nat :=
  props &&& 0x1F

/-- CharProps.py:32-34 `getGeneralCategory`. -/
def getGeneralCategory (c : Nat) : Py Nat :=
  do
  let props ← propsTrie.get c
  return generalCategoryFromProps props

/-- CharProps.py:36-37 `gcMask`. -/
def gcMask (gc : Nat) : Nat :=
  1 <<< gc

/-- CharProps.py:39-40 `isLower`. -/
def isLower (c : Nat) : Py Bool :=
  do
  let gc ← getGeneralCategory c
  return decide (gc = 2)

/-- CharProps.py:42-43 `isUpper`. -/
def isUpper (c : Nat) : Py Bool :=
  do
  let gc ← getGeneralCategory c
  return decide (gc = 1)

/-- CharProps.py:45-46 `isTitle`. -/
def isTitle (c : Nat) : Py Bool :=
  do
  let gc ← getGeneralCategory c
  return decide (gc = 3)

/-- CharProps.py:48-49 `isDigit`. -/
def isDigit (c : Nat) : Py Bool :=
  do
  let gc ← getGeneralCategory c
  return decide (gc = 9)

/-- CharProps.py:51-58 `isHexDigit`. -/
def isHexDigit (c : Nat) : Py Bool :=
  if (0x41 ≤ c ∧ c < 0x46 + 1) ∨ (0x61 ≤ c ∧ c < 0x66 + 1) then .ok true
  else if (0xff21 ≤ c ∧ c < 0xff26 + 1) ∨ (0xff41 ≤ c ∧ c < 0xff46 + 1) then .ok true
  else isDigit c

/-- CharProps.py:60-62 `isalpha`. -/
def isalpha (c : Nat) : Py Bool :=
  do
  let gc ← getGeneralCategory c
  return decide (gcMask gc &&& (L_MASK) ≠ 0)

/-- CharProps.py:64-66 `isAlphabetic`. -/
def isAlphabetic (c : Nat) : Py Bool :=
  do
  let props ← getUnicodeProperties c 1
  return decide (props &&& (1 <<< 8) ≠ 0)

/-- CharProps.py:68-70 `isalnum`. -/
def isalnum (c : Nat) : Py Bool :=
  do
  let gc ← getGeneralCategory c
  return decide (gcMask gc &&& (L_MASK ||| ND_MASK) ≠ 0)

/-- CharProps.py:72-73 `isalnumPOSIX`. -/
def isalnumPOSIX (c : Nat) : Py Bool :=
  do
  let a ← isAlphabetic c
  if a then return true else isDigit c

/-- CharProps.py:75-76 `isDefined`. -/
def isDefined (c : Nat) : Py Bool :=
  do
  let gc ← getGeneralCategory c
  return decide (gc ≠ 0)

/-- CharProps.py:78-80 `isbase`. -/
def isbase (c : Nat) : Py Bool :=
  do
  let gc ← getGeneralCategory c
  return decide (gcMask gc &&& (L_MASK ||| N_MASK ||| MC_MASK ||| ME_MASK) ≠ 0)

/-- CharProps.py:82-84 `iscntrl`. -/
def iscntrl (c : Nat) : Py Bool :=
  do
  let gc ← getGeneralCategory c
  return decide (gcMask gc &&& (CC_MASK ||| CF_MASK ||| ZL_MASK ||| ZP_MASK) ≠ 0)

/-- CharProps.py:86-87 `isISOControl`. -/
def isISOControl (c : Nat) : Bool :=
  decide (c ≤ 0x1F) || decide (0x7F ≤ c ∧ c < 0x9F + 1)

/-- CharProps.py:89-91 `isThatControlSpace`. -/
def isThatControlSpace (c : Nat) : Bool :=
  decide (c ≤ 0x9f ∧ ((c ≥ 9 ∧ c ≤ 0xd) ∨ (c ≥ 0x1c ∧ c ≤ 0x1f) ∨ c = 0x85))

/-- CharProps.py:93-95 `isThatASCIIControlSpace`. -/
def isThatASCIIControlSpace (c : Nat) : Bool :=
  decide (c ≤ 0x1f ∧ c ≥ 9 ∧ (c ≤ 0xd ∨ c ≥ 0x1c))

/-- CharProps.py:97-99 `isspace`. -/
def isspace (c : Nat) : Py Bool :=
  do
  let gc ← getGeneralCategory c
  return decide (gcMask gc &&& (Z_MASK) ≠ 0) || isThatControlSpace c

/-- CharProps.py:101-103 `isJavaSpaceChar`. -/
def isJavaSpaceChar (c : Nat) : Py Bool :=
  do
  let gc ← getGeneralCategory c
  return decide (gcMask gc &&& (Z_MASK) ≠ 0)

/-- CharProps.py:105-110 `isWhiteSpace`. -/
def isWhiteSpace (c : Nat) : Py Bool :=
  if c = 0xa0 ∨ c = 0x2007 ∨ c = 0x202f then .ok false
  else do
    let gc ← getGeneralCategory c
    return decide (gcMask gc &&& (Z_MASK) ≠ 0) || isThatASCIIControlSpace c

/-- CharProps.py:112-117 `isBlank`. -/
def isBlank (c : Nat) : Py Bool :=
  if c ≤ 0x9F then .ok (decide (c = 9) || decide (c = 0x20))
  else do
    let gc ← getGeneralCategory c
    return decide (gc = 12)

/-- CharProps.py:119-121 `isUWhiteSpace`. -/
def isUWhiteSpace (c : Nat) : Py Bool :=
  do
  let props ← getUnicodeProperties c 1
  return decide (props &&& (1 <<< 0) ≠ 0)

/-- CharProps.py:123-126 `isPrint`. -/
def isPrint (c : Nat) : Py Bool :=
  do
  let gc ← getGeneralCategory c
  return decide (gcMask gc &&& (C_MASK) = 0)

/-- CharProps.py:137-140 `isGraphPOSIX`. -/
def isGraphPOSIX (c : Nat) : Py Bool :=
  do
  let gc ← getGeneralCategory c
  return decide (gcMask gc &&& (CC_MASK ||| CS_MASK ||| CN_MASK ||| Z_MASK) = 0)

/-- CharProps.py:128-130 `isPrintPOSIX`. -/
def isPrintPOSIX (c : Nat) : Py Bool :=
  do
  let gc ← getGeneralCategory c
  if gc = 12 then return true else isGraphPOSIX c

/-- CharProps.py:132-135 `isgraph`. -/
def isgraph (c : Nat) : Py Bool :=
  do
  let gc ← getGeneralCategory c
  return decide (gcMask gc &&& (CC_MASK ||| CF_MASK ||| CS_MASK ||| CN_MASK ||| Z_MASK) = 0)

/-- CharProps.py:142-144 `ispunct`. -/
def ispunct (c : Nat) : Py Bool :=
  do
  let gc ← getGeneralCategory c
  return decide (gcMask gc &&& (P_MASK) ≠ 0)

/-- CharProps.py:146-148 `isIDStart`. -/
def isIDStart (c : Nat) : Py Bool :=
  do
  let gc ← getGeneralCategory c
  return decide (gcMask gc &&& (L_MASK ||| NL_MASK) ≠ 0)

/-- CharProps.py:154-159 `isIDIgnorable`; the expression of line 156 has no effect. -/
def isIDIgnorable (c : Nat) : Py Bool :=
  do
  let gc ← getGeneralCategory c
  return decide (gc = 16)

/-- CharProps.py:150-152 `isIDPart`. -/
def isIDPart (c : Nat) : Py Bool :=
  do
  let gc ← getGeneralCategory c
  if gcMask gc &&& (ND_MASK ||| NL_MASK ||| L_MASK ||| PC_MASK ||| MC_MASK ||| MN_MASK) ≠ 0 then return true
  else isIDIgnorable c

/-- CharProps.py:161-163 `isJavaIDStart`. -/
def isJavaIDStart (c : Nat) : Py Bool :=
  do
  let gc ← getGeneralCategory c
  return decide (gcMask gc &&& (L_MASK ||| SC_MASK ||| PC_MASK) ≠ 0)

/-- CharProps.py:165-167 `isJavaIDPart`. -/
def isJavaIDPart (c : Nat) : Py Bool :=
  do
  let gc ← getGeneralCategory c
  if gcMask gc &&& (ND_MASK ||| NL_MASK ||| L_MASK ||| SC_MASK ||| PC_MASK ||| MC_MASK ||| MN_MASK) ≠ 0 then return true
  else isIDIgnorable c

/-! ## Numbers (uprops_h.py:20-31) -/

/-- CharProps.py:180-181 `numericTypeValueFromProps`. -/
def numericTypeValueFromProps (props : Nat) : Nat :=
  props >>> 6

/-- CharProps.py:183-185 `getNumericTypeValue`. -/
def getNumericTypeValue (c : Nat) : Py Nat :=
  do
  let props ← propsTrie.get c
  return props >>> 6

/-- CharProps.py:169-171 `digitValue`. -/
def digitValue (c : Nat) : Py Int :=
  do
  let ntv ← getNumericTypeValue c
  let value : Int := (ntv : Int) - 1
  return if value ≤ 9 then value else -1

/-- CharProps.py:173-174 `numericTypeFromProps`. -/
def numericTypeFromProps (props : Nat) : Nat :=
  props &&& 0x1F

/-- CharProps.py:176-178 `getNumericType`. -/
def getNumericType (c : Nat) : Py Nat :=
  do
  let props ← propsTrie.get c
  return numericTypeFromProps props

/-- CharProps.py:218-227: multiplication by a power of ten, four digits at a time; `fuel` bounds the passes of the
loop. -/
def timesPow10 : Nat → Rat → Nat → Py Rat
  | 0, _, _ => .error .diverges
  | fuel + 1, numValue, exp =>
    if exp ≥ 4 then timesPow10 fuel (numValue * 10000) (exp - 4)
    else if exp = 3 then .ok (numValue * 1000)
    else if exp = 2 then .ok (numValue * 100)
    else if exp = 1 then .ok (numValue * 10)
    else .ok numValue

/-- CharProps.py:187-263 `numericValueFromProps`; `None` is `none`. -/
def numericValueFromProps (props : Nat) : Py (Option Rat) :=
  let ntv := numericTypeValueFromProps props
  if ntv = 0 then .ok none
  else if ntv < 11 then .ok (some (((ntv : Int) - 1 : Int) : Rat))
  else if ntv < 21 then .ok (some (((ntv : Int) - 11 : Int) : Rat))
  else if ntv < 0xb0 then .ok (some (((ntv : Int) - 21 : Int) : Rat))
  else if ntv < 0x1e0 then
    let numerator : Int := ((ntv >>> 4 : Nat) : Int) - 12
    let denominator : Nat := (ntv &&& 0xf) + 1
    .ok (some ((numerator : Rat) / (denominator : Rat)))
  else if ntv < 0x300 then do
    let mant : Int := ((ntv >>> 5 : Nat) : Int) - 14
    let exp := (ntv &&& 0x1f) + 2
    let v ← timesPow10 (exp + 1) (mant : Rat) exp
    return some v
  else if ntv < 0x300 + 36 then
    let numValue : Int := ((ntv >>> 2 : Nat) : Int) - 0xbf
    let exp := (ntv &&& 3) + 1
    .ok (some ((if exp = 4 then numValue * (60*60*60*60)
      else if exp = 3 then numValue * (60*60*60)
      else if exp = 2 then numValue * (60*60)
      else if exp = 1 then numValue * 60
      else numValue : Int) : Rat))
  else if ntv < 0x300 + 36 + 24 then
    let frac20 := ntv - (0x300 + 36)
    let numerator := 2 * (frac20 &&& 3) + 1
    let denominator := 20 <<< (frac20 >>> 2)
    .ok (some ((numerator : Rat) / (denominator : Rat)))
  else if ntv < 0x300 + 36 + 24 + 16 then
    let frac32 := ntv - (0x300 + 36 + 24)
    let numerator := 2 * (frac32 &&& 3) + 1
    let denominator := 32 <<< (frac32 >>> 2)
    .ok (some ((numerator : Rat) / (denominator : Rat)))
  else .ok none

/-- CharProps.py:265-267 `getNumericValue`. -/
def getNumericValue (c : Nat) : Py (Option Rat) :=
  do
  let props ← propsTrie.get c
  numericValueFromProps props

/-! ## Columns of the property vectors (uprops_h.py:33-95) -/

/-- CharProps.py:269-271 `ageFromProps`. -/
def ageFromProps (props : Nat) : List Nat :=
  let age := props >>> 24
  [age >>> 4, age &&& 0xF, 0, 0]

/-- CharProps.py:273-275 `getAge`. -/
def getAge (c : Nat) : Py (List Nat) :=
  do
  let props ← getUnicodeProperties c 0
  return ageFromProps props

/-- CharProps.py:277-280 `mergeScriptCodeOrIndex`. -/
def mergeScriptCodeOrIndex (scriptX : Nat) : Nat :=
  ((scriptX &&& 0x00300000) >>> 12) ||| (scriptX &&& 0x000000ff)

/-- CharProps.py:282-296 `scriptFromVecIndex`. -/
def scriptFromVecIndex (vecIndex : Nat) : Py Nat :=
  do
  let props ← unicodePropertiesFromVecIndex vecIndex 0
  let scriptX := props &&& 0x00f000ff
  let codeOrIndex := mergeScriptCodeOrIndex scriptX
  if scriptX < 0x400000 then return codeOrIndex
  else if scriptX < 0x800000 then return 0
  else if scriptX < 0xc00000 then return 1
  else scriptExtensions.arr.get codeOrIndex

/-- CharProps.py:298-304 `getScript`; `USCRIPT_INVALID_CODE` is -1. -/
def getScript (c : Nat) : Py Int :=
  if c > 0x10FFFF then .ok (-1)
  else do
    let vecIndex ← propsVectorTrie.get c
    let s ← scriptFromVecIndex vecIndex
    return (s : Int)

/-- CharProps.py:306-308 `blockFromVecIndex`. -/
def blockFromVecIndex (vecIndex : Nat) : Py Nat :=
  do
  let props ← unicodePropertiesFromVecIndex vecIndex 0
  return (props &&& 0x0001ff00) >>> 8

/-- CharProps.py:310-312 `getBlock`. -/
def getBlock (c : Nat) : Py Nat :=
  do
  let vecIndex ← propsVectorTrie.get c
  blockFromVecIndex vecIndex

/-- CharProps.py:314-317 `eastAsianWidthFromVecIndex`. -/
def eastAsianWidthFromVecIndex (vecIndex : Nat) : Py Nat :=
  do
  let props ← unicodePropertiesFromVecIndex vecIndex 0
  return (props &&& 0x000e0000) >>> 17

/-- CharProps.py:319-321 `getEastAsianWidth`. -/
def getEastAsianWidth (c : Nat) : Py Nat :=
  do
  let vecIndex ← propsVectorTrie.get c
  eastAsianWidthFromVecIndex vecIndex

/-- CharProps.py:323-325 `lineBreakFromVecIndex`. -/
def lineBreakFromVecIndex (vecIndex : Nat) : Py Nat :=
  do
  let props ← unicodePropertiesFromVecIndex vecIndex 2
  return (props &&& 0x03f00000) >>> 20

/-- CharProps.py:327-329 `getLineBreak`. -/
def getLineBreak (c : Nat) : Py Nat :=
  do
  let vecIndex ← propsVectorTrie.get c
  lineBreakFromVecIndex vecIndex

/-- CharProps.py:331-333 `sentenceBreakFromVecIndex`. -/
def sentenceBreakFromVecIndex (vecIndex : Nat) : Py Nat :=
  do
  let props ← unicodePropertiesFromVecIndex vecIndex 2
  return (props &&& 0x000f8000) >>> 15

/-- CharProps.py:335-337 `getSentenceBreak`. -/
def getSentenceBreak (c : Nat) : Py Nat :=
  do
  let vecIndex ← propsVectorTrie.get c
  sentenceBreakFromVecIndex vecIndex

/-- CharProps.py:339-341 `wordBreakFromVecIndex`. -/
def wordBreakFromVecIndex (vecIndex : Nat) : Py Nat :=
  do
  let props ← unicodePropertiesFromVecIndex vecIndex 2
  return (props &&& 0x00007c00) >>> 10

/-- CharProps.py:343-345 `getWordBreak`. -/
def getWordBreak (c : Nat) : Py Nat :=
  do
  let vecIndex ← propsVectorTrie.get c
  wordBreakFromVecIndex vecIndex

/-- CharProps.py:347-349 `graphemeClusterBreakFromVecIndex`. -/
def graphemeClusterBreakFromVecIndex (vecIndex : Nat) : Py Nat :=
  do
  let props ← unicodePropertiesFromVecIndex vecIndex 2
  return (props &&& 0x000003e0) >>> 5

/-- CharProps.py:351-353 `getGraphemeClusterBreak`. -/
def getGraphemeClusterBreak (c : Nat) : Py Nat :=
  do
  let vecIndex ← propsVectorTrie.get c
  graphemeClusterBreakFromVecIndex vecIndex

/-- CharProps.py:355-357 `decompTypeFromVecIndex`. -/
def decompTypeFromVecIndex (vecIndex : Nat) : Py Nat :=
  do
  let props ← unicodePropertiesFromVecIndex vecIndex 2
  return props &&& 0x0000001f

/-- CharProps.py:359-361 `getDecompType`. -/
def getDecompType (c : Nat) : Py Nat :=
  do
  let vecIndex ← propsVectorTrie.get c
  decompTypeFromVecIndex vecIndex

/-- CharProps.py:363-365 `binaryPropFromVecIndex`. -/
def binaryPropFromVecIndex (vecIndex propShift column : Nat) : Py Bool :=
  do
  let props ← unicodePropertiesFromVecIndex vecIndex column
  return decide (props &&& (1 <<< propShift) ≠ 0)

/-- CharProps.py:367-372 `getBinaryProp`. -/
def getBinaryProp (c propShift : Nat) (column : Nat := 1) : Py Bool :=
  if propShift ≥ 32 then .ok false
  else do
    let vecIndex ← propsVectorTrie.get c
    binaryPropFromVecIndex vecIndex propShift column

/-- CharProps.py:374-375 `isExtendedPictograph`. -/
def isExtendedPictograph (c : Nat) : Py Bool :=
  getBinaryProp c 26 2

/-- CharProps.py:377-378 `isEmojiComponent`. -/
def isEmojiComponent (c : Nat) : Py Bool :=
  getBinaryProp c 27 2

/-- CharProps.py:380-381 `isEmoji`. -/
def isEmoji (c : Nat) : Py Bool :=
  getBinaryProp c 28 2

/-- CharProps.py:383-384 `isEmojiPresentation`. -/
def isEmojiPresentation (c : Nat) : Py Bool :=
  getBinaryProp c 29 2

/-- CharProps.py:386-387 `isEmojiModifier`. -/
def isEmojiModifier (c : Nat) : Py Bool :=
  getBinaryProp c 30 2

/-- CharProps.py:389-390 `isEmojiModifierBase`. -/
def isEmojiModifierBase (c : Nat) : Py Bool :=
  getBinaryProp c 31 2

end

end Verif.Char

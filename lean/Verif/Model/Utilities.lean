import Verif.Model.Py
/-!
# Model of `UnicodeData/Utilities.py`

Arguments are arbitrary Python ints. `x & mask` is `pyAnd`, `x >> n` is the floor division
`x / 2 ^ n`, `x << n` is `x * 2 ^ n`. Not modelled: the empty class `_object` (12-14). `listOfCodes` (114-116) is
in `Model/Hex.lean`.
-/
namespace Verif.Utilities

/-- Utilities.py:16-18 `isUnicodeNoncharacter`. -/
def isUnicodeNoncharacter (code : Int) : Bool :=
  decide (code ≥ 0xfdd0) && (decide (code ≤ 0xfdef) || decide (pyAnd code 0xfffe = 0xfffe)) && decide (code ≤ 0x10ffff)

/-- Utilities.py:20 `_firstLead`. -/
def firstLead : Int := 0xD800
/-- Utilities.py:21 `_firstTrail`. -/
def firstTrail : Int := 0xDC00
/-- Utilities.py:22 `_firstNonBMP`. -/
def firstNonBMP : Int := 0x10000
/-- Utilities.py:23 `_leadShift`. -/
def leadShift : Nat := 10
/-- Utilities.py:24 `_surrogateMask`. -/
def surrogateMask : Int := 0xFFFFF800
/-- Utilities.py:25 `_leadTrailMask`. -/
def leadTrailMask : Int := 0xFFFFFC00
/-- Utilities.py:26 `_trailMask`. -/
def trailMask : Int := 0xFFFFFFFF - leadTrailMask
/-- Utilities.py:27 `_surrogateOffset`. -/
def surrogateOffset : Int := firstLead * 2 ^ leadShift + firstTrail - firstNonBMP
/-- Utilities.py:28 `_leadOffset`. -/
def leadOffset : Int := firstLead - firstNonBMP / 2 ^ leadShift

/-- Utilities.py:30-31 `isSurrogate`. -/
def isSurrogate (code : Int) : Bool := decide (pyAnd code surrogateMask = firstLead)
/-- Utilities.py:33-34 `isSurrogateLead`. -/
def isSurrogateLead (code : Int) : Bool := decide (pyAnd code 0x400 = 0)
/-- Utilities.py:36-37 `isSurrogateTrail`. -/
def isSurrogateTrail (code : Int) : Bool := decide (pyAnd code 0x400 ≠ 0)
/-- Utilities.py:39-40 `isLead`. -/
def isLead (code : Int) : Bool := decide (pyAnd code leadTrailMask = firstLead)
/-- Utilities.py:42-43 `isTrail`. -/
def isTrail (code : Int) : Bool := decide (pyAnd code leadTrailMask = firstTrail)

/-- Utilities.py:45-46 `charFromSurrogates`. -/
def charFromSurrogates (lead trail : Int) : Int := lead * 2 ^ leadShift + trail - surrogateOffset

/-- Utilities.py:48-51 `surrogatesFromChar`. -/
def surrogatesFromChar (ch : Int) : Int × Int :=
  (ch / 2 ^ leadShift + leadOffset, pyAnd ch trailMask + firstTrail)

/-- Utilities.py:53-66 `arithmeticShift`. The widths are natural numbers with
`1 ≤ bitsInWord` and `bitsInField ≤ bitsInWord`; for other widths Python raises `ValueError` (negative
shift count), which is the `.error` here. -/
def arithmeticShift (value : Int) (bitsInWord bitsInField : Nat) : Py Int :=
  if bitsInWord = 0 ∨ bitsInWord < bitsInField then .error .valueError
  else
    let signBit : Int := 2 ^ (bitsInWord - 1)
    let shift := bitsInWord - bitsInField
    let result := value / 2 ^ shift
    .ok (if pyAnd value signBit ≠ 0 then result - 2 ^ bitsInField else result)

/-- Utilities.py:80-82 (and 84-102): one halving step of `highBit`. -/
def highBitStep (n : Nat) (s : Int × Int) : Int × Int :=
  if s.1 ≥ 2 ^ n then (s.1 / 2 ^ n, s.2 + n) else s

/-- Utilities.py:68-104 `highBit`. -/
def highBit (value : Int) : Option Int :=
  if value = 0 then none
  else
    some (highBitStep 1 (highBitStep 2 (highBitStep 4 (highBitStep 8 (highBitStep 16 (highBitStep 32 (value, 0))))))).2

end Verif.Utilities

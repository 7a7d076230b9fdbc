import Verif.Model.CharProps
/-!
# Model of the float arithmetic in `UnicodeData/CharProps.py`

`Model/CharProps` has the exact rational numbers. Here each operation on floats rounds: Python's `int / int` and `float * float` give
the rounded exact result, `int * float` converts the integer first. Rounding is an argument, `rnd`. Infinities do not occur.
-/
namespace Verif.Char

/-- CharProps.py:218-227: multiplication by a power of ten, with floats. -/
def timesPow10Float (rnd : Rat → Rat) : Nat → Rat → Nat → Py Rat
  | 0, _, _ => .error .diverges
  | fuel + 1, numValue, exp =>
    if exp ≥ 4 then timesPow10Float rnd fuel (rnd (rnd numValue * 10000)) (exp - 4)
    else if exp = 3 then .ok (rnd (rnd numValue * 1000))
    else if exp = 2 then .ok (rnd (rnd numValue * 100))
    else if exp = 1 then .ok (rnd (rnd numValue * 10))
    else .ok numValue

/-- CharProps.py:187-263 `numericValueFromProps`, with floats; `None` is `none`. -/
def numericFloatFromProps (rnd : Rat → Rat) (props : Nat) : Py (Option Rat) :=
  let ntv := numericTypeValueFromProps props
  if ntv = 0 then .ok none
  else if ntv < 11 then .ok (some (((ntv : Int) - 1 : Int) : Rat))
  else if ntv < 21 then .ok (some (((ntv : Int) - 11 : Int) : Rat))
  else if ntv < 0xb0 then .ok (some (((ntv : Int) - 21 : Int) : Rat))
  else if ntv < 0x1e0 then
    let numerator : Int := ((ntv >>> 4 : Nat) : Int) - 12
    let denominator : Nat := (ntv &&& 0xf) + 1
    .ok (some (rnd ((numerator : Rat) / (denominator : Rat))))
  else if ntv < 0x300 then do
    let mant : Int := ((ntv >>> 5 : Nat) : Int) - 14
    let exp := (ntv &&& 0x1f) + 2
    let v ← timesPow10Float rnd (exp + 1) (mant : Rat) exp
    return some v
  else if ntv < 0x300 + 36 then
    let numValue : Int := ((ntv >>> 2 : Nat) : Int) - 0xbf
    let exp := (ntv &&& 3) + 1
    .ok (some ((if exp = 4 then numValue * (60*60*60*60)
      else if exp = 3 then numValue * (60*60*60)
      else if exp = 2 then numValue * (60*60)
      else if exp = 1 then numValue * 60
      else numValue : Int) : Rat))
  else if ntv < 0x300 + 36 + 24 then
    let frac20 := ntv - (0x300 + 36)
    let numerator := 2 * (frac20 &&& 3) + 1
    let denominator := 20 <<< (frac20 >>> 2)
    .ok (some (rnd ((numerator : Rat) / (denominator : Rat))))
  else if ntv < 0x300 + 36 + 24 + 16 then
    let frac32 := ntv - (0x300 + 36 + 24)
    let numerator := 2 * (frac32 &&& 3) + 1
    let denominator := 32 <<< (frac32 >>> 2)
    .ok (some (rnd ((numerator : Rat) / (denominator : Rat))))
  else .ok none

/-- CharProps.py:265-267 `getNumericValue`, with floats. -/
noncomputable def getNumericFloat (rnd : Rat → Rat) (c : Nat) : Py (Option Rat) :=
  do
  let props ← propsTrie.get c
  numericFloatFromProps rnd props

end Verif.Char

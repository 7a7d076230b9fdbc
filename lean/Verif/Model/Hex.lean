import Verif.Model.PyStr
/-!
# Hexadecimal formatting: `f"{n:04X}"`, and the functions that print code points

`listOfCodes` of `UnicodeData/Utilities.py` and `UnicodeSet.__str__`.
-/
namespace Verif

/-- The upper case hexadecimal digit of a number below 16. -/
def hexChar (d : Nat) : Nat := if d < 10 then 48 + d else 55 + d

/-- The hexadecimal digits of a number, `fuel` of them at most. -/
def hexLoop : Nat → Nat → Str
  | 0, _ => []
  | fuel + 1, n => if n < 16 then [hexChar n] else hexLoop fuel (n / 16) ++ [hexChar (n % 16)]

/-- `f"{n:X}"`. -/
def upperHex (n : Nat) : Str := hexLoop (n + 1) n

/-- `f"{n:0wX}"`. -/
def paddedHex (w n : Nat) : Str := List.replicate (w - (upperHex n).length) 48 ++ upperHex n

/-- `f"{n:0wX}"` for any int: the width counts the sign. -/
def signedHex (w : Nat) (n : Int) : Str := if n < 0 then 45 :: paddedHex (w - 1) n.natAbs else paddedHex w n.natAbs

/-- Utilities.py:114-116 `listOfCodes`. -/
def Utilities.listOfCodes (codes : List Int) : Str := join (txt ", ") (codes.map (signedHex 4))

/-- UnicodeSet.py:795-805 `__str__`; `dump` (807-809) prints it. -/
def USet.str (list : List Int) : Str :=
  txt "[" ++ join (txt ", ") (list.map fun cp => txt "0x" ++ signedHex 4 cp) ++ txt "]"

end Verif

import Verif.Model.CharProps
import Verif.Data.Names
/-!
# Vocabulary for the properties of `CharProps`

General categories are given by their two-letter names, as in the project's own `generalCategoryNames` dictionary
(UCDTypeDictionaries.py). Binary properties are given by the name and bit number of `uprops_h.py:48-79`.
-/
namespace Verif.Char.Spec
open Verif.Data

/-- The category that `getGeneralCategory(c)` returns is called one of `l`. -/
def InCategory (c : Nat) (l : List String) : Prop :=
  ∃ v name, getGeneralCategory c = .ok v ∧ generalCategoryNames.lookup v = some name ∧ name ∈ l

/-- The call `p` returns `True` if `P` and `False` otherwise; in particular it returns. -/
def Decides (p : Py Bool) (P : Prop) : Prop := (P → p = .ok true) ∧ (¬P → p = .ok false)

def letters : List String := ["Lu", "Ll", "Lt", "Lm", "Lo"]
def numbers : List String := ["Nd", "Nl", "No"]
def separators : List String := ["Zs", "Zl", "Zp"]
def others : List String := ["Cc", "Cf", "Cn", "Co", "Cs"]
def punctuation : List String := ["Pc", "Pd", "Ps", "Pe", "Pi", "Pf", "Po"]

/-- A non-character: the last two code points of a plane, and U+FDD0 to U+FDEF. -/
def Noncharacter (c : Nat) : Prop := c % 0x10000 = 0xFFFE ∨ c % 0x10000 = 0xFFFF ∨ (0xFDD0 ≤ c ∧ c ≤ 0xFDEF)

/-! Bits of word 1 of a property vector (uprops_h.py:48-79). -/

def White_Space : Nat := 0
def Dash : Nat := 1
def Math : Nat := 5
def Hex_Digit : Nat := 6
def ASCII_Hex_Digit : Nat := 7
def Alphabetic : Nat := 8
def Ideographic : Nat := 9
def Noncharacter_Code_Point : Nat := 12
def Grapheme_Extend : Nat := 13
def Unified_Ideograph : Nat := 18
def XID_Start : Nat := 22
def XID_Continue : Nat := 23
def ID_Start : Nat := 24
def ID_Continue : Nat := 25
def Grapheme_Base : Nat := 26
def Pattern_Syntax : Nat := 29
def Pattern_White_Space : Nat := 30

/-- What the numeric type-value field of a character encodes (uprops_h.py:21-30), as a formula. -/
def numericValue (ntv : Nat) : Option Rat :=
  if ntv = 0 then none
  else if ntv < 11 then some ((ntv - 1 : Nat) : Rat)
  else if ntv < 21 then some ((ntv - 11 : Nat) : Rat)
  else if ntv < 0xb0 then some ((ntv - 21 : Nat) : Rat)
  else if ntv < 0x1e0 then some (((ntv / 16 : Nat) - 12 : Rat) / ((ntv % 16 : Nat) + 1 : Rat))
  else if ntv < 0x300 then some (((ntv / 32 : Nat) - 14 : Rat) * 10 ^ (ntv % 32 + 2))
  else if ntv < 0x324 then some (((ntv / 4 : Nat) - 0xbf : Rat) * 60 ^ (ntv % 4 + 1))
  else if ntv < 0x33c then some (((2 * ((ntv - 0x324) % 4) + 1 : Nat) : Rat) / ((20 * 2 ^ ((ntv - 0x324) / 4) : Nat) : Rat))
  else if ntv < 0x34c then some (((2 * ((ntv - 0x33c) % 4) + 1 : Nat) : Rat) / ((32 * 2 ^ ((ntv - 0x33c) / 4) : Nat) : Rat))
  else none

end Verif.Char.Spec

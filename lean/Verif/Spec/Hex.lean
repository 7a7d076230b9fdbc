import Verif.Model.Text
/-!
# Specification of hexadecimal numerals
-/
namespace Verif.Spec

/-- The value of a hexadecimal digit `0`-`9`, `A`-`F`. -/
def HexDigit (c d : Nat) : Prop := 48 ≤ c ∧ c ≤ 57 ∧ d = c - 48 ∨ 65 ≤ c ∧ c ≤ 70 ∧ d = c - 65 + 10

/-- `Numeral t n`: the upper case hexadecimal numeral `t` has the value `n`. -/
inductive Numeral : Str → Nat → Prop
  | one {c d : Nat} : HexDigit c d → Numeral [c] d
  | more {t : Str} {n c d : Nat} : Numeral t n → HexDigit c d → Numeral (t ++ [c]) (16 * n + d)

/-- The numeral for `n` that is padded with zeros to `w` digits: it has at least `w` digits, and more than `w` only when it
does not begin with a zero. -/
def Padded (w : Nat) (n : Nat) (t : Str) : Prop :=
  Numeral t n ∧ w ≤ t.length ∧ (w < t.length → 1 < t.length → t.head? ≠ some 48)

end Verif.Spec

import Verif.Model.Text
/-!
# Specification of decomposition

`Expands raw s d`: replacing the characters of `s` again and again by their raw decompositions, as long as there is one
that has a raw decomposition, gives `d`.
-/
namespace Verif.Spec

inductive Expands (raw : Nat → Option Str) : Str → Str → Prop
  | nil : Expands raw [] []
  | keep {c : Nat} {s d : Str} : raw c = none → Expands raw s d → Expands raw (c :: s) (c :: d)
  | replace {c : Nat} {r s d : Str} : raw c = some r → Expands raw (r ++ s) d → Expands raw (c :: s) d

/-- The jamos of the Hangul syllable with lead `l`, vowel `v` and trail `t` (0 for none) by the Unicode standard, and the
syllable (section 3.12). -/
def hangulSyllable (l v t : Nat) : Nat := 0xAC00 + (l * 21 + v) * 28 + t

/-- The canonical decomposition of that syllable. -/
def hangulJamos (l v t : Nat) : Str := if t = 0 then [0x1100 + l, 0x1161 + v] else [0x1100 + l, 0x1161 + v, 0x11A7 + t]

/-- A Unicode scalar value. -/
def Scalar (c : Nat) : Prop := c < 0xD800 ∨ (0xE000 ≤ c ∧ c ≤ 0x10FFFF)

/-- UTF-16 code units of a character. -/
def utf16Units (c : Nat) : List Nat :=
  if c < 0x10000 then [c] else [0xD800 + (c - 0x10000) / 0x400, 0xDC00 + (c - 0x10000) % 0x400]

/-- UTF-16 encoding. -/
def utf16 (s : Str) : List Nat := s.flatMap utf16Units

end Verif.Spec

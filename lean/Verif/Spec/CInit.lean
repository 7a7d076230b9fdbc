import Verif.Spec.CExpr
/-!
# Specification of the initialisers of C arrays

A list of numbers with blanks between and commas behind them. Octal numbers, suffixes, signs, comments and designators are left out.
-/
namespace Verif.CHeader.Spec

/-- Spaces, tabs and line feeds. -/
def Space (s : Str) : Prop := ∀ x ∈ s, x = 32 ∨ x = 9 ∨ x = 10

/-- The text between the braces of an initialiser, and the numbers it lists. A comma may follow the last one. -/
inductive Elements : Str → List Nat → Prop
  | one {a s b : Str} {n : Nat} : Space a → Numeral s n → Space b → Elements (a ++ (s ++ b)) [n]
  | trail {a s b c : Str} {n : Nat} : Space a → Numeral s n → Space b → Space c → Elements (a ++ (s ++ (b ++ (txt "," ++ c)))) [n]
  | cons {a s b rest : Str} {n : Nat} {ns : List Nat} : Space a → Numeral s n → Space b → Elements rest ns →
      Elements (a ++ (s ++ (b ++ (txt "," ++ rest)))) (n :: ns)

/-- A number with blanks around it. -/
inductive Value : Str → Nat → Prop
  | mk {a s b : Str} {n : Nat} : Space a → Numeral s n → Space b → Value (a ++ (s ++ b)) n

end Verif.CHeader.Spec

import Verif.Model.Text
/-!
# Python `str` methods and `int`

Texts are lists of code points. Digits are the ASCII ones: `int` accepts other decimal digits as well, which the model
rejects.
-/
namespace Verif

/-- The code points of a text. -/
def txt (s : String) : Str := s.toList.map Char.toNat

/-- `str.isspace` of one character, also `\s` in regular expressions. -/
def isSpace (c : Nat) : Bool :=
  (9 ≤ c && c ≤ 13) || (28 ≤ c && c ≤ 32) || c == 0x85 || c == 0xA0 || c == 0x1680 || (0x2000 ≤ c && c ≤ 0x200A) || c == 0x2028 ||
    c == 0x2029 || c == 0x202F || c == 0x205F || c == 0x3000

/-- `s.strip()`. -/
def strip (s : Str) : Str := ((s.dropWhile isSpace).reverse.dropWhile isSpace).reverse

/-- `s.split(sep)` for a separator of one character. -/
def splitOn (sep : Nat) : Str → List Str
  | [] => [[]]
  | c :: cs =>
    if c = sep then [] :: splitOn sep cs
    else
      match splitOn sep cs with
      | [] => [[c]]
      | f :: fs => (c :: f) :: fs

/-- `sep.join(l)`. -/
def join (sep : Str) (l : List Str) : Str := sep.intercalate l

/-- `s.replace(c, t)` for one character `c`. -/
def replace (c : Nat) (t : Str) : Str → Str
  | [] => []
  | x :: xs => (if x = c then t else [x]) ++ replace c t xs

/-- The value of a digit. -/
def digitOf (c : Nat) : Option Nat :=
  if 48 ≤ c ∧ c ≤ 57 then some (c - 48)
  else if 97 ≤ c ∧ c ≤ 122 then some (c - 87)
  else if 65 ≤ c ∧ c ≤ 90 then some (c - 55)
  else none

/-- What precedes the rest of the digits in `digitsLoop`. -/
inductive Prev | start | base | digit | underscore
  deriving DecidableEq

/-- The digits of an `int` literal, with single underscores between digits or after the base prefix. -/
def digitsLoop (base : Nat) : Prev → Nat → Str → Py Nat
  | p, acc, [] => if p = .digit then .ok acc else .error .valueError
  | p, acc, c :: cs =>
    if c = 95 then
      if p = .digit ∨ p = .base then digitsLoop base .underscore acc cs else .error .valueError
    else
      match digitOf c with
      | some d => if d < base then digitsLoop base .digit (acc * base + d) cs else .error .valueError
      | none => .error .valueError

/-- The part of an `int` literal after the sign. -/
def unsigned (base : Nat) (s : Str) : Py Nat :=
  match s with
  | 48 :: x :: cs => if base = 16 ∧ (x = 120 ∨ x = 88) then digitsLoop base .base 0 cs else digitsLoop base .start 0 s
  | _ => digitsLoop base .start 0 s

/-- `int(s, base)` for base 10 or 16. -/
def pyInt (base : Nat) (s : Str) : Py Int :=
  match strip s with
  | 45 :: cs => do let n ← unsigned base cs; .ok (-(n : Int))
  | 43 :: cs => do let n ← unsigned base cs; .ok (n : Int)
  | cs => do let n ← unsigned base cs; .ok (n : Int)

/-- `[f(x) for x in l]` and the same written as a loop with `append`. -/
def mapPy {α β : Type} (f : α → Py β) : List α → Py (List β)
  | [] => .ok []
  | x :: xs => do
    let y ← f x
    let ys ← mapPy f xs
    .ok (y :: ys)

end Verif

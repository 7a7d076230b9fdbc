import Verif.Model.PyStr
/-!
# Names as numbers

Long lists of names are written as lists of numbers: the characters of a name are the digits of its number to base 256, the first
character is the lowest digit. The kernel compares numbers at once, texts character by character.
-/
namespace Verif

/-- The name written as `n`; names have at most 64 characters. -/
def nameOf (n : Nat) : Str := go 64 n
where
  /-- At most `k` characters. -/
  go : Nat → Nat → Str
    | 0, _ => []
    | k + 1, n => if n = 0 then [] else n % 256 :: go k (n / 256)

/-- The number of a name. -/
def nameNumber : Str → Nat
  | [] => 0
  | c :: cs => c + 256 * nameNumber cs

/-- A search tree of numbers. -/
inductive NameTree
  | leaf
  | node (l : NameTree) (n : Nat) (r : NameTree)

/-- Its numbers. -/
def NameTree.toList : NameTree → List Nat
  | .leaf => []
  | .node l n r => l.toList ++ n :: r.toList

end Verif

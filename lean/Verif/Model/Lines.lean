import Verif.Model.Names
import Verif.Model.PyExpr
/-!
# Texts of modules as lists of lines

The modules are kept in `Data/Text.lean` line by line, a line as a number: its characters are the digits to base 256, the first one is the
highest digit. (The kernel hashes numbers by their low bits, and lines begin alike.)
-/
namespace Verif

/-- The line written as `n`; lines have at most 320 characters. -/
def lineOf (n : Nat) : Str := go 320 n []
where
  /-- At most `k` characters before `s`. -/
  go : Nat → Nat → Str → Str
    | 0, _, s => s
    | k + 1, n, s => if n = 0 then s else go k (n / 256) (n % 256 :: s)

/-- The text of a file with these lines. -/
def textOf (lines : List Nat) : Str := join (txt "\n") (lines.map lineOf)

/-- `from .module import *` after the names `env` have been defined: names that begin with an underscore are not imported.
UCDTypeDictionaries.py:7-8, CharProps.py:5-6, BidiProps.py:11. -/
def starImport (env module : List (Str × PyExpr.Val)) : List (Str × PyExpr.Val) :=
  module.filter (fun p => p.1.head? ≠ some 95) ++ env

end Verif

import Verif.Spec.CharNames
import Verif.Spec.ICUDataFile
import Verif.Spec.Hex
/-!
# Specification of the item `unames.icu` of a data file
-/
namespace Verif.CharNames.Spec
open Verif.Spec (leBytes leAll Padded)
open Verif.ICUData.Spec (At)

/-- How the names of a range are made: a prefix and the code in hexadecimal, or a prefix and one word out of each block.
`pad` are bytes that fill up the record, in the second form zero bytes. -/
inductive Form
  | hex (digits : Nat) (start : Str) (pad : List Nat)
  | factors (start : Str) (blocks : List (List Str)) (pad : Nat)

def Form.kind : Form → Nat
  | hex .. => 0
  | factors .. => 1

/-- The number of digits or of blocks. -/
def Form.variant : Form → Nat
  | hex digits _ _ => digits
  | factors _ blocks _ => blocks.length

/-- Zero-terminated texts. -/
def texts (ts : List Str) : List Nat := ts.flatMap (· ++ [0])

def Form.bytes : Form → List Nat
  | hex _ start pad => texts [start] ++ pad
  | factors start blocks pad => leAll 2 (blocks.map List.length) ++ texts [start] ++ texts blocks.flatten ++ List.replicate pad 0

/-- A range from `first` to `last`. -/
structure RangeImage where
  first : Nat
  last : Nat
  form : Form

/-- First and last code point, form, variant, length of the record, the record's own data. -/
def RangeImage.bytes (r : RangeImage) : List Nat :=
  leAll 4 [r.first, r.last] ++ leAll 1 [r.form.kind, r.form.variant] ++ leAll 2 [12 + r.form.bytes.length] ++ r.form.bytes

/-- The number of choices of one word out of each block. -/
def choices (blocks : List (List Str)) : Nat := blocks.foldr (fun b n => b.length * n) 1

def Form.Fits (size : Nat) : Form → Prop
  | .hex digits start _ => (digits = 4 ∨ digits = 5 ∨ digits = 6) ∧ 0 ∉ start
  | .factors start blocks _ => 0 ∉ start ∧ blocks ≠ [] ∧ blocks.length < 256 ∧ (∀ b ∈ blocks, b ≠ [] ∧ b.length < 0x10000) ∧
      (∀ b ∈ blocks, ∀ w ∈ b, 0 ∉ w) ∧ size = choices blocks

structure RangeImage.Fits (r : RangeImage) : Prop where
  order : r.first ≤ r.last
  last : r.last < 0x100000000
  size : 12 + r.form.bytes.length < 0x10000
  form : r.form.Fits (r.last - r.first + 1)

/-- A group of 32 code points: the number of the group, where its strings are, and the strings. -/
structure GroupImage where
  msb : Nat
  offset : Nat
  pad : Nat
  strings : List (List Nat)

structure GroupImage.Fits (g : GroupImage) : Prop where
  msb : g.msb < 0x10000
  offset : g.offset < 0x100000000
  count : g.strings.length = 32
  lengths : ∀ x ∈ g.strings, x.length ≤ 75
  bytes : ∀ x ∈ g.strings, ∀ b ∈ x, b < 256
  pad : g.pad < 16

def GroupImage.bytes (g : GroupImage) : List Nat := packLengths g.pad (g.strings.map List.length) ++ g.strings.flatten

/-- The names at `base`: four offsets, counted from `base`; the number of tokens and the tokens; the texts of the tokens at
the first offset; the number of groups and their records at the second; the strings of the groups, from the third on; the
number of ranges and the ranges at the fourth. -/
structure NamesBody (file : List Nat) (base : Nat) (tokens : List Nat) (words : List Nat) (groups : List GroupImage)
    (strings alg : Nat) (ranges : List RangeImage) : Prop where
  head : At file base (leAll 4 [18 + 2 * tokens.length, 18 + 2 * tokens.length + words.length, strings, alg] ++
    leAll 2 [tokens.length] ++ leAll 2 tokens ++ words ++ leAll 2 [groups.length] ++
    groups.flatMap fun g => leAll 2 [g.msb, g.offset / 0x10000, g.offset % 0x10000])
  groupStrings : ∀ g ∈ groups, At file (base + strings + g.offset) g.bytes
  algorithmic : At file (base + alg) (leAll 4 [ranges.length] ++ ranges.flatMap RangeImage.bytes)
  tokens_fit : tokens.length < 0x10000 ∧ ∀ v ∈ tokens, v < 0x10000
  groups_fit : groups.length < 0x10000 ∧ ∀ g ∈ groups, g.Fits
  ranges_fit : ranges.length < 0x100000000 ∧ ∀ r ∈ ranges, r.Fits
  offsets_fit : 18 + 2 * tokens.length + words.length < 0x100000000 ∧ strings < 0x100000000 ∧ alg < 0x100000000

/-- `Nth blocks k out`: `out` is made of the words of the `k`th choice, where the last block changes fastest. -/
inductive Nth : List (List Str) → Nat → Str → Prop
  | nil : Nth [] 0 []
  | cons {b : List Str} {bs : List (List Str)} {d k : Nat} {w out : Str} :
      b[d]? = some w → Nth bs k out → Nth (b :: bs) (d * choices bs + k) (w ++ out)

/-- The name of a code point of a range. -/
def RangeImage.Name (r : RangeImage) (c : Nat) (name : Str) : Prop :=
  match r.form with
  | .hex digits start _ => ∃ t, name = start ++ t ∧ Padded digits c t
  | .factors start blocks _ => ∃ t, name = start ++ t ∧ Nth blocks (c - r.first) t

end Verif.CharNames.Spec

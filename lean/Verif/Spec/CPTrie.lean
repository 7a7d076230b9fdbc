import Verif.Model.CPTrie
/-!
# Specification of the UCPTrie format

`Represents t f err`: the arrays of `t` store the map `f` from code points to values in the ICU UCPTrie layout, with
`err` as the value for everything that is not a code point. The clauses describe the layout from the side of the
writer of the arrays and never mention the lookup functions of the model.
-/
namespace Verif.CPTrie.Spec

/-- The code points below this limit have one index entry per 64 of them. -/
def fastLimit (t : CPTrie) : Nat := if t.trieType = 0 then 0x10000 else 0x1000

/-- Where the index-1 entries for the group `g` of 512 code points start: after the 1024 fast entries with the four entries
for the BMP left out, or after the 64 fast entries. -/
def index1Pos (t : CPTrie) (g : Nat) : Nat := if t.trieType = 0 then 1024 + (g / 32 - 4) else 64 + g / 32

/-- The word `e` of an index-2 block stands for the 32 data block positions `pos 0 .. pos 31`: they follow at `e` as
16-bit words, or, if bit 15 of `e` is set, at `e - 0x8000` in four groups of nine words for eight 18-bit positions. The
first word of a group holds the upper two bits of the eight positions, first position on top. -/
def I3Stores (a : Arr) (e : Nat) (pos : Nat → Nat) : Prop :=
  (e < 0x8000 ∧ ∀ k < 32, a.get (e + k) = .ok (pos k)) ∨
  (0x8000 ≤ e ∧ e < 0x10000 ∧ ∀ g < 4,
    a.get (e - 0x8000 + 9 * g) = .ok ((List.range 8).foldl (fun w k => 4 * w + pos (8 * g + k) / 0x10000) 0) ∧
    ∀ k < 8, pos (8 * g + k) < 0x40000 ∧ a.get (e - 0x8000 + 9 * g + 1 + k) = .ok (pos (8 * g + k) % 0x10000))

structure Represents (t : CPTrie) (f : Nat → Nat) (err : Nat) : Prop where
  /-- a trie is of the fast or of the small type -/
  type : t.trieType = 0 ∨ t.trieType = 1
  /-- the first 128 data entries are the values of the ASCII characters -/
  ascii : ∀ c < 0x80, t.data.get c = .ok (f c)
  /-- index entry number `b` is the position of the values of the 64 code points from `64 * b` on -/
  fast : ∀ b, 64 * b < fastLimit t → ∃ p, t.index.get b = .ok p ∧ ∀ j < 64, t.data.get (p + j) = .ok (f (64 * b + j))
  /-- above that, and below `highStart`, each group `g` of 512 code points has a word in an index-2 block of 32 words, which
  stands for 32 data blocks of 16 values -/
  multi : ∀ g, fastLimit t ≤ 512 * g → 512 * g < t.highStart → ∃ i2 e pos, t.index.get (index1Pos t g) = .ok i2 ∧
    t.index.get (i2 + g % 32) = .ok e ∧ I3Stores t.index e pos ∧
    ∀ k < 32, ∀ j < 16, t.data.get (pos k + j) = .ok (f (512 * g + 16 * k + j))
  /-- all code points from `highStart` on share the last but one data entry -/
  high : ∀ c, fastLimit t ≤ c → t.highStart ≤ c → c ≤ 0x10FFFF → t.data.get (t.data.size - 2) = .ok (f c)
  /-- the last data entry is the error value -/
  error : t.data.get (t.data.size - 1) = .ok err
  /-- `highStart` is a multiple of 512 -/
  aligned : t.highStart % 512 = 0

/-- Two digits of the upper-bits words of `build`. -/
def upper (pos : Nat → Nat) : Nat := (List.range 8).foldl (fun w k => 4 * w + pos k / 0x10000) 0

/-- Builds a small type trie with 18-bit positions for `f`, which must be constant from 0x20000 on: 64 fast entries, 8
index-1 entries, 256 index-2 entries, 256 index-3 blocks of 36 words, and the data without any sharing of blocks. -/
def build (f : Nat → Nat) (err : Nat) : CPTrie where
  index :=
    { size := 9544
      at' := fun i =>
        if i < 64 then 64 * i
        else if i < 72 then 72 + 32 * (i - 64)
        else if i < 328 then 0x8000 + 328 + 36 * (i - 72)
        else
          let g := (i - 328) / 9
          let k := (i - 328) % 9
          if k = 0 then upper (fun k => 16 * (8 * g + k)) else 16 * (8 * g + (k - 1)) % 0x10000 }
  data := { size := 0x20002, at' := fun i => if i < 0x20001 then f i else err }
  trieType := 1
  valueWidth := 1
  index3NullOffset := 0x7FFF
  dataNullOffset := 0xFFFFF
  highStart := 0x20000
  shifted12HighStart := 0x20

end Verif.CPTrie.Spec

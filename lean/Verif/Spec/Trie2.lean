import Verif.Model.Utrie2
/-!
# Specification of the UTrie2 format

`Represents t f err`: the array of `t` stores the map `f` from code points to values in the ICU UTrie2 layout, with
`err` as the value for non-code-points. The numbers are those of ICU's `utrie2.h`; the clauses go through the
array block by block and never mention the lookup functions of the model.
-/
namespace Verif.Spec

/-- `a` holds, at the data block with index entry number `i` (the entry is the block position divided by four), the
values of `f` at the 32 code points from `c0` on. -/
def BlockAt (a : Arr) (i : Nat) (f : Nat → Nat) (c0 : Nat) : Prop :=
  ∃ e, a.get i = .ok e ∧ ∀ j < 32, a.get (4 * e + j) = .ok (f (c0 + j))

structure Represents (t : UTrie2) (f : Nat → Nat) (err : Nat) : Prop where
  /-- index-2 entry number `b` serves the 32 code points from `32 * b`, for the BMP without lead surrogates -/
  bmp : ∀ b < 0x800, ¬ (0x6C0 ≤ b ∧ b < 0x6E0) → BlockAt t.index b f (32 * b)
  /-- lead surrogate code points have their own 32 entries after the BMP ones -/
  lead : ∀ k < 32, BlockAt t.index (0x800 + k) f (0xD800 + 32 * k)
  /-- supplementary code points: one index-1 entry per 2048 of them, up to `highStart` -/
  supp : ∀ g, 32 ≤ g → g < 544 → 2048 * g < t.highStart →
    ∃ i2, t.index.get (2112 + (g - 32)) = .ok i2 ∧ ∀ m < 64, BlockAt t.index (i2 + m) f (2048 * g + 32 * m)
  /-- all supplementary code points from `highStart` on share one value -/
  high : ∀ c, 0x10000 ≤ c → t.highStart ≤ c → c ≤ 0x10FFFF → t.index.get t.highValueIndex = .ok (f c)
  /-- the error value is entry 0x80 of the data part -/
  error : t.index.get (t.indexLength + 0x80) = .ok err
  /-- `highStart` is a multiple of 2048 -/
  aligned : t.highStart % 2048 = 0

/-- The runs tile `[lo, hi)`: they are non-empty, each starts where the previous one stops, the first starts at `lo`
and the last stops at `hi`. -/
def Tiles {α : Type} : List (UTrie2.Run α) → Nat → Nat → Prop
  | [], lo, hi => lo = hi
  | r :: rs, lo, hi => r.start = lo ∧ r.start < r.stop ∧ Tiles rs r.stop hi

/-- Neighbouring runs carry different values. -/
def NeighboursDiffer {α : Type} : List (UTrie2.Run α) → Prop
  | [] => True
  | [_] => True
  | r :: r' :: rs => r.value ≠ r'.value ∧ NeighboursDiffer (r' :: rs)

/-- Builds a UTrie2 for `f` without any sharing of blocks: the 0x800 BMP entries, 32 lead surrogate entries,
32 unused ones, 512 index-1 entries, 512 index-2 blocks of 64, then (from 35392 on) 128 ASCII values, 64 error
values, and the values of all code points from 0x80 on. -/
def build (f : Nat → Nat) (err : Nat) : UTrie2 where
  index :=
    { size := 35392 + 0x40 + 0x110000
      at' := fun i =>
        let block := fun c => (if c < 0x80 then 35392 + c else 35392 + 0x40 + c) / 4
        if i < 0x800 then block (32 * i)
        else if i < 0x820 then block (0xD800 + 32 * (i - 0x800))
        else if i < 2112 then 0
        else if i < 2624 then 2624 + 64 * (i - 2112)
        else if i < 35392 then block (0x10000 + 32 * (i - 2624))
        else if i < 35392 + 0x80 then f (i - 35392)
        else if i < 35392 + 0xC0 then err
        else f (i - 35392 - 0x40) }
  indexLength := 35392
  index2NullOffset := 0
  dataNullOffset := 0
  highStart := 0x110000
  highValueIndex := 35392

end Verif.Spec

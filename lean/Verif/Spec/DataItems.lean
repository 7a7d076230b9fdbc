import Verif.Spec.ICUDataFile
import Verif.Spec.CPTrie
/-!
# Specification of the items of a data file
-/
namespace Verif.ICUData.Spec
open Verif.Spec (leBytes leAll TrieImage)

/-- `file` is a data file, its items have different names, and what follows the header of the item `name` begins at `base`. -/
def Body (file : List Nat) (name : List Nat) (base : Nat) : Prop :=
  ∃ headerLength items, Layout file headerLength items ∧ (items.map (·.name)).Nodup ∧
    ∃ it ∈ items, it.name = name ∧ ∃ hd : Header, hd.Fits ∧ At file (headerLength + it.dataOffset) hd.bytes ∧
      base = headerLength + it.dataOffset + hd.headerLength

/-- The trie with the fields and arrays of the serialised one. -/
def trieOf (t : TrieImage) : CPTrie where
  index := Arr.ofList t.index
  data := Arr.ofList t.data
  trieType := t.trieType
  valueWidth := t.valueWidth
  index3NullOffset := t.index3NullOffset
  dataNullOffset := t.dataNullOffset
  highStart := 512 * t.shiftedHighStart
  shifted12HighStart := (512 * t.shiftedHighStart + 0xFFF) / 0x1000

/-- The serialised trie `t` stores the map `f`. -/
structure Stores (t : TrieImage) (f : Nat → Nat) : Prop where
  fits : t.Fits
  index : t.index ≠ []
  map : ∃ err, CPTrie.Spec.Represents (trieOf t) f err

/-- The layout properties at `base`: the indexes, whose first one is their number, and three tries, each followed by padding.
Indexes 1 to 3 are the ends of the tries, counted from `base`. -/
structure LayoutBody (file : List Nat) (base : Nat) (indexes : List Nat) (inpc pad1 insc pad2 vo pad3 : List Nat) : Prop where
  body : At file base (leAll 4 indexes ++ (inpc ++ pad1) ++ (insc ++ pad2) ++ (vo ++ pad3))
  fits : ∀ v ∈ indexes, v < 0x100000000
  count : indexes[0]? = some indexes.length
  top1 : indexes[1]? = some (leAll 4 indexes ++ (inpc ++ pad1)).length
  top2 : indexes[2]? = some (leAll 4 indexes ++ (inpc ++ pad1) ++ (insc ++ pad2)).length
  top3 : indexes[3]? = some (leAll 4 indexes ++ (inpc ++ pad1) ++ (insc ++ pad2) ++ (vo ++ pad3)).length

/-- Normalization data at `base`: the indexes, a trie followed by padding, and the 16-bit units of the extra data. Index 0 is
where the trie begins, index 1 where it ends and index 2 where the extra data ends, counted from `base`. -/
structure NormBody (file : List Nat) (base : Nat) (indexes : List Nat) (trie pad extra : List Nat) : Prop where
  body : At file base (leAll 4 indexes ++ (trie ++ pad) ++ leAll 2 extra)
  fits : ∀ v ∈ indexes, v < 0x100000000
  units : ∀ v ∈ extra, v < 0x10000
  start : indexes[0]? = some (leAll 4 indexes).length
  trieEnd : indexes[1]? = some (leAll 4 indexes ++ (trie ++ pad)).length
  extraEnd : indexes[2]? = some (leAll 4 indexes ++ (trie ++ pad) ++ leAll 2 extra).length

end Verif.ICUData.Spec

import Verif.Spec.Bytes
/-!
# Specification of ICU data files
-/
namespace Verif.ICUData.Spec
open Verif.Spec (leBytes leAll)

/-- An item of the table of contents. Its full name is `pkg/name`; offsets are counted from the end of the file header. -/
structure Item where
  pkg : List Nat
  name : List Nat
  nameOffset : Nat
  dataOffset : Nat

/-- `bytes` are in the file at the position. -/
def At (file : List Nat) (pos : Nat) (bytes : List Nat) : Prop := ∃ pre post, file = pre ++ bytes ++ post ∧ pre.length = pos

/-- The layout of a data file: a header of at least 24 bytes that begins with its length, the number of items, for every item
the offset of its name and the offset of its data, and somewhere the names, each ended by a zero byte. -/
structure Layout (file : List Nat) (headerLength : Nat) (items : List Item) : Prop where
  long : 24 ≤ file.length
  header : At file 0 (leBytes 2 headerLength)
  header_fits : headerLength < 0x10000
  count : At file headerLength (leBytes 4 items.length)
  count_fits : items.length < 0x100000000
  entry : ∀ (i : Nat) (it : Item), items[i]? = some it →
    At file (headerLength + 4 + 8 * i) (leAll 4 [it.nameOffset, it.dataOffset])
  entry_fits : ∀ it ∈ items, it.nameOffset < 0x100000000 ∧ it.dataOffset < 0x100000000
  name : ∀ it ∈ items, At file (headerLength + it.nameOffset) (it.pkg ++ [47] ++ it.name ++ [0])
  name_text : ∀ it ∈ items, 47 ∉ it.pkg ∧ 0 ∉ it.pkg ∧ 0 ∉ it.name

/-- The fields of the header of an item, in file order; `flags` are the sixteen bytes after the reserved word. -/
structure Header where
  headerLength : Nat
  magic : List Nat
  infoSize : Nat
  reservedWord : Nat
  flags : List Nat

def Header.bytes (h : Header) : List Nat :=
  leBytes 2 h.headerLength ++ h.magic ++ leBytes 2 h.infoSize ++ leBytes 2 h.reservedWord ++ h.flags

structure Header.Fits (h : Header) : Prop where
  headerLength : h.headerLength < 0x10000
  infoSize : h.infoSize < 0x10000
  reservedWord : h.reservedWord < 0x10000
  magic : h.magic.length = 2
  flags : h.flags.length = 16

end Verif.ICUData.Spec

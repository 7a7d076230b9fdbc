/-!
# Specification of little-endian serialisation
-/
namespace Verif.Spec

/-- The `w` bytes of `v`, least significant first. -/
def leBytes (w v : Nat) : List Nat := (List.range w).map fun i => v / 256 ^ i % 256

/-- The bytes of a sequence of numbers. -/
def leAll (w : Nat) (vs : List Nat) : List Nat := vs.flatMap (leBytes w)

/-- What a serialised UCPTrie holds. -/
structure TrieImage where
  sig : Nat
  trieType : Nat
  valueWidth : Nat
  index3NullOffset : Nat
  dataNullOffset : Nat
  /-- `highStart / 512` -/
  shiftedHighStart : Nat
  index : List Nat
  data : List Nat

/-- Bytes per value: width 0 is 16 bits, width 1 is 32 bits, the others 8 bits. -/
def TrieImage.bytesPerValue (t : TrieImage) : Nat := if t.valueWidth = 0 then 2 else if t.valueWidth = 1 then 4 else 1

/-- The fields fit the serialised form. -/
structure TrieImage.Fits (t : TrieImage) : Prop where
  type : t.trieType < 4
  width : t.valueWidth < 8
  i3 : t.index3NullOffset < 0x10000
  null : t.dataNullOffset < 0x100000
  high : t.shiftedHighStart < 0x10000
  indexLength : t.index.length < 0x10000
  dataLength : t.data.length < 0x100000
  index : ∀ v ∈ t.index, v < 0x10000
  data : ∀ v ∈ t.data, v < 256 ^ t.bytesPerValue

/-- The serialised form: signature, options (data length bits 19..16, data null offset bits 19..16, type, width), index
length, data length, index-3 null offset, data null offset, shifted high start, index, data. -/
def TrieImage.bytes (t : TrieImage) : List Nat :=
  leBytes 4 t.sig ++
  leAll 2 [t.data.length / 0x10000 * 0x1000 + t.dataNullOffset / 0x10000 * 0x100 + t.trieType * 0x40 + t.valueWidth,
    t.index.length, t.data.length % 0x10000, t.index3NullOffset, t.dataNullOffset % 0x10000, t.shiftedHighStart] ++
  leAll 2 t.index ++ leAll t.bytesPerValue t.data

end Verif.Spec

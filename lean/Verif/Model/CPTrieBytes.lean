import Verif.Model.CPTrie
import Verif.Model.Bytes
/-!
# Model of `CPTrie.createFromData` (`UnicodeData/CPTrie.py`)

`sstruct` (of fontTools) is not part of the repository: `sstruct.unpack` with the format of lines 123-149 is modelled as
`struct.unpack("IHHHHHH")`, which is what the library does with a format without a byte order character.
-/
namespace Verif.CPTrie

/-- CPTrie.py:149 `_trieHeaderLength`. -/
def trieHeaderLength : Nat := 16

/-- CPTrie.py:180-187: bytes per data value. -/
def valueBytes (valueWidth : Nat) : Nat :=
  if valueWidth = VALUE_BITS_16 then 2 else if valueWidth = VALUE_BITS_32 then 4 else 1

/-- CPTrie.py:163-195 `createFromData`; `options >> 6 & 3` is `options / 2 ^ 6 % 4`. -/
def createFromData (b : List Nat) : Py CPTrie := do
  let header := slice b 0 trieHeaderLength
  let _sig ← unpack 4 1 (slice header 0 4)
  let hs ← unpack 2 6 (slice header 4 trieHeaderLength)
  let options := hs.getD 0 0
  let trieType := options / 2 ^ 6 % 4
  let valueWidth := options &&& OPTIONS_VALUE_BITS_MASK
  let indexLength := hs.getD 1 0
  let dataLength := ((options &&& OPTIONS_DATA_LENGTH_MASK) * 2 ^ 4) ||| hs.getD 2 0
  let index3NullOffset := hs.getD 3 0
  let dataNullOffset := ((options &&& OPTIONS_DATA_NULL_OFFSET_MASK) * 2 ^ 8) ||| hs.getD 4 0
  let highStart := hs.getD 5 0 * 2 ^ SHIFT_2
  let shifted12HighStart := (highStart + 0xFFF) / 2 ^ 12
  let indexLimit := trieHeaderLength + 2 * indexLength
  let index ← unpack 2 indexLength (slice b trieHeaderLength indexLimit)
  let dataLimit := indexLimit + valueBytes valueWidth * dataLength
  let data ← unpack (valueBytes valueWidth) dataLength (slice b indexLimit dataLimit)
  init (Arr.ofList index) (Arr.ofList data) trieType valueWidth index3NullOffset dataNullOffset highStart shifted12HighStart

end Verif.CPTrie

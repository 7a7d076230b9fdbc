import Verif.Model.ICUDataFile
import Verif.Model.CPTrieBytes
import Verif.Model.Normalizer2
import Verif.Model.PyStr
/-!
# Model of what is loaded from a data file: `UnicodeData/LayoutProps.py` and `Normalizer2.createFromFileData`

The state of `ICUData` after its construction (LayoutProps.py:31, Normalizer2.py:131) is an argument. Offsets are natural
numbers.
-/
namespace Verif

namespace LayoutProps
open Verif.ICUData

/-- LayoutProps.py:47, 52, 57 the module's tries. -/
structure Tries where
  inpcTrie : CPTrie
  inscTrie : CPTrie
  voTrie : CPTrie

/-- LayoutProps.py:18 -/
def ULAYOUT_IX_INPC_TRIE_TOP : Nat := 1
/-- LayoutProps.py:19 -/
def ULAYOUT_IX_INSC_TRIE_TOP : Nat := 2
/-- LayoutProps.py:20 -/
def ULAYOUT_IX_VO_TRIE_TOP : Nat := 3

/-- LayoutProps.py:33-57 what the import of the module computes. -/
def load (s : State) : Py Tries := do
  let (dataOffset, dataHeader) ← s.getDataOffsetAndHeader (txt "ulayout.icu")
  let baseOffset := dataOffset + dataHeader.headerLength
  let indicesStart := baseOffset
  let n ← unpack 4 1 (s.getData indicesStart (indicesStart + 4))
  let indicesCount := n.getD 0 0
  let indicesLimit := indicesStart + indicesCount * 4
  let indices ← unpack 4 indicesCount (s.getData indicesStart indicesLimit)
  let inpcTop ← (Arr.ofList indices).get ULAYOUT_IX_INPC_TRIE_TOP
  let inpcTrie ← CPTrie.createFromData (s.getData indicesLimit (inpcTop + baseOffset))
  let inscTop ← (Arr.ofList indices).get ULAYOUT_IX_INSC_TRIE_TOP
  let inscTrie ← CPTrie.createFromData (s.getData (inpcTop + baseOffset) (inscTop + baseOffset))
  let voTop ← (Arr.ofList indices).get ULAYOUT_IX_VO_TRIE_TOP
  let voTrie ← CPTrie.createFromData (s.getData (inscTop + baseOffset) (voTop + baseOffset))
  .ok ⟨inpcTrie, inscTrie, voTrie⟩

/-- LayoutProps.py:59-60 `getInPC`. -/
def Tries.getInPC (t : Tries) (c : Nat) : Py Nat := t.inpcTrie.get c
/-- LayoutProps.py:62-63 `getInSC`. -/
def Tries.getInSC (t : Tries) (c : Nat) : Py Nat := t.inscTrie.get c
/-- LayoutProps.py:65-66 `getVO`. -/
def Tries.getVO (t : Tries) (c : Nat) : Py Nat := t.voTrie.get c

end LayoutProps

namespace Normalizer2
open Verif.ICUData

/-- Normalizer2.py:39 -/
def IX_NORM_TRIE_OFFSET : Nat := 0
/-- Normalizer2.py:40 -/
def IX_EXTRA_DATA_OFFSET : Nat := 1
/-- Normalizer2.py:41 -/
def IX_SMALL_FCD_OFFSET : Nat := 2

/-- Normalizer2.py:129-154 `createFromFileData`. When the extra data ends before it starts, `f"{n}H"` with a negative `n` is a
bad format, hence the `struct.error`. -/
def createFromFileData (s : State) (package : Str) : Py Normalizer2 := do
  let (dataOffset, dataHeader) ← s.getDataOffsetAndHeader (package ++ txt ".nrm")
  let baseOffset := dataOffset + dataHeader.headerLength
  let indicesStart := baseOffset
  let n ← unpack 4 1 (s.getData indicesStart (indicesStart + 4))
  let indicesCount := n.getD 0 0 / 4
  let indicesLimit := indicesStart + indicesCount * 4
  let indices ← unpack 4 indicesCount (s.getData indicesStart indicesLimit)
  let trieOffset ← (Arr.ofList indices).get IX_NORM_TRIE_OFFSET
  let extraOffset ← (Arr.ofList indices).get IX_EXTRA_DATA_OFFSET
  let trieStart := trieOffset + baseOffset
  let trieLimit := extraOffset + baseOffset
  let trie ← CPTrie.createFromData (s.getData trieStart trieLimit)
  let fcdOffset ← (Arr.ofList indices).get IX_SMALL_FCD_OFFSET
  let extraDataLimit := fcdOffset + baseOffset
  if extraDataLimit < trieLimit then .error .structError
  else
    let extraDataLength := (extraDataLimit - trieLimit) / 2
    let extraData ← unpack 2 extraDataLength (s.getData trieLimit extraDataLimit)
    init trie (Arr.ofList indices) (Arr.ofList extraData)

end Normalizer2

end Verif

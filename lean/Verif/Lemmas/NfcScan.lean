import Verif.Lemmas.NfcTrie
import Verif.Lemmas.Normalizer2
/-! # Scans of the shipped NFC data -/
namespace Verif
open Verif.Data Verif.CPTrie Verif.Spec
set_option maxRecDepth 100000

/-- The normalizer with the shipped NFC data. -/
noncomputable def nfc : Normalizer2 where
  trie := nfcTrie
  minDecompNoCP := 0xC0
  minYesNo := 0xAE2
  minYesNoMappingsOnly := 0x1288
  limitNoNo := 0x3C66
  minMaybeYes := 0xFC00
  centerNoNoDelta := 0x1F3F
  extraData := nfcExtraData.arr.sliceFrom 0

theorem nfc_created : createFromHardCodedData = .ok nfc := by
  have h0 : nfcTrieIndex.arr.get 0 = .ok 0 := by decide +kernel
  have h8 : nfcIndexes.arr.get 8 = .ok 0xC0 := by decide +kernel
  have h9 : nfcIndexes.arr.get 9 = .ok 0x300 := by decide +kernel
  have h10 : nfcIndexes.arr.get 10 = .ok 0xAE2 := by decide +kernel
  have h11 : nfcIndexes.arr.get 11 = .ok 0x29E0 := by decide +kernel
  have h12 : nfcIndexes.arr.get 12 = .ok 0x3C66 := by decide +kernel
  have h13 : nfcIndexes.arr.get 13 = .ok 0xFC00 := by decide +kernel
  have h14 : nfcIndexes.arr.get 14 = .ok 0x1288 := by decide +kernel
  have h15 : nfcIndexes.arr.get 15 = .ok 0x3B9C := by decide +kernel
  have h16 : nfcIndexes.arr.get 16 = .ok 0x3C34 := by decide +kernel
  have h17 : nfcIndexes.arr.get 17 = .ok 0x3C66 := by decide +kernel
  have h18 : nfcIndexes.arr.get 18 = .ok 0x300 := by decide +kernel
  unfold createFromHardCodedData CPTrie.init Normalizer2.init
  rw [h0, h8, h9, h10, h11, h12, h13, h14, h15, h16, h17, h18]
  rfl

/-- The raw decomposition, `none` also where the code raises. -/
noncomputable def nfcRaw (c : Nat) : Option Str := (nfc.getRawDecomposition c).toOption.bind id

/-- `c` has no decomposition. -/
noncomputable def nfcNone (c : Nat) : Bool :=
  match nfc.getDecomposition c with
  | .ok none => true
  | _ => false

/-- The check of one value of the trie. -/
noncomputable def checkV (v : Nat) : Bool :=
  or (or (Nat.blt v 0xAE2) (Nat.ble 0x3C66 v)) (or (or (Nat.beq v 0xAE2) (Nat.beq v 0x1289))
    (match nfc.mappingOf 0 v, nfc.rawMappingOf v with
     | .ok (some d), .ok (some r) => and (d.all fun x => and (Nat.ble x 0x10FFFF) (nfcNone x))
         (and (not d.isEmpty) (and (not r.isEmpty) (match expandN nfcRaw 8 r with
           | some e => e == d
           | none => false)))
     | _, _ => false))

theorem nfc_values : allB (fun i => or (Nat.ble 7892 i) (force (nfcTrie.data.at' i) checkV)) 13 0 = true := by decide +kernel

/-- The check of one code point: Hangul syllables are the code points with the two Hangul values, and only two code points
have algorithmic mappings (lead surrogates have values of their own). -/
noncomputable def checkC (c v : Nat) : Bool :=
  cond (and (Nat.ble 0xAC00 c) (Nat.ble c 0xD7A3)) (Nat.beq v (cond (Nat.beq (Nat.mod (Nat.sub c 0xAC00) 28) 0) 0xAE2 0x1289))
    (and (not (Nat.beq v 0xAE2)) (and (not (Nat.beq v 0x1289))
      (or (Nat.blt v 0x3C66) (or (Nat.ble 0xFC00 v) (or (or (Nat.beq c 0x2000) (Nat.beq c 0x2001))
        (and (Nat.ble 0xD800 c) (Nat.ble c 0xDBFF)))))))

/-- The null block is skipped outside the Hangul syllables. -/
noncomputable def scanC (b : Nat) : Bool :=
  or (Nat.ble 12224 b) (force (nfcTrie.blk b) fun p => or (and (Nat.beq p 0x226) (or (Nat.blt b 0xAC0) (Nat.blt 0xD7A b)))
    (allB (fun j => force (Nat.add (Nat.mul 16 b) j) fun c => force (nfcTrie.data.at' (Nat.add p j)) fun v => checkC c v) 4 0))

theorem nfc_scan : allB scanC 14 0 = true := by decide +kernel

end Verif

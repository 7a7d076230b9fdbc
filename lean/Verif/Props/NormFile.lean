import Verif.Props.DataItems
import Verif.Props.Normalizer2
/-!
# The normalizer from a file and the normalizer from the shipped tables (C79)
-/
namespace Verif.ICUData.Props
open Verif.ICUData.Spec Verif.Data
open Verif.Spec (leBytes leAll TrieImage)
set_option maxRecDepth 100000

/-- The entries of an array. -/
def entries (a : Arr) : List Nat := (List.range a.size).map a.at'

/-- The same entries. -/
def Same (a b : Arr) : Prop := a.size = b.size ∧ ∀ i < a.size, a.at' i = b.at' i

theorem same_entries (a : Arr) : Same (Arr.ofList (entries a)) a := by
  unfold entries Arr.ofList
  refine ⟨by simp, fun i hi => ?_⟩
  simp only [List.length_map, List.length_range] at hi
  simp [hi]

theorem Same.get {a b : Arr} (h : Same a b) : a.get = b.get := by
  funext i
  unfold Arr.get
  rw [← h.1]
  by_cases hi : i < a.size
  · rw [if_pos hi, if_pos hi, h.2 i hi]
  · rw [if_neg hi, if_neg hi]

theorem Same.getI {a b : Arr} (h : Same a b) : a.getI = b.getI := by
  funext i
  unfold Arr.getI
  rw [h.get, h.1]

theorem Same.sliceFrom {a b : Arr} (h : Same a b) (n : Int) : Same (a.sliceFrom n) (b.sliceFrom n) := by
  unfold Arr.sliceFrom
  rw [h.1]
  refine ⟨rfl, fun i hi => ?_⟩
  simp only at hi ⊢
  exact h.2 _ (by rw [h.1]; omega)

theorem trie_get {t u : CPTrie} (hi : Same t.index u.index) (hd : Same t.data u.data) (ht : t.trieType = u.trieType)
    (hh : t.highStart = u.highStart) : t.get = u.get := by
  funext c
  unfold CPTrie.get CPTrie.cpIndex CPTrie.fastIndex CPTrie.smallIndex CPTrie.internalSmallIndex CPTrie.i3BlockOf CPTrie.blockAt CPTrie.index1
  rw [hi.get, hd.get, ht, hh, hd.1]

theorem stringLoop_same {a b : Arr} (h : Same a b) : ∀ n i lead, Normalizer2.stringLoop a n i lead = Normalizer2.stringLoop b n i lead := by
  intro n
  induction n with
  | zero => intro i lead; rfl
  | succ n ih =>
    intro i lead
    unfold Normalizer2.stringLoop
    rw [h.getI]
    simp only [ih]

theorem decomposition_same {n m : Normalizer2} (ht : n.trie.get = m.trie.get) (he : Same n.extraData m.extraData)
    (h1 : n.minDecompNoCP = m.minDecompNoCP) (h2 : n.minYesNo = m.minYesNo) (h3 : n.minYesNoMappingsOnly = m.minYesNoMappingsOnly)
    (h4 : n.limitNoNo = m.limitNoNo) (h5 : n.minMaybeYes = m.minMaybeYes) (h6 : n.centerNoNoDelta = m.centerNoNoDelta) (c : Nat) :
    n.getDecomposition c = m.getDecomposition c ∧ n.getRawDecomposition c = m.getRawDecomposition c := by
  constructor
  · unfold Normalizer2.getDecomposition Normalizer2.getNorm16 Normalizer2.isMaybeOrNonZeroCC Normalizer2.isDecompNoAlgorithmic
      Normalizer2.mapAlgorithmic Normalizer2.mappingOf Normalizer2.isHangulLV Normalizer2.isHangulLVT Normalizer2.hangulLVT
      Normalizer2.stringFromData Normalizer2.getRawNorm16
    simp only [ht, he.getI, h1, h2, h3, h4, h5, h6, stringLoop_same he]
  · unfold Normalizer2.getRawDecomposition Normalizer2.getNorm16 Normalizer2.isDecompYes Normalizer2.isDecompNoAlgorithmic
      Normalizer2.mapAlgorithmic Normalizer2.rawMappingOf Normalizer2.isHangulLV Normalizer2.isHangulLVT Normalizer2.hangulLVT
      Normalizer2.stringFromData
    simp only [ht, he.getI, h1, h2, h3, h4, h5, h6, stringLoop_same he]

/-- The shipped trie, as it is serialised. -/
noncomputable def nfcImage (sig : Nat) : TrieImage :=
  ⟨sig, 0, 0, 0xC4, 0x226, 0x17E, entries nfcTrieIndex.arr, entries nfcTrieData.arr⟩

theorem entry_lt (t : Table) (hb : t.bits = 16) : ∀ v ∈ entries t.arr, v < 0x10000 := by
  intro v hv
  obtain ⟨i, _, rfl⟩ := List.mem_map.mp hv
  unfold Table.arr Table.entry
  rw [hb]
  exact Nat.mod_lt _ (by decide)

theorem nfcImage_fits (sig : Nat) : (nfcImage sig).Fits :=
  ⟨show 0 < 4 by decide, show 0 < 8 by decide, show 0xC4 < 0x10000 by decide, show 0x226 < 0x100000 by decide,
    show 0x17E < 0x10000 by decide, by simp [nfcImage, entries]; decide, by simp [nfcImage, entries]; decide,
    entry_lt nfcTrieIndex rfl, entry_lt nfcTrieData rfl⟩

theorem nfcImage_same (sig : Nat) : (trieOf (nfcImage sig)).get = nfcTrie.get :=
  trie_get (same_entries _) (same_entries _) rfl rfl

/-- The shipped trie stores the map it is read as, in the file form too. -/
theorem nfcImage_stores (sig : Nat) : ∃ f, Stores (nfcImage sig) f := by
  obtain ⟨f, err, h, _⟩ := CPTrie.Props.nfc_represents
  have hi : (trieOf (nfcImage sig)).index.get = nfcTrie.index.get := (same_entries _).get
  have hd : (trieOf (nfcImage sig)).data.get = nfcTrie.data.get := (same_entries _).get
  have hs : (trieOf (nfcImage sig)).data.size = nfcTrie.data.size := (same_entries _).1
  refine ⟨f, nfcImage_fits sig, ?_, err, h.type, ?_, ?_, ?_, ?_, ?_, h.aligned⟩
  · have : (nfcImage sig).index.length ≠ 0 := by simp [nfcImage, entries]; decide
    exact fun e => this (by rw [e]; rfl)
  · rw [hd]; exact h.ascii
  · rw [hd, hi]; exact h.fast
  · intro g h1 h2
    obtain ⟨i2, e, pos, q1, q2, q3, q4⟩ := h.multi g h1 h2
    refine ⟨i2, e, pos, by rw [hi]; exact q1, by rw [hi]; exact q2, ?_, by rw [hd]; exact q4⟩
    unfold CPTrie.Spec.I3Stores at q3 ⊢
    rw [hi]
    exact q3
  · rw [hd, hs]; exact h.high
  · rw [hd, hs]; exact h.error

/-- C79. A data file that holds the tables of the shipped module gives the same decompositions as the module. -/
theorem createFromFileData_nfc {file : List Nat} {base sig : Nat} {package : Str} (hb : Body file (package ++ txt ".nrm") base)
    {pad : List Nat}
    (hn : NormBody file base (entries nfcIndexes.arr) (nfcImage sig).bytes pad (entries nfcExtraData.arr)) :
    ∃ n m, Normalizer2.createFromFileData (construct file State.initial).1 package = .ok n ∧ createFromHardCodedData = .ok m ∧
      ∀ c, n.getDecomposition c = m.getDecomposition c ∧ n.getRawDecomposition c = m.getRawDecomposition c := by
  obtain ⟨f, hst⟩ := nfcImage_stores sig
  have hi := same_entries nfcIndexes.arr
  have hx := same_entries nfcExtraData.arr
  have hc := nfc_created
  unfold createFromHardCodedData at hc
  obtain ⟨t, h1, h2⟩ := bind_ok hc
  have ht : t.get = nfcTrie.get := by
    unfold CPTrie.init at h1
    obtain ⟨_, _, h1⟩ := bind_ok h1
    injection h1 with h1
    rw [← h1]
    rfl
  rw [createFromFileData_init hb hn hst]
  unfold Normalizer2.init at h2 ⊢
  rw [hi.get]
  obtain ⟨_, e1, h2⟩ := bind_ok h2
  obtain ⟨_, e2, h2⟩ := bind_ok h2
  obtain ⟨_, e3, h2⟩ := bind_ok h2
  obtain ⟨_, e4, h2⟩ := bind_ok h2
  obtain ⟨_, e5, h2⟩ := bind_ok h2
  obtain ⟨_, e6, h2⟩ := bind_ok h2
  obtain ⟨_, e7, h2⟩ := bind_ok h2
  obtain ⟨_, e8, h2⟩ := bind_ok h2
  obtain ⟨_, e9, h2⟩ := bind_ok h2
  obtain ⟨_, e10, h2⟩ := bind_ok h2
  obtain ⟨v, e11, h2⟩ := bind_ok h2
  rw [e1, e2, e3, e4, e5, e6, e7, e8, e9, e10, e11]
  simp only [bind, Except.bind] at h2 ⊢
  by_cases h8 : v % 8 ≠ 0
  · rw [if_pos h8] at h2
    cases h2
  · rw [if_neg h8] at h2 ⊢
    injection h2 with h2
    refine ⟨_, nfc, rfl, nfc_created, fun c => ?_⟩
    rw [← h2]
    apply decomposition_same
    · exact (nfcImage_same sig).trans ht.symm
    · exact hx.sliceFrom _
    all_goals rfl

/-- A file with the shipped tables. -/
noncomputable def nfcFile : List Nat := oneItem (txt "nfc" ++ txt ".nrm")
  (leAll 4 (entries nfcIndexes.arr) ++ ((nfcImage 0x54726933).bytes ++ []) ++ leAll 2 (entries nfcExtraData.arr))

theorem entries_length (a : Arr) : (entries a).length = a.size := by simp [entries]

theorem nfcImage_length (sig : Nat) : (nfcImage sig).bytes.length = 19292 := by
  unfold TrieImage.bytes
  simp only [List.length_append, leAll_length, leBytes_length]
  show 4 + 2 * 6 + 2 * (nfcImage sig).index.length + 2 * (nfcImage sig).data.length = 19292
  rw [show (nfcImage sig).index.length = nfcTrieIndex.size from entries_length _,
    show (nfcImage sig).data.length = nfcTrieData.size from entries_length _]
  rfl

theorem entries_get (a : Arr) (i : Nat) (h : i < a.size) : (entries a)[i]? = some (a.at' i) := by simp [entries, h]

example : ∃ n m, Normalizer2.createFromFileData (construct nfcFile State.initial).1 (txt "nfc") = .ok n ∧
    createFromHardCodedData = .ok m ∧ n.getDecomposition 0xC5 = m.getDecomposition 0xC5 := by
  obtain ⟨h1, h2⟩ := oneItem_body (txt "nfc" ++ txt ".nrm") (leAll 4 (entries nfcIndexes.arr) ++ ((nfcImage 0x54726933).bytes ++ []) ++
    leAll 2 (entries nfcExtraData.arr)) (by decide) (by decide)
  have hb : NormBody nfcFile 78 (entries nfcIndexes.arr) (nfcImage 0x54726933).bytes [] (entries nfcExtraData.arr) := by
    refine ⟨h2, ?_, entry_lt nfcExtraData rfl, ?_, ?_, ?_⟩
    · intro v hv
      obtain ⟨i, _, rfl⟩ := List.mem_map.mp hv
      unfold Table.arr Table.entry
      exact Nat.lt_of_lt_of_le (Nat.mod_lt _ (Nat.two_pow_pos _)) (by decide)
    all_goals
      rw [entries_get _ _ (by decide)]
      simp only [List.length_append, nfcImage_length, leAll_length, entries_length, List.length_nil]
    · decide +kernel
    · decide +kernel
    · decide +kernel
  obtain ⟨n, m, hn, hm, hc⟩ := createFromFileData_nfc h1 hb
  exact ⟨n, m, hn, hm, (hc 0xC5).1⟩

end Verif.ICUData.Props

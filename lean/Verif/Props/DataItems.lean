import Verif.Model.LayoutProps
import Verif.Spec.DataItems
import Verif.Props.ICUDataFile
import Verif.Props.CPTrie
import Verif.Lemmas.Trie2Enum
/-!
# What is loaded from the items of a data file (C78, C79)
-/
namespace Verif.ICUData.Props
open Verif.ICUData.Spec
open Verif.Spec (leBytes leAll TrieImage)

theorem at_part {file a b c : List Nat} {pos : Nat} (h : At file pos (a ++ b ++ c)) : At file (pos + a.length) b := by
  obtain ⟨pre, post, rfl, rfl⟩ := h
  exact ⟨pre ++ a, c ++ post, by simp, by simp⟩

theorem at_left {file a b : List Nat} {pos : Nat} (h : At file pos (a ++ b)) : At file pos a := by
  obtain ⟨pre, post, rfl, rfl⟩ := h
  exact ⟨pre, b ++ post, by simp, rfl⟩

theorem at_right {file a b : List Nat} {pos : Nat} (h : At file pos (a ++ b)) : At file (pos + a.length) b := by
  obtain ⟨pre, post, rfl, rfl⟩ := h
  exact ⟨pre ++ a, post, by simp, by simp⟩

theorem at_slice' {file bytes : List Nat} {pos lim : Nat} (h : At file pos bytes) (hl : lim = pos + bytes.length) :
    slice file pos lim = bytes := by
  subst hl
  exact at_slice h

theorem at_unpack {file : List Nat} {w pos lim n : Nat} {vs : List Nat} (h : At file pos (leAll w vs)) (hn : n = vs.length)
    (hl : lim = pos + w * vs.length) (hv : ∀ v ∈ vs, v < 256 ^ w) : unpack w n (slice file pos lim) = .ok vs := by
  rw [at_slice' h (by rw [leAll_length]; exact hl), hn]
  exact unpack_leAll hv

/-- The item is found where it is. -/
theorem body_found {file name : List Nat} {base : Nat} (h : Body file name base) :
    ∃ s off hd, construct file State.initial = (s, .ok ()) ∧ s.fileData = file ∧
      s.getDataOffsetAndHeader name = .ok (off, hd) ∧ off + hd.headerLength = base := by
  obtain ⟨hl, items, L, hnd, it, hit, rfl, hd, F, hat, rfl⟩ := h
  obtain ⟨s, h1, h2⟩ := lookup_distinct file hl items L hnd it hit
  have hf : s.fileData = file := by
    have := construct_ok L
    rw [h1] at this
    exact congrArg (fun x : State × Py Unit => x.1.fileData) this
  exact ⟨s, _, _, h1, hf, dataHeader_exact s it.name _ hd F h2 (by rw [hf]; exact hat), rfl⟩

theorem arr_get {l : List Nat} {i v : Nat} (h : l[i]? = some v) : (Arr.ofList l).get i = .ok v := by
  obtain ⟨hi, hv⟩ := List.getElem?_eq_some_iff.mp h
  unfold Arr.get Arr.ofList
  rw [if_pos hi]
  simp only [List.getD_eq_getElem?_getD, h, Option.getD_some]

/-- The first number alone. -/
theorem head_at {file : List Nat} {pos v : Nat} {vs rest : List Nat} (h : At file pos (leAll 4 vs ++ rest)) (h0 : vs[0]? = some v)
    (hv : ∀ v ∈ vs, v < 0x100000000) : unpack 4 1 (slice file pos (pos + 4)) = .ok [v] := by
  cases vs with
  | nil => simp at h0
  | cons x xs =>
    injection h0 with h0
    subst h0
    have e : leAll 4 (x :: xs) = leAll 4 [x] ++ leAll 4 xs := by simp [leAll]
    rw [e, List.append_assoc] at h
    exact at_unpack (at_left h) rfl rfl (fun v hv' => by
      simp only [List.mem_cons, List.not_mem_nil, or_false] at hv'
      subst hv'
      exact hv _ (by simp))

theorem create_stored {t : TrieImage} {f : Nat → Nat} (h : Stores t f) (pad : List Nat) :
    CPTrie.createFromData (t.bytes ++ pad) = .ok (trieOf t) := CPTrie.Props.createFromData_roundtrip h.fits h.index pad

theorem get_stored {t : TrieImage} {f : Nat → Nat} (h : Stores t f) (c : Nat) (hc : c ≤ 0x10FFFF) : (trieOf t).get c = .ok (f c) := by
  obtain ⟨err, hr⟩ := h.map
  exact (CPTrie.Props.get_correct hr).1 c hc

/-- C78 in part. From a data file whose item `ulayout.icu` holds three tries, the import of the layout properties loads
them, and the lookups give the values of the three maps for every code point. -/
theorem layout_lookup_partial {file : List Nat} {base : Nat} (hb : Body file (txt "ulayout.icu") base) {indexes pad1 pad2 pad3 : List Nat}
    {inpc insc vo : TrieImage} {fp fs fv : Nat → Nat} (hl : LayoutBody file base indexes inpc.bytes pad1 insc.bytes pad2 vo.bytes pad3)
    (h1 : Stores inpc fp) (h2 : Stores insc fs) (h3 : Stores vo fv) :
    ∃ t, LayoutProps.load (construct file State.initial).1 = .ok t ∧
      ∀ c, c ≤ 0x10FFFF → t.getInPC c = .ok (fp c) ∧ t.getInSC c = .ok (fs c) ∧ t.getVO c = .ok (fv c) := by
  obtain ⟨s, off, hd, hc, hf, ho, rfl⟩ := body_found hb
  rw [hc]
  refine ⟨⟨trieOf inpc, trieOf insc, trieOf vo⟩, ?_, fun c hc => ⟨get_stored h1 c hc, get_stored h2 c hc, get_stored h3 c hc⟩⟩
  have hlen := leAll_length 4 indexes
  have b := hl.body
  have b0 := at_left (at_left (at_left b))
  have b1 := at_right (at_left (at_left b))
  have b2 := at_right (at_left b)
  have b3 := at_right b
  have u0 : unpack 4 1 (slice file (off + hd.headerLength) (off + hd.headerLength + 4)) = .ok [indexes.length] :=
    head_at (by rw [List.append_assoc, List.append_assoc] at b; exact b) hl.count hl.fits
  have u1 : unpack 4 indexes.length (slice file (off + hd.headerLength) (off + hd.headerLength + indexes.length * 4)) = .ok indexes :=
    at_unpack b0 rfl (by omega) hl.fits
  unfold LayoutProps.load
  rw [ho]
  simp only [bind, Except.bind, State.getData, hf, u0, List.getD_cons_zero, u1]
  rw [arr_get (show indexes[LayoutProps.ULAYOUT_IX_INPC_TRIE_TOP]? = _ from hl.top1)]
  simp only
  rw [at_slice' (by rw [hlen] at b1; rw [Nat.mul_comm]; exact b1) (by simp only [List.length_append]; omega), create_stored h1]
  simp only
  rw [arr_get (show indexes[LayoutProps.ULAYOUT_IX_INSC_TRIE_TOP]? = _ from hl.top2)]
  simp only
  rw [at_slice' (by rw [Nat.add_comm]; exact b2) (by simp only [List.length_append]; omega), create_stored h2]
  simp only
  rw [arr_get (show indexes[LayoutProps.ULAYOUT_IX_VO_TRIE_TOP]? = _ from hl.top3)]
  simp only
  rw [at_slice' (by rw [Nat.add_comm]; exact b3) (by simp only [List.length_append]; omega), create_stored h3]

/-- C78 fails when there is no trie. LayoutProps.py:16-17 says that no trie is stored when the space for it is less than 16
bytes long. Such a file is not accepted: the import raises `struct.error`, so that the other two properties are lost too. -/
theorem layout_missing_refuted {file : List Nat} {base : Nat} (hb : Body file (txt "ulayout.icu") base) {indexes pad1 insc vo : List Nat}
    (hl : LayoutBody file base indexes [] pad1 insc [] vo []) (h : pad1.length < 16) :
    LayoutProps.load (construct file State.initial).1 = .error .structError := by
  obtain ⟨s, off, hd, hc, hf, ho, rfl⟩ := body_found hb
  rw [hc]
  have hlen := leAll_length 4 indexes
  have b := hl.body
  have b0 := at_left (at_left (at_left b))
  have b1 := at_right (at_left (at_left b))
  have u0 : unpack 4 1 (slice file (off + hd.headerLength) (off + hd.headerLength + 4)) = .ok [indexes.length] :=
    head_at (by rw [List.append_assoc, List.append_assoc] at b; exact b) hl.count hl.fits
  have u1 : unpack 4 indexes.length (slice file (off + hd.headerLength) (off + hd.headerLength + indexes.length * 4)) = .ok indexes :=
    at_unpack b0 rfl (by omega) hl.fits
  unfold LayoutProps.load
  rw [ho]
  simp only [bind, Except.bind, State.getData, hf, u0, List.getD_cons_zero, u1]
  rw [arr_get (show indexes[LayoutProps.ULAYOUT_IX_INPC_TRIE_TOP]? = _ from hl.top1)]
  simp only
  rw [at_slice' (by rw [hlen] at b1; rw [Nat.mul_comm]; exact b1) (by simp only [List.length_append]; omega),
    CPTrie.Props.createFromData_short (by simpa using h)]

/-- `createFromFileData` builds its object from the numbers in the file. -/
theorem createFromFileData_init {file : List Nat} {base : Nat} {package : Str} (hb : Body file (package ++ txt ".nrm") base)
    {indexes pad extra : List Nat} {img : TrieImage} {f : Nat → Nat} (hn : NormBody file base indexes img.bytes pad extra)
    (ht : Stores img f) : Normalizer2.createFromFileData (construct file State.initial).1 package =
      Normalizer2.init (trieOf img) (Arr.ofList indexes) (Arr.ofList extra) := by
  obtain ⟨s, off, hd, hc, hf, ho, rfl⟩ := body_found hb
  rw [hc]
  have hlen := leAll_length 4 indexes
  have hlen2 := leAll_length 2 extra
  have b := hn.body
  have b0 := at_left (at_left b)
  have b1 := at_right (at_left b)
  have b2 := at_right b
  have u0 : unpack 4 1 (slice file (off + hd.headerLength) (off + hd.headerLength + 4)) = .ok [4 * indexes.length] :=
    head_at (by rw [List.append_assoc] at b; exact b) (by rw [hn.start, hlen]) hn.fits
  have hdiv : 4 * indexes.length / 4 = indexes.length := by omega
  have u1 : unpack 4 indexes.length (slice file (off + hd.headerLength) (off + hd.headerLength + indexes.length * 4)) = .ok indexes :=
    at_unpack b0 rfl (by omega) hn.fits
  unfold Normalizer2.createFromFileData
  rw [ho]
  simp only [bind, Except.bind, State.getData, hf, u0, List.getD_cons_zero, hdiv, u1]
  rw [arr_get (show indexes[Normalizer2.IX_NORM_TRIE_OFFSET]? = _ from hn.start),
    arr_get (show indexes[Normalizer2.IX_EXTRA_DATA_OFFSET]? = _ from hn.trieEnd),
    arr_get (show indexes[Normalizer2.IX_SMALL_FCD_OFFSET]? = _ from hn.extraEnd)]
  simp only
  rw [at_slice' (by rw [Nat.add_comm]; exact b1) (by simp only [List.length_append]; omega), create_stored ht]
  simp only
  rw [if_neg (by simp only [List.length_append]; omega)]
  rw [show ((leAll 4 indexes ++ (img.bytes ++ pad) ++ leAll 2 extra).length + (off + hd.headerLength) -
      ((leAll 4 indexes ++ (img.bytes ++ pad)).length + (off + hd.headerLength))) / 2 = extra.length by
    simp only [List.length_append]; omega]
  rw [at_unpack (w := 2) (vs := extra) (by rw [Nat.add_comm]; exact b2) rfl (by simp only [List.length_append]; omega) hn.units]

/-- C79. From a data file whose item `<package>.nrm` holds indexes, a trie and extra data, `createFromFileData` makes the
normalizer with these: its trie values are the stored map, its limits are the indexes 8, 10, 14, 12 and 13, and its mappings
are the extra data after the compositions of the code points with `maybeYes` values. -/
theorem createFromFileData_exact {file : List Nat} {base : Nat} {package : Str} (hb : Body file (package ++ txt ".nrm") base)
    {indexes pad extra : List Nat} {img : TrieImage} {f : Nat → Nat} (hn : NormBody file base indexes img.bytes pad extra)
    (ht : Stores img f) (h20 : 20 ≤ indexes.length) (h8 : indexes.getD 13 0 % 8 = 0) (hle : indexes.getD 13 0 ≤ 0xFC00) :
    ∃ n, Normalizer2.createFromFileData (construct file State.initial).1 package = .ok n ∧
      (∀ c, c ≤ 0x10FFFF → n.getRawNorm16 c = .ok (f c)) ∧
      n.minDecompNoCP = indexes.getD 8 0 ∧ n.minYesNo = indexes.getD 10 0 ∧ n.minYesNoMappingsOnly = indexes.getD 14 0 ∧
      n.limitNoNo = indexes.getD 12 0 ∧ n.minMaybeYes = indexes.getD 13 0 ∧
      n.centerNoNoDelta = indexes.getD 13 0 / 8 - 0x41 ∧
      (∀ i, n.extraData.get i = (Arr.ofList extra).get ((0xFC00 - indexes.getD 13 0) / 2 + i)) := by
  rw [createFromFileData_init hb hn ht]
  have g : ∀ i, i < 20 → (Arr.ofList indexes).get i = .ok (indexes.getD i 0) := by
    intro i hi
    unfold Arr.get Arr.ofList
    rw [if_pos (by simp only; omega)]
  unfold Normalizer2.init
  simp only [g 8 (by omega), g 9 (by omega), g 18 (by omega), g 10 (by omega), g 14 (by omega), g 11 (by omega), g 15 (by omega),
    g 16 (by omega), g 17 (by omega), g 12 (by omega), g 13 (by omega), bind, Except.bind]
  rw [if_neg (by omega)]
  refine ⟨_, rfl, fun c hc => get_stored ht c hc, rfl, rfl, rfl, rfl, rfl, ?_, ?_⟩
  · simp only [Normalizer2.DELTA_SHIFT, Normalizer2.MAX_DELTA]
    omega
  · intro i
    have hs : ((Normalizer2.MIN_NORMAL_MAYBE_YES : Int) - ((indexes.getD 13 0 : Nat) : Int)) / 2 ^ Normalizer2.OFFSET_SHIFT =
        (((0xFC00 - indexes.getD 13 0) / 2 : Nat) : Int) := by
      simp only [Normalizer2.MIN_NORMAL_MAYBE_YES, Normalizer2.OFFSET_SHIFT]
      omega
    simp only
    rw [hs]
    unfold Arr.sliceFrom Arr.get
    rw [if_pos (Int.natCast_nonneg _), Int.toNat_natCast]
    simp only
    by_cases hi : (0xFC00 - indexes.getD 13 0) / 2 + i < (Arr.ofList extra).size
    · rw [if_pos hi, if_pos (by omega)]
    · rw [if_neg hi, if_neg (by omega)]

/-! ## Files that meet the hypotheses -/

/-- A data file with one item. -/
def oneItem (name body : List Nat) : List Nat :=
  (leBytes 2 24 ++ List.replicate 22 0) ++ leBytes 4 1 ++ leAll 4 [12, 12 + (name.length + 3)] ++ ([112] ++ [47] ++ name ++ [0]) ++
    (Header.bytes ⟨32, [0xDA, 0x27], 20, 0, List.replicate 16 1⟩ ++ List.replicate 8 0) ++ body

theorem oneItem_body (name body : List Nat) (hn : 0 ∉ name) (hl : name.length < 0x1000) :
    Body (oneItem name body) name (71 + name.length) ∧ At (oneItem name body) (71 + name.length) body := by
  have l0 : (leBytes 2 24 ++ List.replicate 22 0).length = 24 := by decide
  have l1 : (leBytes 4 1).length = 4 := by decide
  have l2 : (leAll 4 [12, 12 + (name.length + 3)]).length = 8 := leAll_length _ _
  have l3 : ([112] ++ [47] ++ name ++ [0]).length = name.length + 3 := by simp
  have l4 : (Header.bytes ⟨32, [0xDA, 0x27], 20, 0, List.replicate 16 1⟩ ++ List.replicate 8 0).length = 32 := by decide
  have whole : At (oneItem name body) 0 (oneItem name body) := ⟨[], [], by simp, rfl⟩
  have w5 := at_right (show At (oneItem name body) 0 (_ ++ body) from whole)
  have w4 := at_left (show At (oneItem name body) 0 (_ ++ body) from whole)
  have w4' := at_left (at_right w4)
  have w3 := at_left w4
  have w3' := at_right w3
  have w2 := at_left w3
  have w2' := at_right w2
  have w1 := at_left w2
  have w1' := at_right w1
  have w0 := at_left (at_left w1)
  simp only [List.length_append (as := _ ++ _ ++ _), l0, l1, l2, l4, List.length_append (bs := leBytes 4 1)] at w5 w4' w3' w2' w1'
  refine ⟨⟨24, [⟨[112], name, 12, 12 + (name.length + 3)⟩], ?_, by simp, ⟨[112], name, 12, 12 + (name.length + 3)⟩, by simp, rfl,
    ⟨32, [0xDA, 0x27], 20, 0, List.replicate 16 1⟩, ⟨by decide, by decide, by decide, by decide, by decide⟩, ?_, ?_⟩, ?_⟩
  · refine ⟨?_, w0, by decide, ?_, by simp, ?_, ?_, ?_, ?_⟩
    · unfold oneItem; simp [leBytes_length]; omega
    · simpa using w1'
    · intro i it hi
      match i, hi with
      | 0, hi => injection hi with hi; subst hi; simpa using w2'
      | i + 1, hi => simp at hi
    · intro it hit
      simp only [List.mem_cons, List.not_mem_nil, or_false] at hit
      subst hit
      exact ⟨by simp, show 12 + (name.length + 3) < _ by omega⟩
    · intro it hit
      simp only [List.mem_cons, List.not_mem_nil, or_false] at hit
      subst hit
      simpa using w3'
    · intro it hit
      simp only [List.mem_cons, List.not_mem_nil, or_false] at hit
      subst hit
      exact ⟨by simp, by simp, hn⟩
  · have : 0 + (24 + 4 + 8 + (name.length + 3)) = 24 + (12 + (name.length + 3)) := by omega
    rw [← this]
    exact w4'
  · simp only; omega
  · have : 0 + (24 + 4 + 8 + (name.length + 3) + 32) = 71 + name.length := by omega
    rw [← this]
    exact w5

/-- A small trie: every ASCII character has its code as value, the other code points below 0x1000 have 0, all others `high`. -/
def smallImage (high : Nat) : TrieImage :=
  ⟨0x54726933, 1, 0, 0x7FFF, 0xFFFFF, 8, [0, 64] ++ List.replicate 62 128, List.range 128 ++ List.replicate 64 0 ++ [high, 9]⟩

def smallMap (high c : Nat) : Nat := if c < 128 then c else if c < 0x1000 then 0 else high

theorem small_data (high i : Nat) (hi : i < 194) : (trieOf (smallImage high)).data.get i =
    .ok (if i < 128 then i else if i < 192 then 0 else if i < 193 then high else 9) := by
  unfold trieOf smallImage Arr.ofList Arr.get
  simp only
  rw [if_pos (by simpa using hi)]
  congr 1
  rw [List.getD_eq_getElem?_getD, List.getElem?_append]
  simp only [List.length_append, List.length_range, List.length_replicate]
  split
  · rw [List.getElem?_append]
    simp only [List.length_range]
    split
    · rw [List.getElem?_range (by assumption)]; rfl
    · rw [List.getElem?_replicate]; split <;> rfl
  · rw [if_neg (by omega)]
    have : i = 192 ∨ i = 193 := by omega
    rcases this with rfl | rfl <;> rfl

theorem small_index (high b : Nat) (hb : b < 64) : (trieOf (smallImage high)).index.get b = .ok (if b < 2 then 64 * b else 128) := by
  have : ∀ b < 64, (Arr.ofList ([0, 64] ++ List.replicate 62 128)).get b = .ok (if b < 2 then 64 * b else 128) := by decide
  exact this b hb

theorem small_stores (high : Nat) (hh : high < 0x10000) : Stores (smallImage high) (smallMap high) := by
  refine ⟨⟨by simp [smallImage], by simp [smallImage], by simp [smallImage], by simp [smallImage], by simp [smallImage], ?_, ?_, ?_, ?_⟩,
    by simp [smallImage], 9, ⟨Or.inr rfl, ?_, ?_, ?_, ?_, ?_, by simp [trieOf, smallImage]⟩⟩
  · simp [smallImage]
  · simp [smallImage]
  · show ∀ v ∈ [0, 64] ++ List.replicate 62 128, v < 0x10000
    decide
  · intro v hv
    simp only [smallImage, List.mem_append, List.mem_range, List.mem_replicate, List.mem_cons, List.not_mem_nil, or_false] at hv
    show v < 65536
    omega
  · intro c hc
    rw [small_data high c (by omega), if_pos (by omega)]
    unfold smallMap
    rw [if_pos (by omega)]
  · intro b hb
    have hb : b < 64 := by
      have : 64 * b < 0x1000 := hb
      omega
    refine ⟨_, small_index high b hb, fun j hj => ?_⟩
    unfold smallMap
    by_cases h2 : b < 2
    · rw [if_pos h2, small_data high _ (by omega), if_pos (by omega), if_pos (by omega)]
    · rw [if_neg h2, small_data high _ (by omega), if_neg (by omega), if_pos (by omega), if_neg (by omega), if_pos (by omega)]
  · intro g h1 h2
    have h1 : 0x1000 ≤ 512 * g := h1
    have h2 : 512 * g < 512 * 8 := h2
    omega
  · intro c h1 _ _
    have h1 : 0x1000 ≤ c := h1
    have : (trieOf (smallImage high)).data.size = 194 := by simp [trieOf, smallImage, Arr.ofList]
    rw [this, small_data high _ (by omega)]
    unfold smallMap
    rw [if_neg (show ¬ c < 128 by omega), if_neg (show ¬ c < 0x1000 by omega)]
    rfl
  · have : (trieOf (smallImage high)).data.size = 194 := by simp [trieOf, smallImage, Arr.ofList]
    rw [this, small_data high _ (by omega)]
    rfl

theorem small_length (high : Nat) : (smallImage high).bytes.length = 532 := by
  unfold TrieImage.bytes
  simp only [List.length_append, leAll_length, leBytes_length]
  simp [smallImage, TrieImage.bytesPerValue]

/-- A layout file with three different tries and some padding. -/
def layoutIndexes : List Nat := [12, 584, 1120, 1652, 0, 0, 0, 0, 0, 0, 0, 0]

def layoutFile : List Nat := oneItem (txt "ulayout.icu")
  (leAll 4 layoutIndexes ++ ((smallImage 3).bytes ++ [1, 1, 1, 1]) ++ ((smallImage 4).bytes ++ [2, 2, 2, 2]) ++ ((smallImage 5).bytes ++ []))

theorem layoutFile_ok : Body layoutFile (txt "ulayout.icu") 82 ∧
    LayoutBody layoutFile 82 layoutIndexes (smallImage 3).bytes [1, 1, 1, 1] (smallImage 4).bytes [2, 2, 2, 2] (smallImage 5).bytes [] := by
  obtain ⟨h1, h2⟩ := oneItem_body (txt "ulayout.icu") (leAll 4 layoutIndexes ++ ((smallImage 3).bytes ++ [1, 1, 1, 1]) ++
    ((smallImage 4).bytes ++ [2, 2, 2, 2]) ++ ((smallImage 5).bytes ++ [])) (by decide) (by decide)
  have hl := leAll_length 4 layoutIndexes
  have hl' : layoutIndexes.length = 12 := rfl
  refine ⟨h1, h2, by decide, rfl, ?_, ?_, ?_⟩ <;>
    simp only [List.length_append, small_length, hl, hl', List.length_cons, List.length_nil] <;> rfl

example : ∃ t, LayoutProps.load (construct layoutFile State.initial).1 = .ok t ∧ t.getInPC 0x1000 = .ok 3 ∧ t.getInSC 65 = .ok 65 ∧
    t.getVO 0x10FFFF = .ok 5 := by
  obtain ⟨t, h, hc⟩ := layout_lookup_partial layoutFile_ok.1 layoutFile_ok.2 (small_stores 3 (by decide)) (small_stores 4 (by decide))
    (small_stores 5 (by decide))
  exact ⟨t, h, (hc 0x1000 (by decide)).1, (hc 65 (by decide)).2.1, (hc 0x10FFFF (by decide)).2.2⟩

/-- A layout file without the first trie. -/
def noInpcFile : List Nat := oneItem (txt "ulayout.icu")
  (leAll 4 [4, 24, 556, 1088] ++ ([] ++ List.replicate 8 0) ++ ((smallImage 4).bytes ++ []) ++ ((smallImage 5).bytes ++ []))

example : LayoutProps.load (construct noInpcFile State.initial).1 = .error .structError := by
  obtain ⟨h1, h2⟩ := oneItem_body (txt "ulayout.icu") (leAll 4 [4, 24, 556, 1088] ++ ([] ++ List.replicate 8 0) ++
    ((smallImage 4).bytes ++ []) ++ ((smallImage 5).bytes ++ [])) (by decide) (by decide)
  have hl := leAll_length 4 [4, 24, 556, 1088]
  refine layout_missing_refuted h1 (pad1 := List.replicate 8 0) (insc := (smallImage 4).bytes) (vo := (smallImage 5).bytes)
    ⟨h2, by decide, rfl, ?_, ?_, ?_⟩ (by decide) <;>
    simp only [List.length_append, small_length, hl, List.length_cons, List.length_nil, List.length_replicate] <;> rfl

/-- Normalization data with three units of extra data, of which one is of the compositions. -/
def normIndexes : List Nat := [80, 616, 622, 0, 0, 0, 0, 0, 0xC0, 1, 10, 2, 12, 0xFBF8, 14, 3, 4, 5, 6, 7]

def normFile : List Nat := oneItem (txt "nfkc" ++ txt ".nrm")
  (leAll 4 normIndexes ++ ((smallImage 3).bytes ++ [1, 1, 1, 1]) ++ leAll 2 [100, 200, 300])

example : ∃ n, Normalizer2.createFromFileData (construct normFile State.initial).1 (txt "nfkc") = .ok n ∧ n.getRawNorm16 65 = .ok 65 ∧
    n.minYesNo = 10 ∧ n.limitNoNo = 12 ∧ n.minYesNoMappingsOnly = 14 ∧ n.minMaybeYes = 0xFBF8 := by
  obtain ⟨h1, h2⟩ := oneItem_body (txt "nfkc" ++ txt ".nrm") (leAll 4 normIndexes ++ ((smallImage 3).bytes ++ [1, 1, 1, 1]) ++
    leAll 2 [100, 200, 300]) (by decide) (by decide)
  have hl := leAll_length 4 normIndexes
  have hl' : normIndexes.length = 20 := rfl
  have hx := leAll_length 2 [100, 200, 300]
  have hb : NormBody normFile 79 normIndexes (smallImage 3).bytes [1, 1, 1, 1] [100, 200, 300] := by
    refine ⟨h2, by decide, by decide, ?_, ?_, ?_⟩ <;>
      simp only [List.length_append, small_length, hl, hl', hx, List.length_cons, List.length_nil] <;> rfl
  obtain ⟨n, h, hc, _, e1, e2, e3, e4, _, _⟩ := createFromFileData_exact h1 hb (small_stores 3 (by decide)) (by decide) (by decide)
    (by decide)
  exact ⟨n, h, hc 65 (by decide), e1, e3, e2, e4⟩

end Verif.ICUData.Props

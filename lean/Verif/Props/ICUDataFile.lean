import Verif.Model.ICUDataFile
import Verif.Spec.ICUDataFile
import Verif.Lemmas.Bytes
/-!
# The data file: `ICUDataFile.py` (C54, C55, C74)
-/
namespace Verif.ICUData.Props
open Verif.ICUData.Spec (Item At Layout Header)
open Verif.Spec (leBytes leAll)

theorem at_slice {file bytes : List Nat} {pos : Nat} (h : At file pos bytes) : slice file pos (pos + bytes.length) = bytes := by
  obtain ⟨pre, post, rfl, rfl⟩ := h
  rw [List.append_assoc]
  exact slice_mid _ _ _ rfl rfl

theorem at_drop {file bytes : List Nat} {pos : Nat} (h : At file pos bytes) : ∃ post, file.drop pos = bytes ++ post := by
  obtain ⟨pre, post, rfl, rfl⟩ := h
  exact ⟨post, by simp⟩

theorem untilNul_text : ∀ (t rest : List Nat), 0 ∉ t → untilNul (t ++ 0 :: rest) = .ok t := by
  intro t
  induction t with
  | nil => intro rest _; rfl
  | cons c t ih =>
    intro rest h
    have hc : c ≠ 0 := fun e => h (by simp [e])
    rw [List.cons_append]
    unfold untilNul
    rw [if_pos hc, ih rest (fun hm => h (by simp [hm]))]
    rfl

/-- C74. `getString` returns the text before the zero byte, wherever it is stored. -/
theorem getString_text (s : State) (pos : Nat) (t : List Nat) (ht : 0 ∉ t) (h : At s.fileData pos (t ++ [0])) :
    s.getString pos = .ok t := by
  obtain ⟨post, hp⟩ := at_drop h
  unfold State.getString
  rw [hp, List.append_assoc]
  exact untilNul_text t post ht

theorem idxOf_slash {p n : List Nat} (h : 47 ∉ p) : (p ++ 47 :: n).idxOf 47 = p.length := by
  induction p with
  | nil => simp
  | cons c p ih =>
    have hc : c ≠ 47 := fun e => h (by simp [e])
    rw [List.cons_append, List.idxOf_cons, ih (fun hm => h (by simp [hm]))]
    rw [show (c == 47) = false by simpa using hc]
    rfl

/-- C74. `getName` returns what follows the first slash; a name without slash raises `ValueError`. -/
theorem getName_text (s : State) (pos : Nat) (p n : List Nat) (hp : 47 ∉ p) (h0 : 0 ∉ p) (h1 : 0 ∉ n)
    (h : At s.fileData pos (p ++ [47] ++ n ++ [0])) : s.getName pos = .ok n := by
  unfold State.getName
  rw [getString_text s pos (p ++ [47] ++ n) (by simp [h0, h1]) h]
  simp only [bind, Except.bind]
  rw [if_pos (by simp), List.append_assoc, List.singleton_append, idxOf_slash hp]
  congr 1
  rw [List.drop_append]
  simp

theorem getName_noSlash (s : State) (pos : Nat) (t : List Nat) (ht : 0 ∉ t) (hs : 47 ∉ t) (h : At s.fileData pos (t ++ [0])) :
    s.getName pos = .error .valueError := by
  unfold State.getName
  rw [getString_text s pos t ht h]
  simp only [bind, Except.bind]
  rw [if_neg hs]

/-- Python's `dict`. -/
theorem dictGet_set {α : Type} (d : Dict α) (k k' : Str) (v : α) :
    dictGet (dictSet d k v) k' = if k = k' then .ok v else dictGet d k' := by
  induction d with
  | nil =>
    unfold dictSet dictGet
    rfl
  | cons p d ih =>
    obtain ⟨a, b⟩ := p
    unfold dictSet
    by_cases h : a = k
    · rw [if_pos h]
      unfold dictGet
      by_cases h2 : a = k'
      · rw [if_pos h2, if_pos (h ▸ h2)]
      · rw [if_neg h2, if_neg (h ▸ h2), if_neg h2]
    · rw [if_neg h]
      conv => lhs; unfold dictGet
      by_cases h2 : a = k'
      · rw [if_pos h2, if_neg (fun e => h (h2.trans e.symm))]
        unfold dictGet
        rw [if_pos h2]
      · rw [if_neg h2, ih]
        congr 1
        conv => rhs; unfold dictGet
        rw [if_neg h2]

/-- The dictionary after reading some items. -/
def offsetsOf (h : Nat) (items : List Item) (d : Dict Nat) : Dict Nat :=
  items.foldl (fun d it => dictSet d it.name (it.dataOffset + h)) d

theorem tocLoop_ok {file : List Nat} {h : Nat} {items : List Item} (L : Layout file h items) :
    ∀ (n i : Nat) (d : Dict Nat), i + n = items.length →
      tocLoop h n (h + 4 + 8 * i) ⟨file, d⟩ = (⟨file, offsetsOf h (items.drop i) d⟩, .ok ()) := by
  intro n
  induction n with
  | zero =>
    intro i d hi
    unfold tocLoop
    rw [List.drop_of_length_le (by omega)]
    rfl
  | succ n ih =>
    intro i d hi
    have hlt : i < items.length := by omega
    have hget : items[i]? = some items[i] := List.getElem?_eq_getElem hlt
    have hmem : items[i] ∈ items := List.getElem_mem hlt
    have he := at_slice (L.entry i _ hget)
    rw [leAll_length] at he
    have hf := L.entry_fits _ hmem
    have hu : unpack 4 2 (slice file (h + 4 + 8 * i) (h + 4 + 8 * i + tocEntryLength)) =
        .ok [items[i].nameOffset, items[i].dataOffset] := by
      have := unpack_leAll (w := 4) (vs := [items[i].nameOffset, items[i].dataOffset]) (by
        intro v hv
        simp only [List.mem_cons, List.not_mem_nil, or_false] at hv
        rcases hv with rfl | rfl <;> simp <;> omega)
      rw [← he] at this
      exact this
    obtain ⟨t1, t2, t3⟩ := L.name_text _ hmem
    have hn := getName_text ⟨file, d⟩ (h + items[i].nameOffset) items[i].pkg items[i].name t1 t2 t3 (L.name _ hmem)
    unfold tocLoop
    simp only [hu, List.getD_cons_zero, List.getD_cons_succ]
    rw [Nat.add_comm items[i].nameOffset h, hn]
    simp only
    rw [show h + 4 + 8 * i + tocEntryLength = h + 4 + 8 * (i + 1) by unfold tocEntryLength; omega]
    rw [ih (i + 1) _ (by omega), List.drop_eq_getElem_cons hlt]
    rfl

/-- Loading a file with the layout succeeds. -/
theorem construct_ok {file : List Nat} {h : Nat} {items : List Item} (L : Layout file h items) :
    construct file State.initial = (⟨file, offsetsOf h items []⟩, .ok ()) := by
  unfold construct populateData
  rw [if_neg (by simp [State.initial])]
  simp only [State.initial]
  have hh := at_slice L.header
  rw [leBytes_length] at hh
  have h24 : (slice file 0 dataHeaderLength).length = dataHeaderLength := by
    have := L.long
    unfold slice dataHeaderLength
    simp
    omega
  have hu : unpackHeader (slice file 0 dataHeaderLength) =
      .ok ⟨h, leValue (slice (slice file 0 dataHeaderLength) 4 6), leValue (slice (slice file 0 dataHeaderLength) 6 8),
        slice (slice file 0 dataHeaderLength) 2 4, slice (slice file 0 dataHeaderLength) 8 24⟩ := by
    unfold unpackHeader
    rw [if_pos h24]
    have : leValue (slice (slice file 0 dataHeaderLength) 0 2) = h := by
      have e : slice (slice file 0 dataHeaderLength) 0 2 = slice file 0 (0 + 2) := by
        unfold slice dataHeaderLength
        simp [List.take_take]
      rw [e, hh]
      exact leValue_leBytes 2 h L.header_fits
    rw [this]
  rw [hu]
  simp only
  have hc := at_slice L.count
  rw [leBytes_length] at hc
  have hu2 : unpack 4 1 (slice file h (h + 4)) = .ok [items.length] := by
    have := unpack_leAll (w := 4) (vs := [items.length]) (by
      intro v hv
      simp only [List.mem_cons, List.not_mem_nil, or_false] at hv
      subst hv
      exact L.count_fits)
    rw [hc]
    simpa [leAll] using this
  rw [hu2]
  simp only [List.getD_cons_zero]
  have := tocLoop_ok L items.length 0 [] (by omega)
  simpa using this

theorem get_offsets_none {h : Nat} {name : Str} : ∀ (items : List Item) (d : Dict Nat), (∀ it ∈ items, it.name ≠ name) →
    dictGet (offsetsOf h items d) name = dictGet d name := by
  intro items
  induction items with
  | nil => intro d _; rfl
  | cons x xs ih =>
    intro d hn
    unfold offsetsOf
    rw [List.foldl_cons]
    have := ih (dictSet d x.name (x.dataOffset + h)) (fun it hit => hn it (by simp [hit]))
    unfold offsetsOf at this
    rw [this, dictGet_set, if_neg (hn x (by simp))]

/-- C54. After loading a data file, the lookup of an item gives its recorded offset plus the length of the file header; of
several items with one name the last one counts; other names raise `KeyError`. -/
theorem lookup_exact (file : List Nat) (h : Nat) (items : List Item) (L : Layout file h items) :
    ∃ s, construct file State.initial = (s, .ok ()) ∧ s.fileData = file ∧
      (∀ (i : Nat) (it : Item), items[i]? = some it → (∀ (j : Nat) (it' : Item), i < j → items[j]? = some it' → it'.name ≠ it.name) →
        s.getDataOffset it.name = .ok (h + it.dataOffset)) ∧
      (∀ name, (∀ it ∈ items, it.name ≠ name) → s.getDataOffset name = .error .keyError) := by
  refine ⟨_, construct_ok L, rfl, ?_, ?_⟩
  · intro i it hi hlast
    obtain ⟨hlt, rfl⟩ := List.getElem?_eq_some_iff.mp hi
    unfold State.getDataOffset
    have hsplit : items = items.take i ++ items[i] :: items.drop (i + 1) := by
      rw [← List.drop_eq_getElem_cons hlt, List.take_append_drop]
    have hd : offsetsOf h items [] =
        offsetsOf h (items.drop (i + 1)) (dictSet (offsetsOf h (items.take i) []) items[i].name (items[i].dataOffset + h)) := by
      conv => lhs; rw [hsplit]
      unfold offsetsOf
      rw [List.foldl_append, List.foldl_cons]
    simp only
    rw [hd, get_offsets_none, dictGet_set, if_pos rfl, Nat.add_comm]
    intro it' hit'
    obtain ⟨k, hk, rfl⟩ := List.mem_iff_getElem.mp hit'
    rw [List.getElem_drop]
    refine hlast (i + 1 + k) _ (by omega) (List.getElem?_eq_getElem _)
  · intro name hn
    unfold State.getDataOffset
    simp only
    rw [get_offsets_none items [] hn]
    rfl

/-- C54. With different names every item is found. -/
theorem lookup_distinct (file : List Nat) (h : Nat) (items : List Item) (L : Layout file h items)
    (hd : (items.map (·.name)).Nodup) (it : Item) (hit : it ∈ items) :
    ∃ s, construct file State.initial = (s, .ok ()) ∧ s.getDataOffset it.name = .ok (h + it.dataOffset) := by
  obtain ⟨s, h1, _, h3, _⟩ := lookup_exact file h items L
  obtain ⟨i, hi, rfl⟩ := List.mem_iff_getElem.mp hit
  refine ⟨s, h1, h3 i _ (List.getElem?_eq_getElem hi) (fun j it' hij hj => ?_)⟩
  obtain ⟨hjlt, rfl⟩ := List.getElem?_eq_some_iff.mp hj
  have := List.pairwise_iff_getElem.mp hd i j (by simpa using hi) (by simpa using hjlt) hij
  simp only [List.getElem_map] at this
  exact fun e => this e.symm

/-- A file with two items: `p/a` and `p/bc`. -/
def demoFile : List Nat :=
  [24, 0] ++ List.replicate 22 1 ++ [2, 0, 0, 0] ++ [20, 0, 0, 0, 29, 0, 0, 0] ++ [24, 0, 0, 0, 31, 0, 0, 0] ++
    [112, 47, 97, 0] ++ [112, 47, 98, 99, 0] ++ [9, 9] ++ [8, 8]

def demoItems : List Item := [⟨[112], [97], 20, 29⟩, ⟨[112], [98, 99], 24, 31⟩]

theorem demo_layout : Layout demoFile 24 demoItems := by
  have A : ∀ (pos : Nat) (b : List Nat), slice demoFile pos (pos + b.length) = b → pos ≤ demoFile.length → At demoFile pos b := by
    intro pos b h hl
    refine ⟨demoFile.take pos, (demoFile.drop pos).drop b.length, ?_, by simp [hl]⟩
    unfold slice at h
    rw [Nat.add_sub_cancel_left] at h
    conv => rhs; rw [← h]
    rw [List.length_take, List.append_assoc]
    rw [show min b.length (demoFile.drop pos).length = b.length by
      have := congrArg List.length h
      rw [List.length_take] at this
      exact this]
    rw [List.take_append_drop, List.take_append_drop]
  refine ⟨by decide, A _ _ (by decide) (by decide), by decide, A _ _ (by decide) (by decide), by decide, ?_, by decide, ?_, by decide⟩
  · intro i it hi
    match i, hi with
    | 0, hi => injection hi with hi; subst hi; exact A _ _ (by decide) (by decide)
    | 1, hi => injection hi with hi; subst hi; exact A _ _ (by decide) (by decide)
    | i + 2, hi => simp [demoItems] at hi
  · intro it hit
    simp only [demoItems, List.mem_cons, List.not_mem_nil, or_false] at hit
    rcases hit with rfl | rfl
    · exact A _ _ (by decide) (by decide)
    · exact A _ _ (by decide) (by decide)

example : (construct demoFile State.initial).1.getDataOffset [98, 99] = .ok 55 := by decide +kernel

/-- C54. `getDataOffsetAndHeader` gives the offset and the header stored there. -/
theorem dataHeader_exact (s : State) (name : Str) (off : Nat) (hd : Header) (F : hd.Fits)
    (ho : s.getDataOffset name = .ok off) (h : At s.fileData off hd.bytes) :
    s.getDataOffsetAndHeader name = .ok (off, ⟨hd.headerLength, hd.infoSize, hd.reservedWord, hd.magic, hd.flags⟩) := by
  have hl : hd.bytes.length = 24 := by
    unfold Header.bytes
    simp [leBytes_length, F.magic, F.flags]
  have hs := at_slice h
  rw [hl] at hs
  unfold State.getDataOffsetAndHeader
  rw [show dictGet s.dataOffsets name = .ok off from ho]
  simp only [bind, Except.bind]
  rw [show off + dataHeaderLength = off + 24 from rfl, hs]
  unfold unpackHeader
  rw [if_pos (show hd.bytes.length = dataHeaderLength from hl)]
  have s1 : slice hd.bytes 0 2 = leBytes 2 hd.headerLength := by
    unfold Header.bytes
    rw [List.append_assoc, List.append_assoc, List.append_assoc]
    have := slice_mid [] (leBytes 2 hd.headerLength) (hd.magic ++ (leBytes 2 hd.infoSize ++ (leBytes 2 hd.reservedWord ++ hd.flags)))
      (i := 0) (j := 2) rfl (by simp [leBytes_length])
    simpa using this
  have s2 : slice hd.bytes 2 4 = hd.magic := by
    unfold Header.bytes
    rw [List.append_assoc, List.append_assoc, List.append_assoc]
    exact slice_mid _ _ _ (by simp [leBytes_length]) (by simp [leBytes_length, F.magic])
  have s3 : slice hd.bytes 4 6 = leBytes 2 hd.infoSize := by
    unfold Header.bytes
    rw [List.append_assoc, List.append_assoc]
    exact slice_mid _ _ _ (by simp [leBytes_length, F.magic]) (by simp [leBytes_length, F.magic])
  have s4 : slice hd.bytes 6 8 = leBytes 2 hd.reservedWord := by
    unfold Header.bytes
    rw [List.append_assoc]
    exact slice_mid _ _ _ (by simp [leBytes_length, F.magic]) (by simp [leBytes_length, F.magic])
  have s5 : slice hd.bytes 8 24 = hd.flags := by
    unfold Header.bytes
    have := slice_mid (leBytes 2 hd.headerLength ++ hd.magic ++ leBytes 2 hd.infoSize ++ leBytes 2 hd.reservedWord) hd.flags []
      (i := 8) (j := 24) (by simp [leBytes_length, F.magic]) (by simp [leBytes_length, F.magic, F.flags])
    rwa [List.append_nil] at this
  rw [s1, s2, s3, s4, s5, leValue_leBytes 2 _ F.headerLength, leValue_leBytes 2 _ F.infoSize, leValue_leBytes 2 _ F.reservedWord]

example : ∃ (s : State) (hd : Header), hd.Fits ∧ s.getDataOffset [97] = .ok 1 ∧ At s.fileData 1 hd.bytes :=
  ⟨⟨7 :: leBytes 2 300 ++ [1, 2] ++ leBytes 2 20 ++ leBytes 2 0 ++ List.replicate 16 5, [([97], 1)]⟩,
    ⟨300, [1, 2], 20, 0, List.replicate 16 5⟩, ⟨by decide, by decide, by decide, by decide, by decide⟩, rfl,
    ⟨[7], [], by decide, rfl⟩⟩

/-- The states of the class along a history of constructions; the file may have other contents each time. -/
def history (files : List (List Nat)) (s : State) : State := files.foldl (fun s f => (construct f s).1) s

/-- C55. A construction on a state with data changes nothing and succeeds. -/
theorem construct_loaded (file : List Nat) (s : State) (h : s.fileData ≠ []) : construct file s = (s, .ok ()) := by
  unfold construct populateData
  rw [if_pos h]

theorem tocLoop_fileData (h : Nat) : ∀ n p s, (tocLoop h n p s).1.fileData = s.fileData := by
  intro n
  induction n with
  | zero => intro p s; rfl
  | succ n ih =>
    intro p s
    unfold tocLoop
    split
    · rfl
    · split
      · rfl
      · rw [ih]

theorem populate_fileData (file : List Nat) (s : State) (h : s.fileData = []) : (construct file s).1.fileData = file := by
  unfold construct populateData
  rw [if_neg (by simp [h])]
  simp only
  split
  · rfl
  · split
    · rfl
    · rw [tocLoop_fileData]

/-- C55. Whatever the file contains at later constructions, the state after any number of constructions is the state after
the first one that read a non-empty file. -/
theorem construct_idempotent (file : List Nat) (hne : file ≠ []) (files : List (List Nat)) :
    history (file :: files) State.initial = (construct file State.initial).1 := by
  have h0 := populate_fileData file State.initial rfl
  unfold history
  rw [List.foldl_cons]
  generalize (construct file State.initial).1 = s at h0
  induction files generalizing s with
  | nil => rfl
  | cons f fs ih =>
    rw [List.foldl_cons, construct_loaded f s (by rw [h0]; exact hne)]
    exact ih s h0

example : (history [demoFile, [1, 2, 3], []] State.initial).getDataOffset [97] = .ok 53 := by decide +kernel

/-- C55. A failed load is remembered as a load: with a file that is cut off, the first construction raises an exception, the
next one succeeds, and items after the fault are unknown for good, also when the file has been put right meanwhile. -/
theorem failed_load_is_kept :
    ∃ file, (construct file State.initial).2 ≠ .ok () ∧ (construct demoFile (construct file State.initial).1).2 = .ok () ∧
      (construct demoFile (construct file State.initial).1).1.getDataOffset [98, 99] = .error .keyError ∧
      (construct demoFile State.initial).1.getDataOffset [98, 99] = .ok 55 :=
  ⟨demoFile.take 52, by decide +kernel, by decide +kernel, by decide +kernel, by decide +kernel⟩

/-- A load of an empty file raises `struct.error` and is not remembered. -/
theorem empty_file (s : State) (h : s.fileData = []) : construct [] s = (s, .error .structError) := by
  obtain ⟨f, d⟩ := s
  simp only at h
  subst h
  rfl

end Verif.ICUData.Props

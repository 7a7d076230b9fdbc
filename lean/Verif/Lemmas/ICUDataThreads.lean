import Verif.Model.ICUDataThreads
import Verif.Props.ICUDataFile
/-! # Invariants of threads that load the data file -/
namespace Verif.ICUData.Props
open Verif.ICUData.Spec (Item At Layout Header)
open Verif.Spec (leBytes leAll)

/-- What a step of a thread does with a file that has the layout. -/
inductive Trans (file : List Nat) (h : Nat) (items : List Item) : State → Pc → State → Pc → Prop
  | idle {s b} : Trans file h items s (.returned b) s (.returned b)
  | found {s} : s.fileData ≠ [] → Trans file h items s .check s (.returned false)
  | absent {s} : s.fileData = [] → Trans file h items s .check s .read
  | read {s} : Trans file h items s .read { s with fileData := file } .header
  | header {s} : Trans file h items s .header s (.entry h items.length (h + 4 + 8 * 0))
  | finish {s p} : Trans file h items s (.entry h 0 p) s (.returned true)
  | entry {s} (i n : Nat) (it : Item) : i + (n + 1) = items.length → items[i]? = some it →
      Trans file h items s (.entry h (n + 1) (h + 4 + 8 * i)) s (.store h n (h + 4 + 8 * (i + 1)) it.name (it.dataOffset + h))
  | store {s} (i n : Nat) (it : Item) : i + (n + 1) = items.length → items[i]? = some it →
      Trans file h items s (.store h n (h + 4 + 8 * (i + 1)) it.name (it.dataOffset + h))
        { s with dataOffsets := dictSet s.dataOffsets it.name (it.dataOffset + h) } (.entry h n (h + 4 + 8 * (i + 1)))

/-- The places where a thread can be. -/
inductive Good (file : List Nat) (h : Nat) (items : List Item) (s : State) : Pc → Prop
  | check : Good file h items s .check
  | read : Good file h items s .read
  | header : s.fileData = file → Good file h items s .header
  | entry (i n : Nat) : s.fileData = file → i + n = items.length → Good file h items s (.entry h n (h + 4 + 8 * i))
  | store (i n : Nat) (it : Item) : s.fileData = file → i + (n + 1) = items.length → items[i]? = some it →
      Good file h items s (.store h n (h + 4 + 8 * (i + 1)) it.name (it.dataOffset + h))
  | returned (b : Bool) : s.fileData = file → Good file h items s (.returned b)

theorem header_step {file : List Nat} {h : Nat} {items : List Item} (L : Layout file h items) (d : Dict Nat) :
    stepThread file ⟨file, d⟩ .header = (⟨file, d⟩, .entry h items.length (h + 4 + 8 * 0)) := by
  have hh := at_slice L.header
  rw [leBytes_length] at hh
  have h24 : (slice file 0 dataHeaderLength).length = dataHeaderLength := by
    have := L.long
    unfold slice dataHeaderLength
    simp
    omega
  have hu : unpackHeader (slice file 0 dataHeaderLength) =
      .ok ⟨h, leValue (slice (slice file 0 dataHeaderLength) 4 6), leValue (slice (slice file 0 dataHeaderLength) 6 8),
        slice (slice file 0 dataHeaderLength) 2 4, slice (slice file 0 dataHeaderLength) 8 24⟩ := by
    unfold unpackHeader
    rw [if_pos h24]
    have : leValue (slice (slice file 0 dataHeaderLength) 0 2) = h := by
      have e : slice (slice file 0 dataHeaderLength) 0 2 = slice file 0 (0 + 2) := by
        unfold slice dataHeaderLength
        simp [List.take_take]
      rw [e, hh]
      exact leValue_leBytes 2 h L.header_fits
    rw [this]
  have hc := at_slice L.count
  rw [leBytes_length] at hc
  have hu2 : unpack 4 1 (slice file h (h + 4)) = .ok [items.length] := by
    have := unpack_leAll (w := 4) (vs := [items.length]) (by
      intro v hv
      simp only [List.mem_cons, List.not_mem_nil, or_false] at hv
      subst hv
      exact L.count_fits)
    rw [hc]
    simpa [leAll] using this
  dsimp only [stepThread]
  rw [hu]
  dsimp only
  rw [hu2]
  rfl

theorem entry_step {file : List Nat} {h : Nat} {items : List Item} (L : Layout file h items) (d : Dict Nat) {i n : Nat} {it : Item}
    (hi : items[i]? = some it) : stepThread file ⟨file, d⟩ (.entry h (n + 1) (h + 4 + 8 * i)) =
      (⟨file, d⟩, .store h n (h + 4 + 8 * (i + 1)) it.name (it.dataOffset + h)) := by
  obtain ⟨hlt, rfl⟩ := List.getElem?_eq_some_iff.mp hi
  have hmem : items[i] ∈ items := List.getElem_mem hlt
  have he := at_slice (L.entry i _ hi)
  rw [leAll_length] at he
  have hf := L.entry_fits _ hmem
  have hu : unpack 4 2 (slice file (h + 4 + 8 * i) (h + 4 + 8 * i + tocEntryLength)) =
      .ok [items[i].nameOffset, items[i].dataOffset] := by
    have := unpack_leAll (w := 4) (vs := [items[i].nameOffset, items[i].dataOffset]) (by
      intro v hv
      simp only [List.mem_cons, List.not_mem_nil, or_false] at hv
      rcases hv with rfl | rfl <;> simp <;> omega)
    rw [← he] at this
    exact this
  obtain ⟨t1, t2, t3⟩ := L.name_text _ hmem
  have hn := getName_text ⟨file, d⟩ (h + items[i].nameOffset) items[i].pkg items[i].name t1 t2 t3 (L.name _ hmem)
  dsimp only [stepThread]
  simp only [hu, List.getD_cons_zero, List.getD_cons_succ]
  rw [Nat.add_comm items[i].nameOffset h, hn]
  rfl

theorem step_trans {file : List Nat} {h : Nat} {items : List Item} (L : Layout file h items) {s : State} {pc : Pc}
    (g : Good file h items s pc) : Trans file h items s pc (stepThread file s pc).1 (stepThread file s pc).2 := by
  obtain ⟨f, d⟩ := s
  cases g with
  | check =>
    dsimp only [stepThread]
    split
    · exact .found (by assumption)
    · rename_i hn; exact .absent (by simpa using hn)
  | read => exact .read
  | header hf => cases hf; rw [header_step L d]; exact .header
  | entry i n hf hi =>
    cases hf
    cases n with
    | zero => exact .finish
    | succ n =>
      have hg : items[i]? = some items[i] := List.getElem?_eq_getElem (by omega)
      rw [entry_step L d hg]
      exact .entry i n _ hi hg
  | store i n it hf hi hg => exact .store i n it hi hg
  | returned b hf => exact .idle

/-- A thread that will store item number `i`. -/
def Pending (count : Nat) (i : Nat) : Pc → Prop
  | .header => True
  | .entry _ n _ => count - n ≤ i
  | .store _ n _ _ _ => count - (n + 1) ≤ i
  | _ => False

/-- A thread that has stored item number `i`. -/
def Past (count : Nat) (i : Nat) : Pc → Prop
  | .entry _ n _ => i < count - n
  | .store _ n _ _ _ => i < count - (n + 1)
  | .returned b => b = true
  | _ => False

/-- No later item has the name. -/
def Last (items : List Item) (i : Nat) (it : Item) : Prop :=
  items[i]? = some it ∧ ∀ (j : Nat) (it' : Item), i < j → items[j]? = some it' → it'.name ≠ it.name

/-- The invariant. -/
structure Inv (file : List Nat) (h : Nat) (items : List Item) (w : Process) : Prop where
  data : w.state.fileData = [] ∨ w.state.fileData = file
  good : ∀ pc ∈ w.threads, Good file h items w.state pc
  sound : ∀ name off, dictGet w.state.dataOffsets name = .ok off → ∃ it ∈ items, it.name = name ∧ off = it.dataOffset + h
  last : w.state.fileData = file → ∀ i it, Last items i it →
    dictGet w.state.dataOffsets it.name = .ok (it.dataOffset + h) ∨ ∃ pc ∈ w.threads, Pending items.length i pc
  past : (items.map (·.name)).Nodup → ∀ pc ∈ w.threads, ∀ i it, items[i]? = some it → Past items.length i pc →
    dictGet w.state.dataOffsets it.name = .ok (it.dataOffset + h)

theorem Trans.data {file : List Nat} {h : Nat} {items : List Item} {s s' : State} {pc pc' : Pc} (t : Trans file h items s pc s' pc')
    (hd : s.fileData = [] ∨ s.fileData = file) : s'.fileData = [] ∨ s'.fileData = file := by
  cases t <;> first | exact hd | exact .inr rfl

theorem Trans.keep {file : List Nat} {h : Nat} {items : List Item} {s s' : State} {pc pc' : Pc} (t : Trans file h items s pc s' pc')
    (hf : s.fileData = file) : s'.fileData = file := by
  cases t <;> first | exact hf | rfl

theorem Good.keep {file : List Nat} {h : Nat} {items : List Item} {s s' : State} {pc : Pc} (g : Good file h items s pc)
    (hk : s.fileData = file → s'.fileData = file) : Good file h items s' pc := by
  cases g with
  | check => exact .check
  | read => exact .read
  | header hf => exact .header (hk hf)
  | entry i n hf hi => exact .entry i n (hk hf) hi
  | store i n it hf hi hg => exact .store i n it (hk hf) hi hg
  | returned b hf => exact .returned b (hk hf)

theorem Trans.back {file : List Nat} {h : Nat} {items : List Item} {s s' : State} {pc pc' : Pc} (t : Trans file h items s pc s' pc')
    (hf : s'.fileData = file) (hn : pc ≠ .read) : s.fileData = file := by
  cases t <;> first | exact hf | exact absurd rfl hn

theorem Good.file {file : List Nat} {h : Nat} {items : List Item} {s : State} {pc : Pc} (g : Good file h items s pc)
    (h1 : pc ≠ .check) (h2 : pc ≠ .read) : s.fileData = file := by
  cases g <;> first | assumption | exact absurd rfl h1 | exact absurd rfl h2

theorem Trans.good {file : List Nat} {h : Nat} {items : List Item} {s s' : State} {pc pc' : Pc} (t : Trans file h items s pc s' pc')
    (hd : s.fileData = [] ∨ s.fileData = file) (g : Good file h items s pc) : Good file h items s' pc' := by
  cases t with
  | idle => exact g
  | found hn => exact .returned _ (hd.resolve_left hn)
  | absent => exact .read
  | read => exact .header rfl
  | header => cases g with | header hf => exact .entry 0 _ hf (by omega)
  | finish => cases g with | entry i n hf hi => exact .returned _ hf
  | entry i n it hi hg => exact .store i n it (g.file nofun nofun) hi hg
  | store i n it hi hg => exact .entry (i + 1) n (g.file nofun nofun) (by omega)

/-- The dictionary changes by the store of an item only. -/
theorem Trans.dict {file : List Nat} {h : Nat} {items : List Item} {s s' : State} {pc pc' : Pc} (t : Trans file h items s pc s' pc') :
    (s'.dataOffsets = s.dataOffsets ∧ ∀ a n p x o, pc ≠ .store a n p x o) ∨ ∃ i n it, i + (n + 1) = items.length ∧ items[i]? = some it ∧
      s'.dataOffsets = dictSet s.dataOffsets it.name (it.dataOffset + h) ∧
      pc = .store h n (h + 4 + 8 * (i + 1)) it.name (it.dataOffset + h) ∧ pc' = .entry h n (h + 4 + 8 * (i + 1)) := by
  cases t with
  | store i n it hi hg => exact .inr ⟨i, n, it, hi, hg, rfl, rfl, rfl⟩
  | _ => exact .inl ⟨rfl, nofun⟩

theorem inv_start (file : List Nat) (h : Nat) (items : List Item) (hne : file ≠ []) (k : Nat) : Inv file h items (.start k) where
  data := .inl rfl
  good := fun pc hpc => by rw [List.eq_of_mem_replicate hpc]; exact .check
  sound := fun _ _ e => nomatch e
  last := fun e => absurd e.symm hne
  past := fun _ pc hpc i it _ hp => by rw [List.eq_of_mem_replicate hpc] at hp; exact hp.elim

theorem mem_set_cases {α : Type} {l : List α} {t : Nat} {a x : α} (h : x ∈ l.set t a) : x = a ∨ x ∈ l := by
  rcases List.mem_or_eq_of_mem_set h with h | h
  · exact .inr h
  · exact .inl h

theorem inv_step {file : List Nat} {h : Nat} {items : List Item} (L : Layout file h items) {w : Process} (I : Inv file h items w) (t : Nat) :
    Inv file h items (w.step file t) := by
  unfold Process.step
  cases ht : w.threads[t]? with
  | none => exact I
  | some pc =>
    dsimp only
    have hmem : pc ∈ w.threads := List.mem_of_getElem? ht
    have hlt : t < w.threads.length := (List.getElem?_eq_some_iff.mp ht).1
    have T := step_trans L (I.good pc hmem)
    generalize stepThread file w.state pc = r at T
    obtain ⟨s', pc'⟩ := r
    have hmem' : pc' ∈ w.threads.set t pc' := List.mem_set hlt pc'
    have other : ∀ {q}, q ∈ w.threads → q = pc ∨ q ∈ w.threads.set t pc' := by
      intro q hq
      obtain ⟨u, hu, rfl⟩ := List.mem_iff_getElem.mp hq
      by_cases hut : u = t
      · subst hut
        rw [List.getElem?_eq_getElem hlt] at ht
        exact .inl (Option.some.inj ht)
      · refine .inr (List.mem_iff_getElem.mpr ⟨u, by simpa using hu, ?_⟩)
        rw [List.getElem_set_ne (Ne.symm hut)]
    refine ⟨T.data I.data, ?_, ?_, ?_, ?_⟩
    · intro q hq
      rcases mem_set_cases hq with rfl | hq
      · exact T.good I.data (I.good pc hmem)
      · exact (I.good q hq).keep T.keep
    · intro name off ho
      dsimp only at ho
      rcases T.dict with ⟨hd, _⟩ | ⟨i, n, it, hi, hg, hd, _, _⟩
      · rw [hd] at ho; exact I.sound name off ho
      · rw [hd, dictGet_set] at ho
        split at ho
        · rename_i hn
          exact ⟨it, List.mem_of_getElem? hg, hn, (Except.ok.inj ho).symm⟩
        · exact I.sound name off ho
    · intro hf i it hl
      dsimp only at hf ⊢
      -- threads that were pending
      have move : ∀ q ∈ w.threads, Pending items.length i q → (pc = q → Pending items.length i pc') →
          ∃ q ∈ w.threads.set t pc', Pending items.length i q := by
        intro q hq hp hm
        rcases other hq with rfl | hq'
        · exact ⟨pc', hmem', hm rfl⟩
        · exact ⟨q, hq', hp⟩
      rcases T.dict with ⟨hd, hs⟩ | ⟨j, n, it', hj, hg, hd, e1, e2⟩
      · rw [hd]
        by_cases hr : pc = .read
        · subst hr
          cases T
          exact .inr ⟨.header, hmem', trivial⟩
        have hf0 : w.state.fileData = file := T.back hf hr
        rcases I.last hf0 i it hl with h1 | ⟨q, hq, hp⟩
        · exact .inl h1
        · refine .inr (move q hq hp fun e => ?_)
          subst e
          cases T with
          | idle => exact hp
          | found => exact hp.elim
          | absent => exact hp.elim
          | read => exact absurd rfl hr
          | header => show items.length - items.length ≤ i; omega
          | finish =>
            have := (List.getElem?_eq_some_iff.mp hl.1).1
            have hp : items.length - 0 ≤ i := hp
            omega
          | entry _ n it2 hi2 hg2 =>
            have hp : items.length - (n + 1) ≤ i := hp
            exact hp
          | store k m x hk hx => exact absurd rfl (hs _ _ _ _ _)
      · have hf0 : w.state.fileData = file := T.back hf (by rw [e1]; nofun)
        rw [hd, dictGet_set]
        by_cases hn : it'.name = it.name
        · rw [if_pos hn]
          rcases Nat.lt_trichotomy j i with hji | rfl | hji
          · refine .inr ⟨pc', hmem', ?_⟩
            subst e2
            show items.length - n ≤ i
            omega
          · rw [hl.1] at hg
            cases hg
            exact .inl rfl
          · exact absurd hn (hl.2 j it' hji hg)
        · rw [if_neg hn]
          rcases I.last hf0 i it hl with h1 | ⟨q, hq, hp⟩
          · exact .inl h1
          · refine .inr (move q hq hp fun e => ?_)
            subst e
            subst e1 e2
            have hp : items.length - (n + 1) ≤ i := hp
            show items.length - n ≤ i
            have : j ≠ i := by
              rintro rfl
              rw [hl.1] at hg
              cases hg
              exact hn rfl
            omega
    · intro hnd q hq i it hi hp
      dsimp only
      -- a correct entry stays
      have stay : dictGet w.state.dataOffsets it.name = .ok (it.dataOffset + h) → dictGet s'.dataOffsets it.name = .ok (it.dataOffset + h) := by
        intro h0
        rcases T.dict with ⟨hd, _⟩ | ⟨j, n, it', hj, hg, hd, e1, e2⟩
        · rw [hd]; exact h0
        · rw [hd, dictGet_set]
          split
          · rename_i hn
            have : j = i := by
              obtain ⟨hjl, rfl⟩ := List.getElem?_eq_some_iff.mp hg
              obtain ⟨hil, rfl⟩ := List.getElem?_eq_some_iff.mp hi
              exact (List.getElem_inj (xs := items.map Item.name) (i := j) (j := i) (h₀ := by simpa using hjl) (h₁ := by simpa using hil) hnd).mp
                (by simpa using hn)
            subst this
            rw [hi] at hg
            cases hg
            rfl
          · exact h0
      rcases mem_set_cases hq with rfl | hq
      · cases T with
        | idle => exact stay (I.past hnd _ hmem i it hi hp)
        | found => exact absurd (show false = true from hp) (by decide)
        | absent => exact hp.elim
        | read => exact hp.elim
        | header =>
          have hp : i < items.length - items.length := hp
          omega
        | finish => exact stay (I.past hnd _ hmem i it hi (show i < items.length - 0 from (List.getElem?_eq_some_iff.mp hi).1))
        | entry j n it' hj hg => exact stay (I.past hnd _ hmem i it hi hp)
        | store j n it' hj hg =>
          have hp : i < items.length - n := hp
          by_cases hij : i = j
          · subst hij
            rw [hi] at hg
            cases hg
            show dictGet (dictSet _ _ _) _ = _
            rw [dictGet_set, if_pos rfl]
          · exact stay (I.past hnd _ hmem i it hi (show i < items.length - (n + 1) by omega))
      · exact stay (I.past hnd q hq i it hi hp)

theorem inv_run {file : List Nat} {h : Nat} {items : List Item} (L : Layout file h items) : ∀ (schedule : List Nat) {w : Process},
    Inv file h items w → Inv file h items (w.run file schedule)
  | [], _, I => I
  | t :: ts, _, I => inv_run L ts (inv_step L I t)

end Verif.ICUData.Props

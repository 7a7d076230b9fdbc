import Verif.Lemmas.ICUDataThreads
/-! # Threads that load the data file at the same time (C125) -/
namespace Verif.ICUData.Props
open Verif.ICUData.Spec (Item At Layout Header)

theorem dictGet_cases {α : Type} : ∀ (d : Dict α) (k : Str), (∃ v, dictGet d k = .ok v) ∨ dictGet d k = .error .keyError
  | [], _ => .inr rfl
  | (a, v) :: d, k => by
    unfold dictGet
    split
    · exact .inl ⟨v, rfl⟩
    · exact dictGet_cases d k

theorem layout_ne {file : List Nat} {h : Nat} {items : List Item} (L : Layout file h items) : file ≠ [] := by
  rintro rfl
  exact absurd L.long (by decide)

theorem mem_threads {w : Process} {t : Nat} {pc : Pc} (h : w.threads[t]? = some pc) : pc ∈ w.threads := List.mem_of_getElem? h

/-- C125. However many threads construct `ICUData` objects, and however their steps are interleaved: no construction fails; the
contents of the file are there for every thread whose construction has returned; the lookup of a name gives the offset of an item of
this name, or raises `KeyError`, which it does always if there is no such item. -/
theorem threads_safe (file : List Nat) (h : Nat) (items : List Item) (L : Layout file h items) (k : Nat) (schedule : List Nat) :
    let w := (Process.start k).run file schedule
    (∀ (t : Nat) e, w.threads[t]? ≠ some (Pc.failed e)) ∧
    (∀ (t : Nat) b, w.threads[t]? = some (Pc.returned b) → ∀ i j, w.state.getData i j = (file.take j).drop i) ∧
    (∀ name, w.state.getDataOffset name = .error .keyError ∨
      ∃ it ∈ items, it.name = name ∧ w.state.getDataOffset name = .ok (h + it.dataOffset)) := by
  intro w
  have I : Inv file h items w := inv_run L schedule (inv_start file h items (layout_ne L) k)
  refine ⟨fun t e ht => ?_, fun t b ht i j => ?_, fun name => ?_⟩
  · cases I.good _ (mem_threads ht)
  · have hf := (I.good _ (mem_threads ht)).file nofun nofun
    unfold State.getData
    rw [hf]
    unfold slice
    rw [List.drop_take]
  · rcases dictGet_cases w.state.dataOffsets name with ⟨v, hv⟩ | hk
    · obtain ⟨it, hit, hn, rfl⟩ := I.sound name v hv
      exact .inr ⟨it, hit, hn, by rw [Nat.add_comm]; exact hv⟩
    · exact .inl hk

/-- C125 when no construction is under way and one has returned: all lookups are exact, as after a single construction. -/
theorem threads_quiet_partial (file : List Nat) (h : Nat) (items : List Item) (L : Layout file h items) (k : Nat) (schedule : List Nat) :
    let w := (Process.start k).run file schedule
    (∀ pc ∈ w.threads, pc = Pc.check ∨ ∃ b, pc = Pc.returned b) → (∃ b, Pc.returned b ∈ w.threads) →
    (∀ (i : Nat) (it : Item), items[i]? = some it → (∀ (j : Nat) (it' : Item), i < j → items[j]? = some it' → it'.name ≠ it.name) →
      w.state.getDataOffset it.name = .ok (h + it.dataOffset)) ∧
    (∀ name, (∀ it ∈ items, it.name ≠ name) → w.state.getDataOffset name = .error .keyError) := by
  intro w hq ⟨b, hb⟩
  have I : Inv file h items w := inv_run L schedule (inv_start file h items (layout_ne L) k)
  refine ⟨fun i it hi hl => ?_, fun name hn => ?_⟩
  · rcases I.last ((I.good _ hb).file nofun nofun) i it ⟨hi, hl⟩ with h1 | ⟨pc, hpc, hp⟩
    · rw [Nat.add_comm]; exact h1
    · rcases hq pc hpc with rfl | ⟨b, rfl⟩ <;> exact hp.elim
  · rcases dictGet_cases w.state.dataOffsets name with ⟨v, hv⟩ | hk
    · obtain ⟨it, hit, hn', _⟩ := I.sound name v hv
      exact absurd hn' (hn it hit)
    · exact hk

/-- C125 for files with different names: from the moment on when one thread has gone through the table of contents and returned, all lookups
of all threads find their items, whatever the other threads are doing. -/
theorem threads_loaded_partial (file : List Nat) (h : Nat) (items : List Item) (L : Layout file h items)
    (hd : (items.map (·.name)).Nodup) (k : Nat) (schedule : List Nat) :
    let w := (Process.start k).run file schedule
    Pc.returned true ∈ w.threads → ∀ it ∈ items, w.state.getDataOffset it.name = .ok (h + it.dataOffset) := by
  intro w hr it hit
  have I : Inv file h items w := inv_run L schedule (inv_start file h items (layout_ne L) k)
  obtain ⟨i, hi, rfl⟩ := List.mem_iff_getElem.mp hit
  rw [Nat.add_comm]
  exact I.past hd _ hr i _ (List.getElem?_eq_getElem hi) rfl

/-- The number of steps that a thread has before it, at most. -/
def rank (count : Nat) : Pc → Nat
  | .check => 2 * count + 4
  | .read => 2 * count + 3
  | .header => 2 * count + 2
  | .entry _ n _ => 2 * n + 1
  | .store _ n _ _ _ => 2 * n + 2
  | .returned _ => 0
  | .failed _ => 0

theorem Trans.rank {file : List Nat} {h : Nat} {items : List Item} {s s' : State} {pc pc' : Pc} (t : Trans file h items s pc s' pc') :
    rank items.length pc' ≤ rank items.length pc - 1 := by
  cases t <;> simp only [Props.rank] <;> omega

theorem rank_run {file : List Nat} {h : Nat} {items : List Item} (L : Layout file h items) (t : Nat) :
    ∀ (schedule : List Nat) {w : Process} {pc : Pc}, Inv file h items w → w.threads[t]? = some pc →
      ∃ pc', (w.run file schedule).threads[t]? = some pc' ∧ rank items.length pc' ≤ rank items.length pc - schedule.count t
  | [], _, pc, _, ht => ⟨pc, ht, by simp⟩
  | u :: us, w, pc, I, ht => by
    have I' := inv_step L I u
    by_cases hu : u = t
    · subst hu
      have hlt := (List.getElem?_eq_some_iff.mp ht).1
      have T := step_trans L (I.good pc (mem_threads ht))
      have h2 : (w.step file u).threads[u]? = some (stepThread file w.state pc).2 := by
        unfold Process.step
        rw [ht]
        exact List.getElem?_set_self hlt
      obtain ⟨pc', h3, h4⟩ := rank_run L u us I' h2
      refine ⟨pc', h3, ?_⟩
      have := T.rank
      rw [List.count_cons_self]
      omega
    · have h2 : (w.step file u).threads[t]? = some pc := by
        unfold Process.step
        cases hx : w.threads[u]? with
        | none => exact ht
        | some x => exact (List.getElem?_set_ne hu).trans ht
      obtain ⟨pc', h3, h4⟩ := rank_run L t us I' h2
      refine ⟨pc', h3, ?_⟩
      rw [List.count_cons_of_ne hu]
      exact h4

/-- C125. A thread that gets as many steps as the file has items, twice, and four more, has returned from its construction, whatever the
others do. -/
theorem threads_return (file : List Nat) (h : Nat) (items : List Item) (L : Layout file h items) (k : Nat) (schedule : List Nat) (t : Nat)
    (ht : t < k) (hs : 2 * items.length + 4 ≤ schedule.count t) :
    ∃ b, ((Process.start k).run file schedule).threads[t]? = some (.returned b) := by
  have I := inv_start file h items (layout_ne L) k
  have h0 : (Process.start k).threads[t]? = some .check := by
    simp [Process.start, ht]
  obtain ⟨pc', h1, h2⟩ := rank_run L t schedule I h0
  have hr : rank items.length pc' = 0 := by
    have : rank items.length .check = 2 * items.length + 4 := rfl
    omega
  have I' : Inv file h items _ := inv_run L schedule I
  have g := I'.good pc' (mem_threads h1)
  cases g with
  | returned b _ => exact ⟨b, h1⟩
  | _ => simp only [rank] at hr; omega

/-- C125 is false: with any file whatever, the construction of a second thread can return while the first has read the file
and not yet looked at the table of contents; then every lookup of the second thread raises `KeyError`. -/
theorem threads_refuted (file : List Nat) (h : Nat) (items : List Item) (L : Layout file h items) :
    let w := (Process.start 2).run file [0, 0, 1]
    w.threads[1]? = some (.returned false) ∧ ∀ it ∈ items, w.state.getDataOffset it.name = .error .keyError := by
  have hne := layout_ne L
  have : (Process.start 2).run file [0, 0, 1] = ⟨⟨file, []⟩, [.header, .returned false]⟩ := by
    show Process.step file ⟨⟨file, []⟩, [.header, .check]⟩ 1 = _
    unfold Process.step
    dsimp only [stepThread, List.getElem?_cons_succ, List.getElem?_cons_zero]
    rw [if_pos hne]
    rfl
  intro w
  rw [show w = _ from this]
  exact ⟨rfl, fun _ _ => rfl⟩

theorem run_append (file : List Nat) (w : Process) (a b : List Nat) : w.run file (a ++ b) = (w.run file a).run file b := by
  unfold Process.run
  rw [List.foldl_append]

/-- What a thread has returned. -/
def outcome : Py Unit → Bool → Pc
  | .ok (), b => .returned b
  | .error e, _ => .failed e

theorem alone_loop (file : List Nat) (h : Nat) : ∀ (n p : Nat) (s : State), ∃ m,
    Process.run file ⟨s, [.entry h n p]⟩ (List.replicate m 0) = ⟨(tocLoop h n p s).1, [outcome (tocLoop h n p s).2 true]⟩
  | 0, p, s => ⟨1, rfl⟩
  | n + 1, p, s => by
    cases hu : unpack 4 2 (slice s.fileData p (p + tocEntryLength)) with
    | error e =>
      refine ⟨1, ?_⟩
      show Process.step file ⟨s, [.entry h (n + 1) p]⟩ 0 = _
      unfold Process.step tocLoop
      dsimp only [stepThread, List.getElem?_cons_zero]
      rw [hu]
      rfl
    | ok te =>
      cases hn : s.getName (te.getD 0 0 + h) with
      | error e =>
        refine ⟨1, ?_⟩
        show Process.step file ⟨s, [.entry h (n + 1) p]⟩ 0 = _
        unfold Process.step tocLoop
        dsimp only [stepThread, List.getElem?_cons_zero]
        rw [hu]
        dsimp only
        rw [hn]
        rfl
      | ok name =>
        obtain ⟨m, hm⟩ := alone_loop file h n (p + tocEntryLength) { s with dataOffsets := dictSet s.dataOffsets name (te.getD 1 0 + h) }
        refine ⟨m + 2, ?_⟩
        show Process.run file (Process.step file (Process.step file ⟨s, [.entry h (n + 1) p]⟩ 0) 0) (List.replicate m 0) = _
        have e1 : Process.step file ⟨s, [.entry h (n + 1) p]⟩ 0 =
            ⟨s, [.store h n (p + tocEntryLength) name (te.getD 1 0 + h)]⟩ := by
          unfold Process.step
          dsimp only [stepThread, List.getElem?_cons_zero]
          rw [hu]
          dsimp only
          rw [hn]
          rfl
        rw [e1]
        refine Eq.trans hm ?_
        conv => rhs; unfold tocLoop
        rw [hu]
        dsimp only
        rw [hn]

/-- A single thread does what the construction does (C54, C55), with any file and in any state. -/
theorem thread_alone (file : List Nat) (s : State) : ∃ n b,
    Process.run file ⟨s, [.check]⟩ (List.replicate n 0) = ⟨(construct file s).1, [outcome (construct file s).2 b]⟩ := by
  unfold construct populateData
  by_cases h0 : s.fileData ≠ []
  · refine ⟨1, false, ?_⟩
    show Process.step file ⟨s, [.check]⟩ 0 = _
    unfold Process.step
    dsimp only [stepThread, List.getElem?_cons_zero]
    rw [if_pos h0, if_pos h0]
    rfl
  · rw [if_neg h0]
    have e1 : Process.run file ⟨s, [.check]⟩ [0, 0] = ⟨{ s with fileData := file }, [.header]⟩ := by
      show Process.step file (Process.step file ⟨s, [.check]⟩ 0) 0 = _
      have : Process.step file ⟨s, [.check]⟩ 0 = ⟨s, [.read]⟩ := by
        unfold Process.step
        dsimp only [stepThread, List.getElem?_cons_zero]
        rw [if_neg h0]
        rfl
      rw [this]
      rfl
    dsimp only
    generalize hs : ({ s with fileData := file } : State) = s1 at e1 ⊢
    have hf : s1.fileData = file := by rw [← hs]
    have glue : ∀ {n : Nat} {w : Process}, Process.run file ⟨s1, [.header]⟩ (List.replicate n 0) = w →
        Process.run file ⟨s, [.check]⟩ (List.replicate (2 + n) 0) = w := by
      intro n w hw
      rw [← List.replicate_append_replicate, run_append]
      exact (congrArg (fun x => Process.run file x (List.replicate n 0)) e1).trans hw
    cases hu : unpackHeader (slice file 0 dataHeaderLength) with
    | error e =>
      refine ⟨2 + 1, true, glue ?_⟩
      show Process.step file ⟨s1, [.header]⟩ 0 = _
      unfold Process.step
      dsimp only [stepThread, List.getElem?_cons_zero]
      rw [hf, hu]
      rfl
    | ok header =>
      dsimp only
      cases hc : unpack 4 1 (slice file header.headerLength (header.headerLength + 4)) with
      | error e =>
        refine ⟨2 + 1, true, glue ?_⟩
        show Process.step file ⟨s1, [.header]⟩ 0 = _
        unfold Process.step
        dsimp only [stepThread, List.getElem?_cons_zero]
        rw [hf, hu]
        dsimp only
        rw [hc]
        rfl
      | ok c =>
        obtain ⟨m, hm⟩ := alone_loop file header.headerLength (c.getD 0 0) (header.headerLength + 4) s1
        refine ⟨2 + (1 + m), true, glue ?_⟩
        rw [← List.replicate_append_replicate, run_append]
        have : Process.run file ⟨s1, [.header]⟩ (List.replicate 1 0) =
            ⟨s1, [.entry header.headerLength (c.getD 0 0) (header.headerLength + 4)]⟩ := by
          show Process.step file ⟨s1, [.header]⟩ 0 = _
          unfold Process.step
          dsimp only [stepThread, List.getElem?_cons_zero]
          rw [hf, hu]
          dsimp only
          rw [hc]
          rfl
        rw [this]
        exact hm

/-- Two threads that both load the file, in turns, and a third that comes later. -/
example : let w := (Process.start 3).run demoFile ([0, 1] ++ (List.replicate 8 [0, 1]).flatten ++ [2])
    w.threads = [.returned true, .returned true, .returned false] ∧ w.state.getDataOffset [98, 99] = .ok 55 := by
  decide +kernel

example : Layout demoFile 24 demoItems ∧ (demoItems.map (·.name)).Nodup ∧
    ((Process.start 2).run demoFile [0, 0, 1]).state.getDataOffset [97] = .error .keyError := ⟨demo_layout, by decide, by decide +kernel⟩

end Verif.ICUData.Props

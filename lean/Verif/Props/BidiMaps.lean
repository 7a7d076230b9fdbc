import Verif.Lemmas.MapScan
import Verif.Spec.BidiMaps
import Verif.Props.Bidi
/-! # Every bidi class, joining type and joining group of the shipped data is that of the standard (C108, C109) -/
namespace Verif.Bidi.Props
open Verif Verif.Spec Verif.Data Verif.Bidi Verif.Char
set_option maxRecDepth 100000

theorem classMap_scan : bidiMap (fun v => Nat.land v 0x1f) 5 0 classRuns = true := by decide +kernel
theorem joiningMap_scan : bidiMap (fun v => Nat.shiftRight (Nat.land v 0xe0) 5) 3 0 joiningRuns = true := by decide +kernel
theorem joiningMap_last : (bidiPropsTrie.getv 0x10FFFF &&& 0xe0) >>> 5 = valueIn 0 joiningRuns 0x10FFFF := by decide +kernel

theorem classMap_names : (classLegend.map fun e => bidiClassNames.lookup e.1) = classLegend.map fun e => some e.2 := by rfl
theorem joiningMap_names : (joiningLegend.map fun e => joiningTypeNames.lookup e.1) = joiningLegend.map fun e => some e.2 := by rfl
theorem groupMap_names : (groupLegend.map fun e => joiningGroupNames.lookup e.1) = groupLegend.map fun e => some e.2 := by rfl

/-- C108 without the last code point: for every other one, `getCharDirection` returns the number of its bidi class in Unicode 13.0,
also for the ranges the standard sets aside for right-to-left scripts; the numbers are those of the library's table of names. -/
theorem class_map_partial : (∀ c < 0x10FFFF, getCharDirection c = .ok (valueIn 0 classRuns c)) ∧
    ∀ e ∈ classLegend, bidiClassNames.lookup e.1 = some e.2 := by
  refine ⟨fun c hc => ?_, fun _ he => List.map_inj_left.mp classMap_names _ he⟩
  unfold getCharDirection
  rw [get_eq]
  exact congrArg Except.ok (bidiMap_spec (by decide) (by decide) (by decide)
    (fun v => Nat.lt_of_le_of_lt Nat.and_le_right (by decide)) classMap_scan hc)

/-- C108 does not hold for U+10FFFF, a noncharacter, whose class is BN. -/
theorem class_map_refuted : getCharDirection 0x10FFFF = .ok 0 ∧ valueIn 0 classRuns 0x10FFFF = 18 ∧ (18, "BN") ∈ classLegend ∧
    getCharDirection 0x10FFFE = .ok 18 := by decide +kernel

/-- The joining group of `c` in the two arrays. -/
noncomputable def groupOf (c : Nat) : Nat :=
  cond (Nat.blt c 0x620) 0 (cond (Nat.blt c 0x8c8) (bidiJg1.entry (Nat.sub c 0x620))
    (cond (Nat.blt c 0x10ac0) 0 (cond (Nat.blt c 0x10d24) (bidiJg2.entry (Nat.sub c 0x10ac0)) 0)))

theorem group_get (c : Nat) : getJoiningGroup c = .ok (groupOf c) := by
  rw [joiningGroup_eq]
  unfold groupOf
  simp only [cond_blt, Nat.sub_eq]
  by_cases h1 : 0x620 ≤ c ∧ c < 0x8c8
  · rw [if_pos h1, Arr.get_ok (a := bidiJg1.arr) (show c - 0x620 < 680 by omega), if_neg (by omega), if_pos h1.2]
    rfl
  · rw [if_neg h1]
    by_cases h2 : 0x10ac0 ≤ c ∧ c < 0x10d24
    · rw [if_pos h2, Arr.get_ok (a := bidiJg2.arr) (show c - 0x10ac0 < 612 by omega), if_neg (by omega), if_neg (by omega),
        if_neg (by omega), if_pos h2.2]
      generalize c - 0x10ac0 = i
      rfl
    · rw [if_neg h2]
      by_cases h3 : c < 0x620
      · rw [if_pos h3]
      · rw [if_neg h3, if_neg (by omega)]
        by_cases h4 : c < 0x10ac0
        · rw [if_pos h4]
        · rw [if_neg h4, if_neg (by omega)]

/-- The groups of `n` code points from `c` on are `v`. -/
noncomputable def groupsAre (v c n : Nat) : Bool :=
  Nat.rec true (fun n ih => and (force (Nat.add c n) fun x => Nat.beq (groupOf x) v) ih) n

theorem groupsAre_spec {v c : Nat} : ∀ {n : Nat}, groupsAre v c n = true → ∀ x, c ≤ x → x < c + n → groupOf x = v := by
  intro n
  induction n with
  | zero => intro _ x h1 h2; omega
  | succ n ih =>
    intro h x h1 h2
    have h : and (force (c + n) fun x => Nat.beq (groupOf x) v) (groupsAre v c n) = true := h
    rw [Bool.and_eq_true, force_eq] at h
    by_cases hn : x = c + n
    · subst hn; exact Nat.eq_of_beq_eq_true h.1
    · exact ih h.2 x h1 (by omega)

/-- The code points from `next` to before `limit` have no group; nothing is to be compared between the arrays and outside of them. -/
noncomputable def noGroups (next limit : Nat) : Bool :=
  or (Nat.ble limit 0x620) (or (and (Nat.ble 0x8c8 next) (Nat.ble limit 0x10ac0)) (or (Nat.ble 0x10d24 next)
    (groupsAre 0 next (Nat.sub limit next))))

theorem noGroups_spec {next limit : Nat} (h : noGroups next limit = true) {c : Nat} (h1 : next ≤ c) (h2 : c < limit) : groupOf c = 0 := by
  unfold noGroups at h
  simp only [Bool.or_eq_true, Bool.and_eq_true, Nat.ble_eq] at h
  rcases h with h | h | h | h
  · unfold groupOf; simp only [cond_blt]; rw [if_pos (by omega)]
  · unfold groupOf; simp only [cond_blt]; rw [if_neg (by omega), if_neg (by omega), if_pos (by omega)]
  · unfold groupOf; simp only [cond_blt]; rw [if_neg (by omega), if_neg (by omega), if_neg (by omega), if_neg (by omega)]
  · exact groupsAre_spec (n := limit - next) h c h1 (by omega)

/-- The groups from `next` on are those of the runs. -/
noncomputable def groupRunsAre (runs : List (Nat × Nat × Nat)) : Nat → Bool :=
  List.rec (fun next => Nat.ble 0x10d24 next) (fun r _ ih next => and (Nat.ble next r.1) (and (noGroups next r.1)
    (and (groupsAre r.2.2 r.1 (Nat.sub (Nat.add r.2.1 1) r.1)) (and (Nat.ble r.1 r.2.1) (force (Nat.add r.2.1 1) ih))))) runs

theorem groupRunsAre_spec : ∀ (runs : List (Nat × Nat × Nat)) (next : Nat), groupRunsAre runs next = true →
    (∀ c, next ≤ c → groupOf c = valueIn 0 runs c) ∧ ∀ r ∈ runs, next ≤ r.1
  | [], next, h => by
    have h : Nat.ble 0x10d24 next = true := h
    rw [Nat.ble_eq] at h
    refine ⟨fun c h1 => ?_, by simp⟩
    unfold groupOf; simp only [cond_blt]; rw [if_neg (by omega), if_neg (by omega), if_neg (by omega), if_neg (by omega)]; rfl
  | r :: runs, next, h => by
    have h : and (Nat.ble next r.1) (and (noGroups next r.1)
      (and (groupsAre r.2.2 r.1 (r.2.1 + 1 - r.1)) (and (Nat.ble r.1 r.2.1) (force (r.2.1 + 1) (groupRunsAre runs))))) = true := h
    simp only [Bool.and_eq_true, Nat.ble_eq, force_eq] at h
    obtain ⟨a1, a2, a3, a5, a4⟩ := h
    obtain ⟨ih, ih'⟩ := groupRunsAre_spec runs _ a4
    refine ⟨fun c h1 => ?_, fun q hq => ?_⟩
    · unfold valueIn
      rw [List.find?_cons]
      by_cases hin : r.1 ≤ c ∧ c ≤ r.2.1
      · simp only [hin, and_self, decide_true]
        exact groupsAre_spec a3 c hin.1 (by omega)
      · simp only [hin, decide_false]
        by_cases hlt : c < r.1
        · have hnone : runs.find? (fun q => decide (q.1 ≤ c ∧ c ≤ q.2.1)) = none := by
            rw [List.find?_eq_none]
            intro q hq hqc
            have := ih' q hq
            simp only [decide_eq_true_eq] at hqc
            omega
          rw [hnone]
          exact noGroups_spec a2 h1 hlt
        · exact ih c (by omega)
    · rcases List.mem_cons.mp hq with rfl | hq
      · exact a1
      · have := ih' q hq
        omega

theorem groupMap_scan : groupRunsAre groupRuns 0 = true := by decide +kernel

theorem group_value (c : Nat) : getJoiningGroup c = .ok (valueIn 0 groupRuns c) := by
  rw [group_get, (groupRunsAre_spec groupRuns 0 groupMap_scan).1 c (Nat.zero_le c)]

/-- C109. For every code point, `getJoiningType` and `getJoiningGroup` return the numbers of its joining type and joining group in
Unicode 13.0, and the numbers are those of the library's tables of names. -/
theorem joining_maps : MapIs getJoiningType joiningTypeNames 0 joiningRuns joiningLegend ∧
    MapIs getJoiningGroup joiningGroupNames 0 groupRuns groupLegend := by
  refine ⟨⟨fun c hc => ?_, fun _ he => List.map_inj_left.mp joiningMap_names _ he⟩,
    fun c _ => group_value c, fun _ he => List.map_inj_left.mp groupMap_names _ he⟩
  unfold getJoiningType
  rw [get_eq]
  show Except.ok ((bidiPropsTrie.getv c &&& 0xe0) >>> 5) = _
  by_cases hl : c = 0x10FFFF
  · subst hl; rw [joiningMap_last]
  · exact congrArg Except.ok (bidiMap_spec (f := fun v => Nat.shiftRight (Nat.land v 0xe0) 5) (by decide) (by decide) (by decide)
      (fun v => maskShift_lt (by decide)) joiningMap_scan (by omega))

/-- The letter beh and an unassigned code point of the Hebrew block. -/
example : getJoiningType 0x628 = .ok 2 ∧ (2, "D") ∈ joiningLegend ∧ getJoiningGroup 0x628 = .ok 4 ∧ (4, "Beh") ∈ groupLegend ∧
    getCharDirection 0x5CF = .ok 1 ∧ (1, "R") ∈ classLegend := by decide +kernel

end Verif.Bidi.Props

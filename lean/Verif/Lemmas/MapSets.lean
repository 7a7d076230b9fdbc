import Verif.Lemmas.BigTable
import Verif.Spec.Runs
import Verif.Spec.Ranges
/-! # The sets of code points with a given value, from a list of ranges with values -/
namespace Verif
open Verif.Spec
set_option maxRecDepth 10000

/-- The ranges are in ascending order from `next` on. -/
noncomputable def ascending (runs : List (Nat × Nat × Nat)) : Nat → Bool :=
  List.rec (fun _ => true) (fun r _ ih next => and (Nat.ble next r.1) (and (Nat.ble r.1 r.2.1) (force (Nat.add r.2.1 1) ih))) runs

/-- The ranges with the value `v` are those of `R`. -/
noncomputable def valueRanges (v : Nat) (runs : List (Nat × Nat × Nat)) : List (Nat × Nat) → Bool :=
  List.rec (fun R => List.rec true (fun _ _ _ => false) R) (fun r _ ih R =>
    cond (Nat.beq r.2.2 v) (List.rec false (fun q R _ => and (Nat.beq r.1 q.1) (and (Nat.beq r.2.1 q.2) (ih R))) R) (ih R)) runs

theorem ascending_spec : ∀ {runs : List (Nat × Nat × Nat)} {next : Nat}, ascending runs next = true → ∀ r ∈ runs, next ≤ r.1 ∧ r.1 ≤ r.2.1
  | [], _, _, _, hr => absurd hr (by simp)
  | q :: runs, next, h, r, hr => by
    have h : and (Nat.ble next q.1) (and (Nat.ble q.1 q.2.1) (force (q.2.1 + 1) (ascending runs))) = true := h
    rw [Bool.and_eq_true, Bool.and_eq_true, Nat.ble_eq, Nat.ble_eq, force_eq] at h
    rcases List.mem_cons.mp hr with rfl | hr
    · exact ⟨h.1, h.2.1⟩
    · have := ascending_spec h.2.2 r hr
      omega

theorem valueRanges_spec {v d c : Nat} (hd : d ≠ v) : ∀ {runs : List (Nat × Nat × Nat)} {next : Nat} {R : List (Nat × Nat)},
    ascending runs next = true → valueRanges v runs R = true → (valueIn d runs c = v ↔ InRanges R c)
  | [], _, [], _, _ => by
    unfold valueIn InRanges
    simp [hd]
  | [], _, q :: R, _, h => by cases h
  | r :: runs, next, R, ha, h => by
    have ha : and (Nat.ble next r.1) (and (Nat.ble r.1 r.2.1) (force (r.2.1 + 1) (ascending runs))) = true := ha
    rw [Bool.and_eq_true, Bool.and_eq_true, Nat.ble_eq, Nat.ble_eq, force_eq] at ha
    obtain ⟨_, _, ha⟩ := ha
    have step : r.1 ≤ c → c ≤ r.2.1 → valueIn d (r :: runs) c = r.2.2 ∧ valueIn d runs c = d := fun h1 h2 => by
      unfold valueIn
      have : runs.find? (fun q => decide (q.1 ≤ c ∧ c ≤ q.2.1)) = none := by
        rw [List.find?_eq_none]
        intro q hq hqc
        have := ascending_spec ha q hq
        simp only [decide_eq_true_eq] at hqc
        omega
      rw [this, List.find?_cons]
      simp [h1, h2]
    have skip : ¬ (r.1 ≤ c ∧ c ≤ r.2.1) → valueIn d (r :: runs) c = valueIn d runs c := fun h => by
      unfold valueIn
      rw [List.find?_cons]
      simp only [h, decide_false]
    by_cases hv : r.2.2 = v
    · cases R with
      | nil =>
        have h : cond (Nat.beq r.2.2 v) false (valueRanges v runs []) = true := h
        rw [show Nat.beq r.2.2 v = true from Nat.beq_eq.mpr hv] at h
        cases h
      | cons q R =>
        have h : cond (Nat.beq r.2.2 v) (and (Nat.beq r.1 q.1) (and (Nat.beq r.2.1 q.2) (valueRanges v runs R)))
          (valueRanges v runs (q :: R)) = true := h
        rw [show Nat.beq r.2.2 v = true from Nat.beq_eq.mpr hv] at h
        have h : and (Nat.beq r.1 q.1) (and (Nat.beq r.2.1 q.2) (valueRanges v runs R)) = true := h
        rw [Bool.and_eq_true, Bool.and_eq_true, Nat.beq_eq, Nat.beq_eq] at h
        obtain ⟨e1, e2, h⟩ := h
        have ih := valueRanges_spec (c := c) hd ha h
        have split : InRanges (q :: R) c ↔ (q.1 ≤ c ∧ c ≤ q.2) ∨ InRanges R c := by unfold InRanges; simp
        rw [split, ← ih, ← e1, ← e2]
        by_cases hin : r.1 ≤ c ∧ c ≤ r.2.1
        · rw [(step hin.1 hin.2).1]
          exact ⟨fun _ => Or.inl hin, fun _ => hv⟩
        · rw [skip hin]
          exact ⟨Or.inr, fun h => h.resolve_left hin⟩
    · have e : Nat.beq r.2.2 v = false := Bool.eq_false_iff.2 fun h => hv (Nat.eq_of_beq_eq_true h)
      have h : cond (Nat.beq r.2.2 v) _ (valueRanges v runs R) = true := h
      rw [e] at h
      have ih := valueRanges_spec (c := c) hd ha h
      rw [← ih]
      by_cases hin : r.1 ≤ c ∧ c ≤ r.2.1
      · rw [(step hin.1 hin.2).1, (step hin.1 hin.2).2]
        exact ⟨fun h => absurd h hv, fun h => absurd h hd⟩
      · rw [skip hin]

/-- The sets are those of the values `numbers`, none of which is the default. -/
noncomputable def setsAre (d : Nat) (runs : List (Nat × Nat × Nat)) (numbers : List Nat) : List (String × List (Nat × Nat)) → Bool :=
  List.rec (fun sets => List.rec true (fun _ _ _ => false) sets) (fun v _ ih sets =>
    List.rec false (fun s sets _ => and (not (Nat.beq d v)) (and (valueRanges v runs s.2) (ih sets))) sets) numbers

theorem setsAre_spec {d : Nat} {runs : List (Nat × Nat × Nat)} : ∀ {numbers : List Nat} {sets : List (String × List (Nat × Nat))},
    setsAre d runs numbers sets = true → ∀ (i : Nat) (s : String × List (Nat × Nat)), sets[i]? = some s →
    ∃ v, numbers[i]? = some v ∧ d ≠ v ∧ valueRanges v runs s.2 = true
  | [], [], _, _, _, hs => by simp at hs
  | [], _ :: _, h, _, _, _ => by cases h
  | _ :: _, [], h, _, _, _ => by cases h
  | v :: numbers, q :: sets, h, i, s, hs => by
    have h : and (not (Nat.beq d v)) (and (valueRanges v runs q.2) (setsAre d runs numbers sets)) = true := h
    rw [Bool.and_eq_true, Bool.and_eq_true, Bool.not_eq_true'] at h
    cases i with
    | zero =>
      have : q = s := by simpa using hs
      subst this
      exact ⟨v, rfl, fun e => (by rw [e, Nat.beq_refl] at h; exact absurd h.1 (by decide)), h.2.1⟩
    | succ i =>
      obtain ⟨w, hw⟩ := setsAre_spec h.2.2 i s (by simpa using hs)
      exact ⟨w, by simpa using hw⟩

/-- The sets by the values, with the names of the values. -/
theorem sets_named {d : Nat} {runs : List (Nat × Nat × Nat)} {numbers : List Nat} {sets : List (String × List (Nat × Nat))}
    {names : List (Nat × String)} (ha : ascending runs 0 = true)
    (hn : (numbers.map fun v => names.lookup v) = sets.map fun s => some s.1) (hs : setsAre d runs numbers sets = true) :
    ∀ s ∈ sets, ∃ v, names.lookup v = some s.1 ∧ d ≠ v ∧ ∀ c, valueIn d runs c = v ↔ InRanges s.2 c := by
  intro s hm
  obtain ⟨i, hi⟩ := List.getElem?_of_mem hm
  obtain ⟨v, hv, hd, hr⟩ := setsAre_spec hs i s hi
  refine ⟨v, ?_, hd, fun c => valueRanges_spec hd ha hr⟩
  have := congrArg (fun l => l[i]?) hn
  simp only [List.getElem?_map, hi, hv, Option.map_some] at this
  exact Option.some.inj this

end Verif

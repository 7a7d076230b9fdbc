import Verif.Spec.CaseTexts
import Verif.Props.Case
import Verif.Props.CaseMaps
/-! # C127: texts in upper and lower case -/
namespace Verif.Case.Props
open Verif.Data Verif.Spec

theorem mapText_append (f : Nat → Py (List Nat)) : ∀ {s t x y : List Nat}, mapText f s = .ok x → mapText f t = .ok y → mapText f (s ++ t) = .ok (x ++ y)
  | [], t, x, y, h1, h2 => by cases h1; exact h2
  | c :: s, t, x, y, h1, h2 => by
    rw [mapText] at h1
    cases hc : f c with
    | error e => rw [hc] at h1; cases h1
    | ok u =>
      rw [hc] at h1
      cases hs : mapText f s with
      | error e => rw [hs] at h1; cases h1
      | ok v =>
        rw [hs] at h1
        cases h1
        rw [List.cons_append, mapText, hc, mapText_append f hs h2]
        simp [bind, Except.bind]

/-- If `g` does the same behind `f` as `h` for every code point, it does so for texts. -/
theorem mapText_comp {f g h : Nat → Py (List Nat)} (key : ∀ c ≤ 0x10FFFF, ∃ x y, f c = .ok x ∧ mapText g x = .ok y ∧ h c = .ok y) :
    ∀ {s : List Nat}, IsText s → ∃ x y, mapText f s = .ok x ∧ mapText g x = .ok y ∧ mapText h s = .ok y
  | [], _ => ⟨[], [], rfl, rfl, rfl⟩
  | c :: s, hs => by
    obtain ⟨x, y, h1, h2, h3⟩ := key c (hs c List.mem_cons_self)
    obtain ⟨x', y', h1', h2', h3'⟩ := mapText_comp key (fun d hd => hs d (List.mem_cons_of_mem _ hd))
    exact ⟨x ++ x', y ++ y', by rw [mapText, h1, h1']; rfl, mapText_append g h2 h2', by rw [mapText, h3, h3']; rfl⟩

/-! ## The tables -/

/-- The full mapping of a list of code points. -/
def fulls (special : List (Nat × List Nat)) (runs : List (List CaseRun)) (s : List Nat) : List Nat := s.flatMap (fullBy special runs)

/-- For every entry of `source`, the mapping `special` and `runs` of its image is that of the code point. -/
def entriesFit (source special : List (Nat × List Nat)) (runs : List (List CaseRun)) : Bool :=
  source.all fun p => fulls special runs p.2 == fullBy special runs p.1

/-- The code points of `special` that are images under the runs `source` come from code points of `special`. -/
def runsFit (source : List (List CaseRun)) (special : List (Nat × List Nat)) : Bool :=
  source.all fun rs => rs.all fun r => special.all fun p =>
    !(Nat.ble r.target p.1 && Nat.ble (p.1 - r.target + r.first) r.last && Nat.beq ((p.1 - r.target) % r.step) 0) ||
      (special.lookup (p.1 - r.target + r.first)).isSome

/-- The code points of `special` that have no entry in `first` have the same mapping as their images under `source`. -/
def keysFit (source : List (List CaseRun)) (first special : List (Nat × List Nat)) (runs : List (List CaseRun)) : Bool :=
  special.all fun p => (first.lookup p.1).isSome || fullBy special runs (mapBy source p.1) == p.2

theorem upper_entries : entriesFit specialUpper specialUpper simpleUpper = true := by decide +kernel
theorem upper_runs : runsFit simpleUpper specialUpper = true := by decide +kernel
theorem lower_entries : entriesFit specialLower specialLower simpleLower = true := by decide +kernel
theorem lower_runs : runsFit simpleLower specialLower = true := by decide +kernel
theorem title_entries : entriesFit specialTitle specialUpper simpleUpper = true := by decide +kernel
theorem title_runs : runsFit simpleTitle specialUpper = true := by decide +kernel
theorem title_keys : keysFit simpleTitle specialTitle specialUpper simpleUpper = true := by decide +kernel

theorem lookup_mem {l : List (Nat × List Nat)} {c : Nat} {s : List Nat} (h : l.lookup c = some s) : (c, s) ∈ l := by
  induction l with
  | nil => cases h
  | cons p l ih =>
    obtain ⟨k, v⟩ := p
    rw [List.lookup_cons] at h
    by_cases e : c == k
    · rw [e] at h
      cases h
      rw [eq_of_beq e]
      exact List.mem_cons_self
    · rw [Bool.eq_false_iff.2 e] at h
      exact List.mem_cons_of_mem _ (ih h)

theorem fulls_step {s1 s2 : List (Nat × List Nat)} {r1 r2 : List (List CaseRun)} (he : entriesFit s1 s2 r2 = true) (hr : runsFit r1 s2 = true)
    (hk : keysFit r1 s1 s2 r2 = true) {c : Nat} (hm : mapBy r2 (mapBy r1 c) = mapBy r2 c) :
    fulls s2 r2 (fullBy s1 r1 c) = fullBy s2 r2 c := by
  cases h1 : s1.lookup c with
  | some s =>
    have := List.all_eq_true.1 he _ (lookup_mem h1)
    rw [fullBy, h1]
    exact eq_of_beq this
  | none =>
    have e1 : fullBy s1 r1 c = [mapBy r1 c] := by rw [fullBy, h1]
    rw [e1, fulls, List.flatMap_singleton]
    cases h2 : s2.lookup c with
    | some s =>
      have := List.all_eq_true.1 hk _ (lookup_mem h2)
      rw [h1] at this
      have := eq_of_beq (a := fullBy s2 r2 (mapBy r1 c)) (b := s) (by simpa using this)
      rw [this, fullBy, h2]
    | none =>
      have h3 : s2.lookup (mapBy r1 c) = none := by
        unfold mapBy
        split
        · next r hf =>
          have hmem := List.mem_of_find?_eq_some hf
          have hhas := List.find?_some hf
          unfold CaseRun.has at hhas
          obtain ⟨g1, g2, g3⟩ := of_decide_eq_true hhas
          obtain ⟨rs, hrs, hrm⟩ := List.mem_flatten.1 hmem
          cases h4 : s2.lookup (r.target + (c - r.first)) with
          | none => rfl
          | some s =>
            have := List.all_eq_true.1 (List.all_eq_true.1 (List.all_eq_true.1 hr _ hrs) _ hrm) _ (lookup_mem h4)
            dsimp only at this
            rw [show r.target + (c - r.first) - r.target + r.first = c by omega, h2,
              show r.target + (c - r.first) - r.target = c - r.first by omega, g3, Nat.ble_eq_true_of_le (by omega),
              Nat.ble_eq_true_of_le g2] at this
            cases this
        · exact h2
      rw [fullBy, h3, fullBy, h2, hm]

theorem mapText_fulls {f : Nat → Py (List Nat)} {special : List (Nat × List Nat)} {runs : List (List CaseRun)}
    (hf : ∀ c ≤ 0x10FFFF, f c = .ok (fullBy special runs c)) : ∀ {s : List Nat}, IsText s → mapText f s = .ok (fulls special runs s)
  | [], _ => rfl
  | c :: s, hs => by
    rw [mapText, hf c (hs c List.mem_cons_self), mapText_fulls hf (fun d hd => hs d (List.mem_cons_of_mem _ hd))]
    rfl

theorem full_code (c : Nat) (hc : c ≤ 0x10FFFF) :
    IsText (fullBy specialLower simpleLower c) ∧ IsText (fullBy specialUpper simpleUpper c) ∧ IsText (fullBy specialTitle simpleTitle c) := by
  obtain ⟨h1, h2, h3⟩ := full_maps c hc
  obtain ⟨⟨_, x1, _, e1, _, _, i1, _⟩, ⟨_, x2, _, e2, _, _, i2, _⟩, ⟨_, x3, _, e3, _, _, i3, _⟩⟩ := full_total c hc
  rw [h1] at e1
  rw [h2] at e2
  rw [h3] at e3
  cases e1
  cases e2
  cases e3
  exact ⟨fun d hd => (i1 d hd).1, fun d hd => (i2 d hd).1, fun d hd => (i3 d hd).1⟩

theorem natCast_ok {a b : Nat} (h : (Except.ok (a : Int) : Py Int) = .ok (b : Int)) : a = b := by
  have := Except.ok.inj h
  omega

theorem mapBy_upper (c : Nat) : mapBy simpleUpper (mapBy simpleUpper c) = mapBy simpleUpper c := by
  have h := (simple_idempotent c (mapBy simpleUpper c)).2.1 (simple_maps c).2.1
  rw [(simple_maps _).2.1] at h
  exact natCast_ok h

theorem mapBy_lower (c : Nat) : mapBy simpleLower (mapBy simpleLower c) = mapBy simpleLower c := by
  have h := (simple_idempotent c (mapBy simpleLower c)).1 (simple_maps c).1
  rw [(simple_maps _).1] at h
  exact natCast_ok h

theorem mapBy_title (c : Nat) : mapBy simpleUpper (mapBy simpleTitle c) = mapBy simpleUpper c := by
  have h := (upper_title c _ _ (simple_maps c).2.2 (simple_maps c).2.1).1
  rw [(simple_maps _).2.1] at h
  exact natCast_ok h

/-! ## Texts -/

/-- C127. Putting a text into upper case a second time changes nothing. -/
theorem upper_text {s : List Nat} (hs : IsText s) : ∃ u, mapText toFullUpper s = .ok u ∧ mapText toFullUpper u = .ok u := by
  obtain ⟨x, y, h1, h2, h3⟩ := mapText_comp (f := toFullUpper) (g := toFullUpper) (h := toFullUpper) (fun c hc =>
    ⟨_, _, (full_maps c hc).2.1, mapText_fulls (fun d hd => (full_maps d hd).2.1) (full_code c hc).2.1, by
      rw [fulls_step upper_entries upper_runs (by decide +kernel) (mapBy_upper c)]
      exact (full_maps c hc).2.1⟩) hs
  rw [h1] at h3
  cases h3
  exact ⟨_, h1, h2⟩

/-- C127. Putting a text into lower case a second time changes nothing. -/
theorem lower_text {s : List Nat} (hs : IsText s) : ∃ l, mapText toFullLower s = .ok l ∧ mapText toFullLower l = .ok l := by
  obtain ⟨x, y, h1, h2, h3⟩ := mapText_comp (f := toFullLower) (g := toFullLower) (h := toFullLower) (fun c hc =>
    ⟨_, _, (full_maps c hc).1, mapText_fulls (fun d hd => (full_maps d hd).1) (full_code c hc).1, by
      rw [fulls_step lower_entries lower_runs (by decide +kernel) (mapBy_lower c)]
      exact (full_maps c hc).1⟩) hs
  rw [h1] at h3
  cases h3
  exact ⟨_, h1, h2⟩

/-- C127. The upper case of a text in title case is the upper case of the text. -/
theorem title_text {s : List Nat} (hs : IsText s) :
    ∃ t u, mapText toFullTitle s = .ok t ∧ mapText toFullUpper t = .ok u ∧ mapText toFullUpper s = .ok u :=
  mapText_comp (f := toFullTitle) (g := toFullUpper) (h := toFullUpper) (fun c hc =>
    ⟨_, _, (full_maps c hc).2.2, mapText_fulls (fun d hd => (full_maps d hd).2.1) (full_code c hc).2.2, by
      rw [fulls_step title_entries title_runs title_keys (mapBy_title c)]
      exact (full_maps c hc).2.1⟩) hs

/-- C127. Title case is not stable: the second letter of what the ligature ff becomes is put into title case too. -/
theorem title_not_stable : mapText toFullTitle [0xFB00] = .ok [0x46, 0x66] ∧ mapText toFullTitle [0x46, 0x66] = .ok [0x46, 0x46] := by
  decide +kernel

example : IsText [0x53, 0x74, 0x72, 0x61, 0xDF, 0x65, 0x1F80] ∧
    mapText toFullUpper [0x53, 0x74, 0x72, 0x61, 0xDF, 0x65, 0x1F80] = .ok [0x53, 0x54, 0x52, 0x41, 0x53, 0x53, 0x45, 0x1F08, 0x399] := by
  refine ⟨by unfold IsText; decide, by decide +kernel⟩

end Verif.Case.Props

import Verif.Props.DecompTexts
import Verif.Props.CaseTexts
/-! # Case mappings and canonical decompositions of a single code point -/
namespace Verif.CaseDecomp
open Verif Verif.Spec Verif.Data Verif.Normalizer2 Verif.Normalizer2.Props Verif.Case Verif.Case.Props
set_option maxRecDepth 100000

/-- `getDecomposition(c) or chr(c)` for the shipped data. -/
noncomputable def dec : Nat → Py Str := orSelf nfc.getDecomposition

/-- Intervals without cased characters: jamos, ideographs and what is between them, Hangul syllables, compatibility ideographs, the end. -/
def plainParts : List (Nat × Nat) := [(0x1100, 0x11FF), (0x2E80, 0xA63F), (0xAC00, 0xD7FF), (0xF900, 0xFAFF), (0x1EA00, 0x10FFFF)]

def plain (c : Nat) : Bool := plainParts.any fun p => and (Nat.ble p.1 c) (Nat.ble c p.2)

/-- A mapping has no entry and no run in the intervals. -/
def plainFor (special : List (Nat × List Nat)) (runs : List (List CaseRun)) : Bool :=
  plainParts.all fun p => and (special.all fun e => or (Nat.blt e.1 p.1) (Nat.blt p.2 e.1))
    (runs.all fun rs => rs.all fun r => or (Nat.blt r.last p.1) (Nat.blt p.2 r.first))

theorem upper_plain : plainFor specialUpper simpleUpper = true := by decide +kernel
theorem lower_plain : plainFor specialLower simpleLower = true := by decide +kernel

theorem fullBy_plain {special : List (Nat × List Nat)} {runs : List (List CaseRun)} (h : plainFor special runs = true) {c : Nat}
    (hc : plain c = true) : fullBy special runs c = [c] := by
  obtain ⟨p, hp, hb⟩ := List.any_eq_true.1 hc
  have h1 := List.all_eq_true.1 h p hp
  rw [Bool.and_eq_true, Nat.ble_eq, Nat.ble_eq] at hb
  rw [Bool.and_eq_true] at h1
  have e1 : special.lookup c = none := by
    cases hl : special.lookup c with
    | none => rfl
    | some s =>
      have := List.all_eq_true.1 h1.1 _ (lookup_mem hl)
      rw [Bool.or_eq_true, Nat.blt_eq, Nat.blt_eq] at this
      dsimp only at this
      omega
  have e2 : runs.flatten.find? (·.has c) = none := by
    refine List.find?_eq_none.2 fun r hr hh => ?_
    obtain ⟨rs, hrs, hrm⟩ := List.mem_flatten.1 hr
    have := List.all_eq_true.1 (List.all_eq_true.1 h1.2 _ hrs) _ hrm
    rw [Bool.or_eq_true, Nat.blt_eq, Nat.blt_eq] at this
    have g := of_decide_eq_true hh
    omega
  rw [fullBy, e1, mapBy, e2]

/-- The mapping of the decomposition of `c` has the decomposition of the mapping of `c`. -/
def Fits (f : Nat → Py Str) (c : Nat) : Prop :=
  ∃ x y z d, f c = .ok x ∧ dec c = .ok y ∧ mapText f y = .ok z ∧ mapText dec x = .ok d ∧ mapText dec z = .ok d

/-- The same, to be computed. -/
noncomputable def fits (f : Nat → Py Str) (c : Nat) : Bool :=
  match dec c with
  | .error _ => false
  | .ok y =>
    or (and (plain c) (y.all plain))
      (match f c, mapText f y with
      | .ok x, .ok z =>
        match mapText dec x, mapText dec z with
        | .ok d, .ok e => d == e
        | _, _ => false
      | _, _ => false)

theorem upper_fits : (decompositionGroups.all fun g => g.all fun p => fits toFullUpper p.1) = true := by decide +kernel
theorem lower_fits : (decompositionGroups.all fun g => g.all fun p => fits toFullLower p.1) = true := by decide +kernel

theorem mapText_plain {f : Nat → Py Str} (hp : ∀ c, c ≤ 0x10FFFF → plain c = true → f c = .ok [c]) : ∀ {y : Str}, IsText y →
    (∀ c ∈ y, plain c = true) → mapText f y = .ok y
  | [], _, _ => rfl
  | c :: _, h, g => mapText_cons (hp c (h c List.mem_cons_self) (g c List.mem_cons_self))
    (mapText_plain hp (fun x hx => h x (List.mem_cons_of_mem _ hx)) fun x hx => g x (List.mem_cons_of_mem _ hx))

theorem dec_one (c : Nat) (hc : c ≤ 0x10FFFF) : ∃ y, dec c = .ok y ∧ IsText y ∧ mapText dec [c] = .ok y ∧ mapText dec y = .ok y := by
  obtain ⟨y, h1, h2, h3, h4, h5, h6⟩ := orSelf_ok nfc_created hc
  refine ⟨y, h1, fun x hx => (h5 x hx).1, ?_, mapText_self nfc_created h5⟩
  have := mapText_cons (s := []) (y := []) h1 rfl
  rwa [List.append_nil] at this

theorem of_plain {f : Nat → Py Str} (hp : ∀ c, c ≤ 0x10FFFF → plain c = true → f c = .ok [c]) {c : Nat} (hc : c ≤ 0x10FFFF) {y : Str}
    (hy : dec c = .ok y) (h1 : plain c = true) (h2 : ∀ x ∈ y, plain x = true) : Fits f c := by
  obtain ⟨y', g1, g2, g3, g4⟩ := dec_one c hc
  rw [hy] at g1
  cases g1
  exact ⟨[c], y, y, y, hp c hc h1, hy, mapText_plain hp g2 h2, g3, g4⟩

theorem of_fits {f : Nat → Py Str} (hp : ∀ c, c ≤ 0x10FFFF → plain c = true → f c = .ok [c]) {c : Nat} (hc : c ≤ 0x10FFFF)
    (h : fits f c = true) : Fits f c := by
  obtain ⟨y, g1, -⟩ := dec_one c hc
  rw [fits, g1] at h
  dsimp only at h
  rw [Bool.or_eq_true, Bool.and_eq_true, List.all_eq_true] at h
  rcases h with ⟨h1, h2⟩ | h
  · exact of_plain hp hc g1 h1 h2
  · cases h1 : f c with
    | error e => rw [h1] at h; cases h
    | ok x =>
      cases h2 : mapText f y with
      | error e => rw [h1, h2] at h; cases h
      | ok z =>
        rw [h1, h2] at h
        dsimp only at h
        cases h3 : mapText dec x with
        | error e => rw [h3] at h; cases h
        | ok d =>
          cases h4 : mapText dec z with
          | error e => rw [h3, h4] at h; cases h
          | ok d' =>
            rw [h3, h4] at h
            have e := eq_of_beq h
            subst e
            exact ⟨x, y, z, d, h1, g1, h2, h3, h4⟩

theorem plain_of {c : Nat} {p : Nat × Nat} (hp : p ∈ plainParts) (h : p.1 ≤ c ∧ c ≤ p.2) : plain c = true :=
  List.any_eq_true.2 ⟨p, hp, by rw [Nat.ble_eq_true_of_le h.1, Nat.ble_eq_true_of_le h.2]; rfl⟩

theorem fits_all {f : Nat → Py Str} (hp : ∀ c, c ≤ 0x10FFFF → plain c = true → f c = .ok [c])
    (hf : ∀ c ≤ 0x10FFFF, ∃ x, f c = .ok x ∧ IsText x) (hl : (decompositionGroups.all fun g => g.all fun p => fits f p.1) = true)
    (c : Nat) (hc : c ≤ 0x10FFFF) : Fits f c := by
  by_cases hr : standardRaw c = none
  · obtain ⟨x, h1, h2⟩ := hf c hc
    have e : dec c = .ok [c] := by
      unfold dec orSelf
      rw [(full_map nfc_created hc).1 hr]
    obtain ⟨d, g, _⟩ := decomposed_text nfc_created h2
    have m := mapText_cons (s := []) (y := []) h1 rfl
    rw [List.append_nil] at m
    exact ⟨x, [c], x, d, h1, e, m, g, g⟩
  · by_cases hh : 0xAC00 ≤ c ∧ c ≤ 0xD7A3
    · obtain ⟨l, v, t, hl, hv, ht, hs⟩ := hangul_split hh.1 hh.2
      have e : dec c = .ok (hangulJamos l v t) := by
        unfold dec orSelf
        rw [hs, (nfc_hangul hl hv ht).1]
      refine of_plain hp hc e (plain_of (p := (0xAC00, 0xD7FF)) (by decide) ⟨hh.1, Nat.le_trans hh.2 (by decide)⟩) fun x hx => ?_
      refine plain_of (p := (0x1100, 0x11FF)) (by decide) ?_
      dsimp only
      unfold hangulJamos at hx
      split at hx
      · simp only [List.mem_cons, List.not_mem_nil, or_false] at hx
        omega
      · simp only [List.mem_cons, List.not_mem_nil, or_false] at hx
        omega
    · cases hr' : standardRaw c with
      | none => exact absurd hr' hr
      | some d =>
        unfold standardRaw at hr'
        rw [if_neg hh] at hr'
        obtain ⟨g, hg, hm⟩ := List.mem_flatten.1 (lookup_mem hr')
        exact of_fits hp hc (List.all_eq_true.1 (List.all_eq_true.1 hl g hg) _ hm)

theorem upper_all (c : Nat) (hc : c ≤ 0x10FFFF) : Fits toFullUpper c :=
  fits_all (fun c hc h => by rw [(full_maps c hc).2.1, fullBy_plain upper_plain h]) (fun c hc => ⟨_, (full_maps c hc).2.1, (full_code c hc).2.1⟩)
    upper_fits c hc

theorem lower_all (c : Nat) (hc : c ≤ 0x10FFFF) : Fits toFullLower c :=
  fits_all (fun c hc h => by rw [(full_maps c hc).1, fullBy_plain lower_plain h]) (fun c hc => ⟨_, (full_maps c hc).1, (full_code c hc).1⟩)
    lower_fits c hc

/-- The same for texts. -/
theorem fits_text {f : Nat → Py Str} (h : ∀ c ≤ 0x10FFFF, Fits f c) : ∀ {s : Str}, IsText s →
    ∃ x y z d, mapText f s = .ok x ∧ mapText dec s = .ok y ∧ mapText f y = .ok z ∧ mapText dec x = .ok d ∧ mapText dec z = .ok d
  | [], _ => ⟨[], [], [], [], rfl, rfl, rfl, rfl, rfl⟩
  | c :: s, hs => by
    obtain ⟨x, y, z, d, h1, h2, h3, h4, h5⟩ := h c (hs c List.mem_cons_self)
    obtain ⟨x', y', z', d', g1, g2, g3, g4, g5⟩ := fits_text h fun a ha => hs a (List.mem_cons_of_mem _ ha)
    exact ⟨x ++ x', y ++ y', z ++ z', d ++ d', mapText_cons h1 g1, mapText_cons h2 g2, mapText_append f h3 g3, mapText_append dec h4 g4,
      mapText_append dec h5 g5⟩

end Verif.CaseDecomp

import Verif.Lemmas.CaseMaps
/-! # C101: the case mappings are those of the standard -/
namespace Verif.Case.Props
open Verif.Data Verif.Spec

/-- C101. For every code point, `toLower`, `toUpper` and `toTitle` return its simple case mapping of Unicode 13.0. -/
theorem simple_maps (c : Nat) :
    toLower c = .ok (mapBy simpleLower c : Int) ∧ toUpper c = .ok (mapBy simpleUpper c : Int) ∧
    toTitle c = .ok (mapBy simpleTitle c : Int) := by
  rcases scan_cases goodMaps maps_scan c with h | ⟨h, _⟩
  · have hm := h.maps caseExceptions.arr c
    rw [← toLower_eq, ← toUpper_eq, ← toTitle_eq] at hm
    exact ⟨mapBy_of walk_lower (.inl hm.1), mapBy_of walk_upper (.inl hm.2.1), mapBy_of walk_title (.inl hm.2.2)⟩
  · unfold goodMaps at h
    rw [← toLower_eq, ← toUpper_eq, ← toTitle_eq] at h
    simp only [Bool.and_eq_true] at h
    obtain ⟨⟨h1, h2, h3⟩, _⟩ := h
    exact ⟨mapBy_of walk_lower (movedIn_spec h1), mapBy_of walk_upper (movedIn_spec h2), mapBy_of walk_title (movedIn_spec h3)⟩

/-- The three mappings of the digraph dž with a small z are different. -/
example : toLower 0x1C5 = .ok 0x1C6 ∧ toUpper 0x1C5 = .ok 0x1C4 ∧ toTitle 0x1C5 = .ok 0x1C5 ∧
    mapBy simpleLower 0x1C5 = 0x1C6 ∧ mapBy simpleUpper 0x1C5 = 0x1C4 ∧ mapBy simpleTitle 0x1C5 = 0x1C5 := by
  decide +kernel

/-- C101. For every code point, `toFullLower`, `toFullUpper` and `toFullTitle` return its unconditional full case mapping
of Unicode 13.0. -/
theorem full_maps (c : Nat) (hc : c ≤ 0x10FFFF) :
    toFullLower c = .ok (fullBy specialLower simpleLower c) ∧ toFullUpper c = .ok (fullBy specialUpper simpleUpper c) ∧
    toFullTitle c = .ok (fullBy specialTitle simpleTitle c) := by
  obtain ⟨l, u, t, fl, fu, ft, hl, hu, ht, e1, e2, e3, g1, g2, g3⟩ := full_facts c hc
  obtain ⟨s1, s2, s3⟩ := simple_maps c
  have key : ∀ (f : Nat → Py (List Nat)) (special : List (Nat × List Nat)) (runs : List (List CaseRun)) (m : Nat) (xs : List Nat),
      entries f special = true → f c = .ok xs → goodFull m xs = true → m = mapBy runs c →
      ((∃ x, xs = [x]) ∨ entry c special = true) → f c = .ok (fullBy special runs c) := by
    intro f special runs m xs he hf hg hm hs
    unfold fullBy
    split
    · rename_i s h
      exact entries_spec he h
    · rename_i hn
      rcases hs with ⟨x, hx⟩ | hs
      · rw [hf, hx, (goodFull_spec hg).2.2.1 x hx, hm]
      · obtain ⟨s, h⟩ := entry_spec hs
        rw [hn] at h; exact absurd h (by simp)
  have sh : ∀ {special xs}, shortOr special c xs = true → (∃ x, xs = [x]) ∨ entry c special = true := by
    intro special xs h
    unfold shortOr at h
    split at h
    · exact .inl ⟨_, rfl⟩
    · exact .inr h
  have nat : ∀ {r : Py Int} {a b : Nat}, r = .ok (a : Int) → r = .ok (b : Int) → a = b := by
    intro r a b h1 h2
    rw [h1] at h2
    have := Except.ok.inj h2
    omega
  have main : ((∃ x, fl = [x]) ∨ entry c specialLower = true) ∧ ((∃ x, fu = [x]) ∨ entry c specialUpper = true) ∧
      ((∃ x, ft = [x]) ∨ entry c specialTitle = true) := by
    have e1' := e1
    have e2' := e2
    have e3' := e3
    unfold toFullUpper at e2'
    unfold toFullTitle at e3'
    rw [toFullLower_eq] at e1'
    rw [toUpperOrTitle_eq] at e2' e3'
    rcases scan_cases goodMaps maps_scan c with h | ⟨h, _⟩
    · have a := h.fulls caseExceptions.arr hc true
      have b := h.fulls caseExceptions.arr hc false
      rw [a.1] at e1'
      rw [a.2] at e2'
      rw [b.2] at e3'
      exact ⟨.inl ⟨c, (Except.ok.inj e1').symm⟩, .inl ⟨c, (Except.ok.inj e2').symm⟩, .inl ⟨c, (Except.ok.inj e3').symm⟩⟩
    · unfold goodMaps at h
      simp only [Bool.and_eq_true] at h
      obtain ⟨_, h1, h2, h3⟩ := h
      rw [e1'] at h1
      rw [e2'] at h2
      rw [e3'] at h3
      exact ⟨sh h1, sh h2, sh h3⟩
  exact ⟨key _ _ _ _ _ entries_lower e1 g1 (nat hl s1) main.1, key _ _ _ _ _ entries_upper e2 g2 (nat hu s2) main.2.1,
    key _ _ _ _ _ entries_title e3 g3 (nat ht s3) main.2.2⟩

/-- Sharp s and the ligature ffi. -/
example : toFullUpper 0xDF = .ok [0x53, 0x53] ∧ fullBy specialUpper simpleUpper 0xDF = [0x53, 0x53] ∧
    toFullTitle 0xFB03 = .ok [0x46, 0x66, 0x69] ∧ fullBy specialTitle simpleTitle 0xFB03 = [0x46, 0x66, 0x69] ∧
    toFullLower 0x130 = .ok (fullBy specialLower simpleLower 0x130) ∧ fullBy specialLower simpleLower 0x41 = [0x61] := by
  decide +kernel

end Verif.Case.Props

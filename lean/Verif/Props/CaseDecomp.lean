import Verif.Lemmas.CaseDecomp
/-! # C142: case mappings respect canonical decompositions -/
namespace Verif.CaseDecomp.Props
open Verif Verif.Spec Verif.Data Verif.Normalizer2 Verif.Normalizer2.Props Verif.Case Verif.Case.Props

theorem both {f : Nat → Py Str} (h : ∀ c ≤ 0x10FFFF, Fits f c) (hf : ∀ {x : Str} {s : Str}, IsText s → mapText f s = .ok x → IsText x)
    {s t : Str} (hs : IsText s) (ht : IsText t) (hl : Linked standardRaw s t) :
    ∃ x y, mapText f s = .ok x ∧ mapText f t = .ok y ∧ Linked standardRaw x y := by
  obtain ⟨x, y, z, d, h1, h2, h3, h4, h5⟩ := fits_text h hs
  obtain ⟨x', y', z', d', g1, g2, g3, g4, g5⟩ := fits_text h ht
  have e := (decomposed_equal nfc_created hs ht).2 hl
  rw [show mapText (orSelf nfc.getDecomposition) s = _ from h2, show mapText (orSelf nfc.getDecomposition) t = _ from g2] at e
  cases e
  rw [h3] at g3
  cases g3
  rw [h5] at g5
  cases g5
  exact ⟨x, x', h1, g1, (decomposed_equal nfc_created (hf hs h1) (hf ht g1)).1 (h4.trans g4.symm)⟩

theorem isText_fulls {special : List (Nat × List Nat)} {runs : List (List CaseRun)} (h : ∀ c ≤ 0x10FFFF, IsText (fullBy special runs c)) {s : Str}
    (hs : IsText s) : IsText (fulls special runs s) := fun x hx => by
  obtain ⟨c, hc, hx⟩ := List.mem_flatMap.1 hx
  exact h c (hs c hc) x hx

/-- C142. If one text becomes another by replacing characters by their canonical decomposition mappings and mappings by their characters, then the
same is true of the two texts in upper case. -/
theorem upper_linked {s t : Str} (hs : IsText s) (ht : IsText t) (h : Linked standardRaw s t) :
    ∃ x y, mapText toFullUpper s = .ok x ∧ mapText toFullUpper t = .ok y ∧ Linked standardRaw x y :=
  both upper_all (fun hs e => by
    rw [mapText_fulls (fun c hc => (full_maps c hc).2.1) hs] at e
    cases e
    exact isText_fulls (fun c hc => (full_code c hc).2.1) hs) hs ht h

/-- C142. The same for lower case. -/
theorem lower_linked {s t : Str} (hs : IsText s) (ht : IsText t) (h : Linked standardRaw s t) :
    ∃ x y, mapText toFullLower s = .ok x ∧ mapText toFullLower t = .ok y ∧ Linked standardRaw x y :=
  both lower_all (fun hs e => by
    rw [mapText_fulls (fun c hc => (full_maps c hc).1) hs] at e
    cases e
    exact isText_fulls (fun c hc => (full_code c hc).1) hs) hs ht h

/-- C142, with the functions of the library only: the decomposition of the upper (lower) case of a text is that of the upper (lower) case of its
decomposition. -/
theorem case_decomposed {n : Normalizer2} (hn : createFromHardCodedData = .ok n) {s : Str} (hs : IsText s) :
    (∃ y u v d, mapText (orSelf n.getDecomposition) s = .ok y ∧ mapText toFullUpper s = .ok u ∧ mapText toFullUpper y = .ok v ∧
      mapText (orSelf n.getDecomposition) u = .ok d ∧ mapText (orSelf n.getDecomposition) v = .ok d) ∧
    ∃ y u v d, mapText (orSelf n.getDecomposition) s = .ok y ∧ mapText toFullLower s = .ok u ∧ mapText toFullLower y = .ok v ∧
      mapText (orSelf n.getDecomposition) u = .ok d ∧ mapText (orSelf n.getDecomposition) v = .ok d := by
  rw [nfc_created] at hn
  cases hn
  obtain ⟨x, y, z, d, h1, h2, h3, h4, h5⟩ := fits_text upper_all hs
  obtain ⟨x', y', z', d', g1, g2, g3, g4, g5⟩ := fits_text lower_all hs
  exact ⟨⟨y, x, z, d, h2, h1, h3, h4, h5⟩, ⟨y', x', z', d', g2, g1, g3, g4, g5⟩⟩

/-- C142. Title case, character by character, does not respect decompositions: U+1F80 is alpha with psili and ypogegrammeni, which becomes a letter
with prosgegrammeni; the ypogegrammeni alone becomes a capital iota. -/
theorem title_linked_refuted : IsText [0x1F80] ∧ IsText [0x1F00, 0x345] ∧ Linked standardRaw [0x1F80] [0x1F00, 0x345] ∧
    mapText toFullTitle [0x1F80] = .ok [0x1F88] ∧ mapText toFullTitle [0x1F00, 0x345] = .ok [0x1F08, 0x399] ∧
    ¬ Linked standardRaw [0x1F88] [0x1F08, 0x399] := by
  refine ⟨by unfold IsText; decide, by unfold IsText; decide, .forth (c := 0x1F80) (r := [0x1F00, 0x345]) [] [] (by decide +kernel) (.same _), by decide +kernel,
    by decide +kernel, fun h => ?_⟩
  have := (decomposed_equal nfc_created (by unfold IsText; decide) (by unfold IsText; decide)).2 h
  revert this
  decide +kernel

/-- The letter A with ring in lower case, in one and in two characters. -/
example : IsText [0xC5] ∧ IsText [0x41, 0x30A] ∧ Linked standardRaw [0xC5] [0x41, 0x30A] ∧ mapText toFullLower [0xC5] = .ok [0xE5] ∧
    mapText toFullLower [0x41, 0x30A] = .ok [0x61, 0x30A] :=
  ⟨by unfold IsText; decide, by unfold IsText; decide, .forth (c := 0xC5) (r := [0x41, 0x30A]) [] [] (by decide +kernel) (.same _), by decide +kernel, by decide +kernel⟩

end Verif.CaseDecomp.Props

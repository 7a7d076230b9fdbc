import Verif.Spec.DecompTexts
import Verif.Props.Decompositions
import Verif.Props.NfcClasses
import Verif.Props.RunNormalizer
/-! # C141: texts whose characters are decomposed -/
namespace Verif.Normalizer2.Props
open Verif Verif.Spec Verif.Data

/-- What a concatenation expands to is the concatenation of what its parts expand to. -/
theorem expands_split {raw : Nat → Option Str} {u d : Str} (h : Expands raw u d) : ∀ {s t : Str}, u = s ++ t →
    ∃ d1 d2, d = d1 ++ d2 ∧ Expands raw s d1 ∧ Expands raw t d2 := by
  induction h with
  | nil =>
    intro s t e
    obtain ⟨rfl, rfl⟩ := List.append_eq_nil_iff.1 e.symm
    exact ⟨[], [], rfl, .nil, .nil⟩
  | @keep c u d h1 h2 ih =>
    intro s t e
    cases s with
    | nil =>
      cases e
      exact ⟨[], c :: d, rfl, .nil, .keep h1 h2⟩
    | cons x s =>
      obtain ⟨rfl, rfl⟩ := List.cons.inj e
      obtain ⟨d1, d2, rfl, g1, g2⟩ := ih rfl
      exact ⟨c :: d1, d2, rfl, .keep h1 g1, g2⟩
  | @replace c r u d h1 h2 ih =>
    intro s t e
    cases s with
    | nil =>
      cases e
      exact ⟨[], d, rfl, .nil, .replace h1 h2⟩
    | cons x s =>
      obtain ⟨rfl, rfl⟩ := List.cons.inj e
      obtain ⟨d1, d2, rfl, g1, g2⟩ := ih (List.append_assoc r s t).symm
      exact ⟨d1, d2, rfl, .replace h1 g1, g2⟩

theorem expands_one {raw : Nat → Option Str} {c : Nat} {r d : Str} (h : raw c = some r) : Expands raw [c] d ↔ Expands raw r d := by
  constructor
  · intro g
    cases g with
    | keep h1 _ => rw [h] at h1; cases h1
    | replace h1 h2 =>
      rw [h] at h1
      cases h1
      rwa [List.append_nil] at h2
  · intro g
    exact .replace h (by rwa [List.append_nil])

theorem expands_inside {raw : Nat → Option Str} {c : Nat} {r a b d : Str} (h : raw c = some r) :
    Expands raw (a ++ [c] ++ b) d ↔ Expands raw (a ++ r ++ b) d := by
  constructor
  · intro g
    obtain ⟨d1, d2, rfl, g1, g2⟩ := expands_split g rfl
    obtain ⟨d3, d4, rfl, g3, g4⟩ := expands_split g1 rfl
    exact expands_append (expands_append g3 ((expands_one h).1 g4)) g2
  · intro g
    obtain ⟨d1, d2, rfl, g1, g2⟩ := expands_split g rfl
    obtain ⟨d3, d4, rfl, g3, g4⟩ := expands_split g1 rfl
    exact expands_append (expands_append g3 ((expands_one h).2 g4)) g2

theorem linked_expands {raw : Nat → Option Str} {s t d : Str} (h : Linked raw s t) : Expands raw s d ↔ Expands raw t d := by
  induction h with
  | same => exact Iff.rfl
  | forth a b h1 _ ih => exact (expands_inside h1).trans ih
  | back a b h1 _ ih => exact (expands_inside h1).symm.trans ih

theorem linked_trans {raw : Nat → Option Str} {s t u : Str} (h : Linked raw s t) (h' : Linked raw t u) : Linked raw s u := by
  induction h with
  | same => exact h'
  | forth a b h1 _ ih => exact .forth a b h1 (ih h')
  | back a b h1 _ ih => exact .back a b h1 (ih h')

theorem linked_symm {raw : Nat → Option Str} {s t : Str} (h : Linked raw s t) : Linked raw t s := by
  induction h with
  | same => exact .same _
  | forth a b h1 _ ih => exact linked_trans ih (.back a b h1 (.same _))
  | back a b h1 _ ih => exact linked_trans ih (.forth a b h1 (.same _))

theorem linked_cons {raw : Nat → Option Str} {s t : Str} (c : Nat) (h : Linked raw s t) : Linked raw (c :: s) (c :: t) := by
  induction h with
  | same => exact .same _
  | forth a b h1 _ ih => exact .forth (c :: a) b h1 ih
  | back a b h1 _ ih => exact .back (c :: a) b h1 ih

theorem expands_linked {raw : Nat → Option Str} {s d : Str} (h : Expands raw s d) : Linked raw s d := by
  induction h with
  | nil => exact .same _
  | keep _ _ ih => exact linked_cons _ ih
  | replace h1 _ ih => exact .forth [] _ h1 ih

/-- One character. -/
theorem orSelf_ok {n : Normalizer2} (hn : createFromHardCodedData = .ok n) {c : Nat} (hc : c ≤ 0x10FFFF) :
    ∃ d, orSelf n.getDecomposition c = .ok d ∧ Expands standardRaw [c] d ∧ 1 ≤ d.length ∧ d.length ≤ 4 ∧
      (∀ x ∈ d, x ≤ 0x10FFFF ∧ standardRaw x = none) ∧ (standardRaw c ≠ none → d ≠ [c]) := by
  by_cases h : standardRaw c = none
  · refine ⟨[c], ?_, .keep h .nil, by simp, by simp, fun x hx => ?_, fun h' => absurd h h'⟩
    · unfold orSelf
      rw [(full_map hn hc).1 h]
    · rw [List.mem_singleton.1 hx]
      exact ⟨hc, h⟩
  · obtain ⟨d, e, he, _⟩ := (full_map hn hc).2 h
    have hl := (nfc_lengths hn hc).2 d e
    rw [nfc_created] at hn
    cases hn
    have hf := (nfc_decomposition_final hc e).2
    have key : ∀ x ∈ d, x ≤ 0x10FFFF ∧ standardRaw x = none := fun x hx => by
      have := (hf x hx).2.2
      rw [raw_map nfc_created (hf x hx).1] at this
      exact ⟨(hf x hx).1, Except.ok.inj this⟩
    refine ⟨d, ?_, he, hl.1, hl.2, key, fun _ hd => ?_⟩
    · unfold orSelf
      rw [e]
    · subst hd
      exact h (key c List.mem_cons_self).2

theorem mapText_cons {f : Nat → Py Str} {c : Nat} {s x y : Str} (h : f c = .ok x) (h' : mapText f s = .ok y) : mapText f (c :: s) = .ok (x ++ y) := by
  rw [mapText, h, h']
  rfl

/-- Characters without mapping stay. -/
theorem mapText_self {n : Normalizer2} (hn : createFromHardCodedData = .ok n) : ∀ {d : Str}, (∀ x ∈ d, x ≤ 0x10FFFF ∧ standardRaw x = none) →
    mapText (orSelf n.getDecomposition) d = .ok d
  | [], _ => rfl
  | c :: d, h => by
    have hc := h c List.mem_cons_self
    have e : orSelf n.getDecomposition c = .ok [c] := by
      unfold orSelf
      rw [(full_map hn hc.1).1 hc.2]
    exact mapText_cons e (mapText_self hn fun x hx => h x (List.mem_cons_of_mem _ hx))

/-- C141. Replacing every character of a text by `getDecomposition` of it (itself for `None`) never raises. The result is what is left when
the mappings of the standard are applied to the text as long as one applies, in any order; the same replacement leaves it alone; it has at
least as many characters as the text and at most four times as many; and it is the text itself exactly if no character of the text has a mapping. -/
theorem decomposed_text {n : Normalizer2} (hn : createFromHardCodedData = .ok n) : ∀ {s : Str}, IsText s →
    ∃ d, mapText (orSelf n.getDecomposition) s = .ok d ∧ Expands standardRaw s d ∧ (∀ e, Expands standardRaw s e → e = d) ∧ IsText d ∧
      mapText (orSelf n.getDecomposition) d = .ok d ∧ s.length ≤ d.length ∧ d.length ≤ 4 * s.length ∧
      (d = s ↔ ∀ c ∈ s, standardRaw c = none) := by
  have main : ∀ {s : Str}, IsText s → ∃ d, mapText (orSelf n.getDecomposition) s = .ok d ∧ Expands standardRaw s d ∧
      s.length ≤ d.length ∧ d.length ≤ 4 * s.length ∧ (∀ x ∈ d, x ≤ 0x10FFFF ∧ standardRaw x = none) := by
    intro s
    induction s with
    | nil => exact fun _ => ⟨[], rfl, .nil, by simp, by simp, fun x hx => nomatch hx⟩
    | cons c s ih =>
      intro hs
      obtain ⟨y, h1, h2, h3, h4, h5⟩ := ih fun x hx => hs x (List.mem_cons_of_mem _ hx)
      obtain ⟨x, g1, g2, g3, g4, g5, _⟩ := orSelf_ok hn (hs c List.mem_cons_self)
      refine ⟨x ++ y, mapText_cons g1 h1, expands_append g2 h2, ?_, ?_, fun z hz => ?_⟩
      · simp only [List.length_cons, List.length_append]; omega
      · simp only [List.length_cons, List.length_append]; omega
      · rcases List.mem_append.1 hz with hz | hz
        · exact g5 z hz
        · exact h5 z hz
  intro s hs
  obtain ⟨d, h1, h2, h3, h4, h5⟩ := main hs
  refine ⟨d, h1, h2, fun e he => expands_unique he h2, fun x hx => (h5 x hx).1, mapText_self hn h5, h3, h4, fun e c hc => ?_, fun h => ?_⟩
  · subst e
    exact (h5 c hc).2
  · have := mapText_self hn fun x hx => ⟨hs x hx, h x hx⟩
    rw [h1] at this
    exact Except.ok.inj this

/-- C141. Two texts have the same result exactly if one becomes the other by replacing characters by their mappings of the standard and
mappings by their characters. -/
theorem decomposed_equal {n : Normalizer2} (hn : createFromHardCodedData = .ok n) {s t : Str} (hs : IsText s) (ht : IsText t) :
    mapText (orSelf n.getDecomposition) s = mapText (orSelf n.getDecomposition) t ↔ Linked standardRaw s t := by
  obtain ⟨d, h1, h2, h3, _⟩ := decomposed_text hn hs
  obtain ⟨e, g1, g2, g3, _⟩ := decomposed_text hn ht
  rw [h1, g1]
  constructor
  · intro h
    cases h
    exact linked_trans (expands_linked h2) (linked_symm (expands_linked g2))
  · intro h
    rw [g3 d ((linked_expands h).1 h2)]

/-- The angstrom sign, the letter A with ring and A with the combining ring have one decomposition. -/
example : IsText [0x212B, 0xAC01] ∧ IsText [0x41, 0x30A, 0xAC00, 0x11A8] ∧ Linked standardRaw [0x212B, 0xAC01] [0x41, 0x30A, 0xAC00, 0x11A8] ∧
    mapText (orSelf nfc.getDecomposition) [0x212B, 0xAC01] = .ok [0x41, 0x30A, 0x1100, 0x1161, 0x11A8] ∧
    ¬ Linked standardRaw [0x212B] [0x41] := by
  have e : mapText (orSelf nfc.getDecomposition) [0x212B, 0xAC01] = .ok [0x41, 0x30A, 0x1100, 0x1161, 0x11A8] := by decide +kernel
  have i1 : IsText [0x212B, 0xAC01] := by unfold IsText; decide
  have i2 : IsText [0x41, 0x30A, 0xAC00, 0x11A8] := by unfold IsText; decide
  refine ⟨i1, i2, (decomposed_equal nfc_created i1 i2).1 (by rw [e]; decide +kernel), e, fun h => ?_⟩
  have := (decomposed_equal nfc_created (by unfold IsText; decide) (by unfold IsText; decide)).2 h
  revert this
  decide +kernel

end Verif.Normalizer2.Props

namespace Verif.PyRun.Norm
open Verif.PySyntax Verif.Library Verif.Data Verif.Spec Verif.Normalizer2.Props

/-- C141, from the texts: `g` is what `nfcTrie.getDecomposition` returns when it is executed from the text of Normalizer2.py. A text whose
characters are replaced by what it returns is left alone by the same replacement, and two texts become the same text exactly if they are linked by
the mappings of the standard. -/
theorem text_texts (v v' : Val) : ∃ w t, normalizer2 v v' = .ok w ∧ w.find (n% "Normalizer2") 0 (n% "nfcTrie") = some (.val t) ∧
    ∃ g : Nat → Option Str, (∀ c : Nat, c ≤ 0x10FFFF → callMethod w (run w 6) t (n% "getDecomposition") (chain [.int c]) = .ok (optional (g c))) ∧
    (∀ s, IsText s → (s.flatMap fun c => (g c).getD [c]).flatMap (fun c => (g c).getD [c]) = s.flatMap fun c => (g c).getD [c]) ∧
    ∀ s s', IsText s → IsText s' →
      ((s.flatMap fun c => (g c).getD [c]) = (s'.flatMap fun c => (g c).getD [c]) ↔ Linked standardRaw s s') := by
  let g : Nat → Option Str := fun c => match nfc.getDecomposition c with | .ok x => x | .error _ => none
  have hg : ∀ c : Nat, c ≤ 0x10FFFF → nfc.getDecomposition c = .ok (g c) := fun c hc => by
    obtain ⟨⟨d, hd⟩, _⟩ := nfc_total.2 c hc
    show _ = Except.ok (match nfc.getDecomposition c with | .ok x => x | .error _ => none)
    rw [hd]
  have hm : ∀ {s : Str}, IsText s → mapText (orSelf nfc.getDecomposition) s = .ok (s.flatMap fun c => (g c).getD [c]) := by
    intro s
    induction s with
    | nil => exact fun _ => rfl
    | cons c s ih =>
      intro hs
      refine mapText_cons ?_ (ih fun x hx => hs x (List.mem_cons_of_mem _ hx))
      unfold orSelf
      rw [hg c (hs c List.mem_cons_self)]
      show _ = Except.ok ((g c).getD [c])
      cases g c <;> rfl
  refine ⟨_, nfcObject, normalizer2_ok v v', normWorld_nfc v v', g, fun c hc => ?_, fun s hs => ?_, fun s s' hs hs' => ?_⟩
  · refine (getDecomposition_run (imported v v') (nfc_isNorm v v') c 0).trans ?_
    rw [hg c hc]
    rfl
  · obtain ⟨d, h1, _, _, h2, h3, _⟩ := decomposed_text nfc_created hs
    rw [hm hs] at h1
    cases h1
    rw [hm h2] at h3
    exact Except.ok.inj h3
  · rw [← decomposed_equal nfc_created hs hs', hm hs, hm hs']
    exact ⟨fun h => by rw [h], Except.ok.inj⟩

end Verif.PyRun.Norm

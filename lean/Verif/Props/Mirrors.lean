import Verif.Lemmas.NfcLists
import Verif.Lemmas.BidiData
import Verif.Spec.Mirrors
/-! # Mirrors and paired brackets of the shipped data are those of the standard (C114) -/
namespace Verif.Bidi.Props
open Verif Verif.Spec Verif.Data Verif.Bidi
set_option maxRecDepth 100000

/-- Sets of code points as numbers. -/
def mirroredSet : Nat := gather (fun r : Nat × Nat => span r.1 r.2) mirroredRanges
def glyphSet : Nat := gather (fun e : Nat × Nat => mark e.1) mirroringGlyphs
def bracketSet : Nat := gather (fun e : Nat × Nat => Nat.lor (mark e.1) (mark e.2)) bracketPairs

/-- Sixteen bits with the ones that matter, for 32 code points. -/
def flagMask : Nat := 0xF300 * ((2 ^ 512 - 1) / (2 ^ 16 - 1))
theorem flagMask_spec : ∀ j < 32, (flagMask >>> (bidiIndex.bits * j)) % 2 ^ bidiIndex.bits = 0xF300 := by decide +kernel

/-- The check of one code point. -/
noncomputable def goodD (M G K c v : Nat) : Bool :=
  or (Nat.beq (Nat.land v 0xF300) 0) (and (or (not (getFlagFromProps v 12)) (hasBit M c))
    (and (or (Nat.beq (Nat.land v 0x300) 0) (hasBit K c)) (or (hasBit G c) (decide (getMirrorFromProps c v = .ok (c : Int))))))

noncomputable def mirrorCheck : Bool :=
  force mirroredSet fun M => force glyphSet fun G => force bracketSet fun K => allB (bidiPropsTrie.scanG (bidiIndex.quick flagMask) (goodD M G K)) 10 0

theorem mirror_check : mirrorCheck = true := by decide +kernel

theorem mirror_entries : (mirroringGlyphs.all fun e => decide (getMirror e.1 = .ok (e.2 : Int))) = true ∧
    (mirroredRanges.all fun r => (List.range (r.2 + 1 - r.1)).all fun i => decide (isMirrored (r.1 + i) = .ok true)) = true ∧
    (bracketPairs.all fun p => decide (getPairedBracket p.1 = .ok (p.2 : Int)) && decide (getPairedBracket p.2 = .ok (p.1 : Int))) = true := by
  decide +kernel

theorem goodD_get (c : Nat) : goodD mirroredSet glyphSet bracketSet c (bidiPropsTrie.getv c) = true := by
  have h := mirror_check
  unfold mirrorCheck at h
  rw [force_eq, force_eq, force_eq] at h
  generalize mirroredSet = M at *
  generalize glyphSet = G at *
  generalize bracketSet = K at *
  have triv : ∀ v c, v &&& 0xF300 = 0 → goodD M G K c v = true := by
    intro v c h
    unfold goodD
    rw [show Nat.land v 0xF300 = v &&& 0xF300 from rfl, h]; rfl
  by_cases hc : c < 0x10FFFF
  · refine trie_ok.forall_scanG nulls_ok (bidiIndex.quick flagMask) (goodD M G K) ?_ (fun c => triv _ c rfl) ?_ ?_ c hc
    · intro a ha j hj c
      exact triv _ _ (bidiIndex.quick_spec flagMask 0xF300 a flagMask_spec ha j hj)
    · intro g hg
      exact allB_range h (lo := 0) (hi := 1024) rfl rfl g (by omega) (by omega)
    · intro c h1 h2
      have h1' : 0x110000 ≤ c := h1
      omega
  · refine triv _ _ ?_
    unfold UTrie2.getv
    rw [if_neg hc]
    decide +kernel

theorem and_of_F300 {v m : Nat} (h : v &&& 0xF300 = 0) (e : 0xF300 &&& m = m) : v &&& m = 0 := by
  rw [← e, ← Nat.and_assoc, h, Nat.zero_and]

theorem flag_12 {v : Nat} (h : v &&& 0x1000 = 0) : getFlagFromProps v 12 = false := by
  unfold getFlagFromProps
  rw [show v >>> 12 &&& 1 = (v &&& 0x1000) >>> 12 from (by rw [Nat.shiftRight_and_distrib]; rfl), h]
  rfl

theorem isMirrored_eq (c : Nat) : isMirrored c = .ok (getFlagFromProps (bidiPropsTrie.getv c) 12) := by
  unfold isMirrored
  rw [get_eq]; rfl

theorem mirrored_of (c : Nat) (h : getFlagFromProps (bidiPropsTrie.getv c) 12 = true) : InRanges mirroredRanges c := by
  have hg := goodD_get c
  unfold goodD at hg
  rw [Bool.or_eq_true, Nat.beq_eq, Bool.and_eq_true, Bool.or_eq_true, Bool.not_eq_true', h, hasBit_eq, mirroredSet, gather_iff] at hg
  rcases hg with hg | ⟨hg | ⟨r, hr, hb⟩, _⟩
  · rw [flag_12 (and_of_F300 hg rfl)] at h
    exact absurd h (by decide)
  · exact absurd hg (by decide)
  · exact ⟨r, hr, (span_iff _ _ _).1 hb⟩

/-- C114. `isMirrored` answers whether the code point has the property Bidi_Mirrored of the standard. -/
theorem mirrored_set (c : Nat) : ∃ b, isMirrored c = .ok b ∧ (b = true ↔ InRanges mirroredRanges c) := by
  refine ⟨_, isMirrored_eq c, mirrored_of c, fun ⟨r, hr, h1, h2⟩ => ?_⟩
  have h := List.all_eq_true.1 (List.all_eq_true.1 mirror_entries.2.1 r hr) (c - r.1) (by rw [List.mem_range]; omega)
  rw [decide_eq_true_eq, show r.1 + (c - r.1) = c by omega, isMirrored_eq] at h
  exact Except.ok.inj h

theorem glyph_lookup {c : Nat} : mirroringGlyphs.lookup c = none → glyphSet.testBit c = false := by
  intro h
  rw [← Bool.not_eq_true]
  intro hb
  obtain ⟨e, he, hb⟩ := (gather_iff _ _ _).1 hb
  rw [List.lookup_eq_none_iff] at h
  have := h e he
  rw [(mark_iff _ _).1 hb] at this
  simp at this

/-- C114. `getMirror` returns the code point that BidiMirroring.txt gives, or its argument if the file gives none. -/
theorem mirror_map (c : Nat) : getMirror c = .ok (standardMirror c : Int) := by
  unfold standardMirror
  cases hl : mirroringGlyphs.lookup c with
  | some m =>
    obtain ⟨l1, l2, h, _⟩ := List.lookup_eq_some_iff.1 hl
    have := List.all_eq_true.1 mirror_entries.1 (c, m) (by rw [h]; simp)
    rw [decide_eq_true_eq] at this
    exact this
  | none =>
    have hn := glyph_lookup hl
    have hg := goodD_get c
    unfold goodD at hg
    rw [Bool.or_eq_true, Nat.beq_eq, Bool.and_eq_true, Bool.and_eq_true, Bool.or_eq_true (hasBit glyphSet c), hasBit_eq glyphSet c, hn, decide_eq_true_eq] at hg
    rw [getMirror_eq]
    rcases hg with hg | ⟨_, _, hg | hg⟩
    · exact getMirrorFromProps_trivial (getv_lt c) (and_of_F300 hg rfl) c
    · exact absurd hg (by decide)
    · exact hg

/-- C114. `getPairedBracket` returns the other bracket of the pair in BidiBrackets.txt, or its argument if it is no bracket. -/
theorem bracket_map (c : Nat) : getPairedBracket c = .ok (standardBracket c : Int) := by
  unfold standardBracket
  cases hl : (bracketPairs ++ bracketPairs.map fun p => (p.2, p.1)).lookup c with
  | some m =>
    obtain ⟨l1, l2, h, _⟩ := List.lookup_eq_some_iff.1 hl
    have hm : (c, m) ∈ bracketPairs ++ bracketPairs.map fun p => (p.2, p.1) := by rw [h]; simp
    rw [List.mem_append, List.mem_map] at hm
    rcases hm with hm | ⟨p, hp, he⟩
    · have := List.all_eq_true.1 mirror_entries.2.2 (c, m) hm
      rw [Bool.and_eq_true, decide_eq_true_eq] at this
      exact this.1
    · have := List.all_eq_true.1 mirror_entries.2.2 p hp
      rw [Bool.and_eq_true, decide_eq_true_eq, decide_eq_true_eq] at this
      obtain ⟨rfl, rfl⟩ := Prod.mk.inj he
      exact this.2
  | none =>
    have hn : hasBit bracketSet c = false := by
      rw [hasBit_eq, ← Bool.not_eq_true]
      intro hb
      obtain ⟨e, he, hb⟩ := (gather_iff _ _ _).1 hb
      rw [show Nat.lor (mark e.1) (mark e.2) = mark e.1 ||| mark e.2 from rfl, Nat.testBit_or, Bool.or_eq_true, mark_iff, mark_iff] at hb
      rw [List.lookup_eq_none_iff] at hl
      rcases hb with rfl | rfl
      · have := hl e (List.mem_append_left _ he)
        simp at this
      · have := hl (e.2, e.1) (List.mem_append_right _ (List.mem_map.2 ⟨e, he, rfl⟩))
        simp at this
    have hg := goodD_get c
    unfold goodD at hg
    rw [Bool.or_eq_true, Nat.beq_eq, Bool.and_eq_true, Bool.and_eq_true, Bool.or_eq_true (Nat.beq (Nat.land _ 0x300) 0), hn, Nat.beq_eq] at hg
    have h0 : bidiPropsTrie.getv c &&& 0x300 = 0 := by
      rcases hg with hg | ⟨_, hg | hg, _⟩
      · exact and_of_F300 hg rfl
      · exact hg
      · exact absurd hg (by decide)
    unfold getPairedBracket
    rw [get_eq]
    simp [bind, Except.bind, pure, Except.pure, h0]

/-- A parenthesis has a mirror and a partner, a quotation mark a mirror only, and a letter neither. -/
example : standardMirror 0x28 = 0x29 ∧ standardBracket 0x28 = 0x29 ∧ standardMirror 0xAB = 0xBB ∧ standardBracket 0xAB = 0xAB ∧
    standardMirror 0x41 = 0x41 ∧ InRanges mirroredRanges 0x2201 ∧ standardMirror 0x2201 = 0x2201 ∧ ¬ InRanges mirroredRanges 0x41 := by
  decide +kernel

end Verif.Bidi.Props

import Verif.Lemmas.ExactSets
import Verif.Lemmas.MapSets
import Verif.Props.Char
import Verif.Props.CategoryMap
import Verif.Props.BidiMaps
import Verif.Spec.CategorySets
/-! # The categories and bidi classes of the shipped data are the sets of the standard (C96, C97) -/
namespace Verif.Char.Props
open Verif Verif.Spec Verif.Char.Spec Verif.Data Verif.Char
set_option maxRecDepth 100000

/-! ## General categories -/

/-- The numbers of the categories of the list. -/
def categoryNumbers : List Nat := [3, 7, 10, 12, 13, 14, 15, 16, 17, 18, 19, 22, 25, 26, 28, 29]

theorem category_names : (categoryNumbers.map fun v => generalCategoryNames.lookup v) = categorySets.map fun s => some s.1 := by decide +kernel

/-- C96. For each general category of the list, the code points for which `getGeneralCategory` returns it are those of the standard. -/
theorem category_sets : ∀ s ∈ categorySets, ∃ v, generalCategoryNames.lookup v = some s.1 ∧
    ∀ c ≤ 0x10FFFF, getGeneralCategory c = .ok v ↔ InRanges s.2 c := by
  intro s hs
  obtain ⟨v, hv, _, hx⟩ := sets_named (d := 0) (runs := categoryRuns) (numbers := categoryNumbers) (by decide +kernel) category_names
    (by decide +kernel) s hs
  refine ⟨v, hv, fun c hc => ?_⟩
  rw [category_map.1 c hc, ← hx]
  exact ⟨Except.ok.inj, fun h => by rw [h]⟩

example : ("Zs", [(0x20, 0x20), (0xA0, 0xA0), (0x1680, 0x1680), (0x2000, 0x200A), (0x202F, 0x202F), (0x205F, 0x205F), (0x3000, 0x3000)]) ∈
    categorySets := by simp [categorySets]

/-! ## Bidi classes -/

def classNumbers : List Nat := [1, 2, 3, 4, 5, 6, 7, 8, 9, 11, 12, 13, 14, 15, 16, 18, 19, 20, 21, 22]

/-- The lists of the scan: the two bits of the bracket type, join control and bidi control. -/
def bidiLists : List (List (Nat × Nat)) :=
  [openBrackets, closeBrackets, [(0x200C, 0x200D)], [(0x61C, 0x61C), (0x200E, 0x200F), (0x202A, 0x202E), (0x2066, 0x2069)]]

noncomputable def bidiSetCheck : Bool :=
  force bidiIndex.big fun B => and (Nat.beq (Nat.land (Nat.shiftRight Bidi.bidiPropsTrie.initialValue 8) 0xF) 0)
    ((Bidi.bidiPropsTrie.withBig B).exactCheck (fun v => Nat.land (Nat.shiftRight v 8) 0xF) 4 bidiLists)

theorem bidiSet_scan : bidiSetCheck = true := by decide +kernel

theorem copies_4 : ∀ j < 32, (copies 1 4).testBit (4 * j) = true := by decide +kernel

theorem class_names : (classNumbers.map fun v => bidiClassNames.lookup v) = bidiSets.map fun s => some s.1 := by decide +kernel

theorem bidi_at {i : Nat} (hi : i < 4) {c : Nat} (hc : c < 0x10FFFF) :
    ((Bidi.bidiPropsTrie.getv c >>> 8) &&& 0xF).testBit i = true ↔ InRanges (bidiLists.getD i []) c := by
  have hscan := bidiSet_scan
  unfold bidiSetCheck at hscan
  simp only [force_eq, Bool.and_eq_true] at hscan
  obtain ⟨h0, hscan⟩ := hscan
  have key := BidiCross.bfull.exact (f := fun v => Nat.land (Nat.shiftRight v 8) 0xF) (k := 4) (by decide)
    (fun v => Nat.lt_of_le_of_lt Nat.and_le_right (by decide)) copies_4
    (Nat.eq_of_beq_eq_true h0) hscan (i := i) (R := bidiLists.getD i [])
    (by rw [List.getD_eq_getElem?_getD]; rw [List.getElem?_eq_getElem (by exact hi)]; rfl) (by decide) (c := c) hc
  have e2 : (Bidi.bidiPropsTrie.withBig bidiIndex.big).getv c = Bidi.bidiPropsTrie.getv c := BidiCross.agree.getv Bidi.trie_ok c
  rw [e2] at key
  exact key

theorem class_fifteen : bidiSets[15]? = some ("BN", (bidiSets.map (·.2)).getD 15 []) := by decide +kernel

/-- C97. For each bidi class of the list, the code points for which `getCharDirection` returns it are those of the standard. Missing:
U+10FFFF, which should be BN (`bidi_sets_refuted`). -/
theorem bidi_sets_partial : ∀ s ∈ bidiSets, ∃ v, bidiClassNames.lookup v = some s.1 ∧
    ∀ c ≤ 0x10FFFF, c ≠ 0x10FFFF ∨ s.1 ≠ "BN" → (Bidi.getCharDirection c = .ok v ↔ InRanges s.2 c) := by
  intro s hs
  obtain ⟨v, hv, hd, hx⟩ := sets_named (d := 0) (runs := classRuns) (numbers := classNumbers) (by decide +kernel) class_names
    (by decide +kernel) s hs
  refine ⟨v, hv, fun c hc hn => ?_⟩
  by_cases hl : c = 0x10FFFF
  · subst hl
    obtain ⟨h1, h2, _, _⟩ := Bidi.Props.class_map_refuted
    rw [h1, ← hx, h2]
    refine ⟨fun h => absurd (Except.ok.inj h) hd, fun h => ?_⟩
    subst h
    have : bidiClassNames.lookup 18 = some "BN" := by decide +kernel
    rw [this] at hv
    exact absurd (Option.some.inj hv).symm (hn.resolve_left fun h => h rfl)
  · rw [Bidi.Props.class_map_partial.1 c (by omega), ← hx]
    exact ⟨Except.ok.inj, fun h => by rw [h]⟩

/-- C97. The last code point is a non-character and should have class BN, but has class L. -/
theorem bidi_sets_refuted : (∃ s ∈ bidiSets, s.1 = "BN" ∧ InRanges s.2 0x10FFFF) ∧ InBidiClass 0x10FFFF ["L"] := by
  refine ⟨⟨_, List.mem_of_getElem? class_fifteen, rfl, inR_iff.mp (by decide +kernel)⟩, ?_⟩
  rw [← class_bit (fun g => g.beq 0) (by decide +kernel)]
  decide +kernel

example : ("S", [(0x9, 0x9), (0xB, 0xB), (0x1F, 0x1F)]) ∈ bidiSets := by simp [bidiSets]

theorem bidi_last : Bidi.isJoinControl 0x10FFFF = .ok false ∧ Bidi.isBidiControl 0x10FFFF = .ok false ∧
    Bidi.getPairedBracketType 0x10FFFF = .ok 0 ∧ inR 0x10FFFF openBrackets = false ∧ inR 0x10FFFF closeBrackets = false := by
  decide +kernel

theorem brackets_disjoint : ∀ r ∈ openBrackets, ∀ q ∈ closeBrackets, r.2 < q.1 ∨ q.2 < r.1 := by decide +kernel

theorem bracket_bits' : ∀ x < 16, (x % 4 = 1 ↔ x.testBit 0 = true ∧ x.testBit 1 = false) ∧
    (x % 4 = 2 ↔ x.testBit 1 = true ∧ x.testBit 0 = false) := by decide

/-- C97. The join controls, the bidi controls and the paired brackets of the shipped data are those of the standard. -/
theorem bidi_flags {c : Nat} (hc : c ≤ 0x10FFFF) :
    Bidi.isJoinControl c = .ok (decide (c = 0x200C ∨ c = 0x200D)) ∧
    Bidi.isBidiControl c = .ok (decide (InRanges [(0x61C, 0x61C), (0x200E, 0x200F), (0x202A, 0x202E), (0x2066, 0x2069)] c)) ∧
    (Bidi.getPairedBracketType c = .ok 1 ↔ InRanges openBrackets c) ∧
    (Bidi.getPairedBracketType c = .ok 2 ↔ InRanges closeBrackets c) := by
  by_cases hl : c = 0x10FFFF
  · subst hl
    obtain ⟨h1, h2, h3, h4, h5⟩ := bidi_last
    rw [h1, h2, h3, ← inR_iff (R := openBrackets), ← inR_iff (R := closeBrackets), h4, h5]
    refine ⟨by decide, by decide, by decide, by decide⟩
  have k : ∀ i < 4, ((Bidi.bidiPropsTrie.getv c >>> 8) &&& 0xF).testBit i = true ↔ InRanges (bidiLists.getD i []) c :=
    fun i hi => bidi_at hi (by omega)
  have k0 := k 0 (by decide)
  have k1 := k 1 (by decide)
  have k2 := k 2 (by decide)
  have k3 := k 3 (by decide)
  clear k
  have hx : (Bidi.bidiPropsTrie.getv c >>> 8) &&& 0xF < 16 := Nat.lt_of_le_of_lt Nat.and_le_right (by decide)
  have hflag : ∀ i < 4, ((Bidi.bidiPropsTrie.getv c >>> 8) &&& 0xF).testBit i = Bidi.getFlagFromProps (Bidi.bidiPropsTrie.getv c) (8 + i) := by
    intro i hi
    unfold Bidi.getFlagFromProps
    rw [show (0xF : Nat) = 2 ^ 4 - 1 from rfl, Nat.and_two_pow_sub_one_eq_mod, Nat.testBit_mod_two_pow, Nat.testBit_shiftRight]
    simp only [hi, decide_true, Bool.true_and]
    rw [Nat.testBit, Nat.and_comm 1, bne, Bool.eq_iff_iff, decide_eq_true_iff, Bool.not_eq_true', beq_eq_false_iff_ne]
  have htype : Bidi.getPairedBracketType c = .ok (((Bidi.bidiPropsTrie.getv c >>> 8) &&& 0xF) % 4) := by
    rw [bracketType_eq]
    congr 1
    apply Nat.eq_of_testBit_eq
    intro i
    rw [show 4 = 2 ^ 2 from rfl, Nat.testBit_mod_two_pow, Nat.testBit_shiftRight, Nat.testBit_and, Nat.testBit_and, Nat.testBit_shiftRight,
      show (0x300 : Nat) = 3 <<< 8 from rfl, Nat.testBit_shiftLeft]
    match i with
    | 0 => simp
    | 1 => simp [show Nat.testBit 3 1 = true from rfl, show Nat.testBit 15 1 = true from rfl]
    | i + 2 =>
      have : (3 : Nat).testBit (i + 2) = false := Nat.testBit_lt_two_pow (Nat.lt_of_lt_of_le (by decide : 3 < 2 ^ 2) (Nat.pow_le_pow_right (by decide) (by omega)))
      rw [show 8 + (i + 2) - 8 = i + 2 by omega, this, decide_eq_false (by omega : ¬ i + 2 < 2)]
      simp
  have hget : ∀ P : Nat → Bool, (Bidi.bidiPropsTrie.get c >>= fun v => pure (P v)) = (.ok (P (Bidi.bidiPropsTrie.getv c)) : Py Bool) := fun P => by
    rw [Bidi.trie_ok.get c]
    rfl
  rw [htype]
  rw [hflag 2 (by decide)] at k2
  rw [hflag 3 (by decide)] at k3
  obtain ⟨b1, b2⟩ := bracket_bits' _ hx
  have hdis : InRanges openBrackets c → ¬ InRanges closeBrackets c := by
    rintro ⟨r, hr, h1, h2⟩ ⟨q, hq, h3, h4⟩
    have := brackets_disjoint r hr q hq
    omega
  have k0 : _ ↔ InRanges openBrackets c := k0
  have k1 : _ ↔ InRanges closeBrackets c := k1
  have k2 : _ ↔ InRanges [(0x200C, 0x200D)] c := k2
  have k3 : _ ↔ InRanges [(0x61C, 0x61C), (0x200E, 0x200F), (0x202A, 0x202E), (0x2066, 0x2069)] c := k3
  refine ⟨?_, ?_, ?_, ?_⟩
  · refine (hget fun v => Bidi.getFlagFromProps v 10).trans ?_
    congr 1
    rw [Bool.eq_iff_iff, k2, decide_eq_true_iff]
    simp only [InRanges, List.mem_singleton, exists_eq_left]
    omega
  · refine (hget fun v => Bidi.getFlagFromProps v 11).trans ?_
    congr 1
    rw [Bool.eq_iff_iff, k3, decide_eq_true_iff]
  · rw [show (Except.ok (((Bidi.bidiPropsTrie.getv c >>> 8) &&& 0xF) % 4) = (.ok 1 : Py Nat)) ↔ _ from ⟨Except.ok.inj, fun h => by rw [h]⟩, b1,
      k0, ← Bool.not_eq_true, k1]
    exact ⟨fun h => h.1, fun h => ⟨h, hdis h⟩⟩
  · rw [show (Except.ok (((Bidi.bidiPropsTrie.getv c >>> 8) &&& 0xF) % 4) = (.ok 2 : Py Nat)) ↔ _ from ⟨Except.ok.inj, fun h => by rw [h]⟩, b2,
      k1, ← Bool.not_eq_true, k0]
    exact ⟨fun h => h.1, fun h => ⟨h, fun h' => hdis h' h⟩⟩


end Verif.Char.Props

import Verif.Lemmas.SetRuns
import Verif.Lemmas.CharGet
import Verif.Spec.BinarySets
import Verif.Spec.DerivedSets
/-! # The large binary properties of the shipped data are the sets of the standard (C110, C111) -/
namespace Verif.Char.Props
open Verif Verif.Spec Verif.Data Verif.Char
set_option maxRecDepth 100000

/-- The properties of the list and the noncharacters. -/
def largeSets : List BinarySet := derivedSets ++ [⟨"Noncharacter_Code_Point", 1, 12, noncharacterCodePointRanges⟩]

/-- Word 1 or 2 of a vector. -/
noncomputable def wordOf (col b d : Nat) : Nat := cond (Nat.beq col 1) b d

/-- The properties of a vector, in the order of the list. -/
noncomputable def largeBits (b d : Nat) : List Bool := largeSets.map fun s => bitAt (wordOf s.column b d) s.shift

noncomputable def largeCheck : Bool :=
  force (vecFields (fun _ b d => pack (largeBits b d)) 15) fun G => force propsVectorsIndex.big fun B =>
    (propsVectorTrie.withBig B).setsCheck (fun v => bigEntry 15 0x7FFF G (Nat.div v 3)) 15 (largeSets.map (·.ranges))

theorem large_scan : largeCheck = true := by decide +kernel

theorem large_columns : ∀ s ∈ largeSets, (s.column = 1 ∨ s.column = 2) ∧ s.shift < 32 := by decide +kernel

theorem wordOf_word {c col : Nat} (h : col = 1 ∨ col = 2) : wordOf col (word c 1) (word c 2) = word c col := by
  rcases h with rfl | rfl <;> rfl

theorem large_at {s : BinarySet} (hs : s ∈ largeSets) {c : Nat} (hc : c < 0x10FFFF) :
    bitAt (word c s.column) s.shift = true ↔ InRanges s.ranges c := by
  have hscan := large_scan
  unfold largeCheck at hscan
  simp only [force_eq] at hscan
  obtain ⟨i, hi, he⟩ := List.mem_iff_getElem.mp hs
  have hlen : ∀ b d, (largeBits b d).length = 15 := fun b d => by unfold largeBits; rw [List.length_map]; rfl
  have hf : ∀ a b d : Nat, pack (largeBits b d) < 2 ^ 15 := fun _ b d => by
    have := pack_lt (largeBits b d)
    rw [hlen] at this
    exact this
  have hG := vecFields_spec (k := 15) (m := 0x7FFF) hf (by decide) (by decide) c
  generalize vecFields (fun _ b d => pack (largeBits b d)) 15 = G at hscan hG
  have hlt : ∀ v, (fun v => bigEntry 15 0x7FFF G (Nat.div v 3)) v < 2 ^ 15 := fun v => by
    show bigEntry _ _ _ _ < 2 ^ 15
    unfold bigEntry
    exact Nat.lt_of_le_of_lt Nat.and_le_right (by decide)
  have key := bvfull.sets (f := fun v => bigEntry 15 0x7FFF G (Nat.div v 3)) (k := 15) (by decide) hlt hscan (i := i) (R := s.ranges)
    (by rw [List.getElem?_map, List.getElem?_eq_getElem hi, he]; rfl) (by decide) hc
  have e : (propsVectorTrie.withBig propsVectorsIndex.big).getv c = propsVectorTrie.getv c := vagree.getv vtrie_ok c
  rw [e] at key
  have key : (bigEntry 15 0x7FFF G (propsVectorTrie.getv c / 3)).testBit i = true ↔ _ := key
  rw [hG, pack_testBit] at key
  rw [← key]
  unfold largeBits
  rw [List.getD_eq_getElem?_getD, List.getElem?_map, List.getElem?_eq_getElem hi, he]
  show _ ↔ bitAt (wordOf s.column (word c 1) (word c 2)) s.shift = true
  rw [wordOf_word (large_columns s hs).1]

theorem large_get {s : BinarySet} (hs : s ∈ largeSets) {c : Nat} (hc : c < 0x10FFFF) :
    getBinaryProp c s.shift s.column = .ok (decide (InRanges s.ranges c)) := by
  have hcol := (large_columns s hs).1
  rw [getBinaryProp_eq c _ _ (large_columns s hs).2 (by rcases hcol with h | h <;> omega)]
  congr 1
  rw [Bool.eq_iff_iff, large_at hs hc, decide_eq_true_iff]

theorem derived_last : ∀ s ∈ derivedSets, getBinaryProp 0x10FFFF s.shift s.column = .ok false ∧ ¬ InRanges s.ranges 0x10FFFF := by
  decide +kernel

/-- C110. `getBinaryProp(c, shift, column)` is true for exactly the code points that the standard lists for the property, for the
properties that the standard derives from others, and for emoji. -/
theorem derived_sets : ∀ s ∈ derivedSets, ∀ c ≤ 0x10FFFF, getBinaryProp c s.shift s.column = .ok (decide (InRanges s.ranges c)) := by
  intro s hs c hc
  by_cases hl : c = 0x10FFFF
  · subst hl
    obtain ⟨h1, h2⟩ := derived_last s hs
    rw [h1, decide_eq_false h2]
  · exact large_get (by unfold largeSets; simp [hs]) (by omega)

/-- C110. The calls with a name of their own. -/
theorem derived_calls {c : Nat} (hc : c ≤ 0x10FFFF) :
    isAlphabetic c = .ok (decide (InRanges alphabeticRanges c)) ∧ isEmoji c = .ok (decide (InRanges emojiRanges c)) ∧
    isEmojiPresentation c = .ok (decide (InRanges emojiPresentationRanges c)) := by
  refine ⟨?_, derived_sets ⟨"Emoji", 2, 28, emojiRanges⟩ (by simp [derivedSets]) c hc,
    derived_sets ⟨"Emoji_Presentation", 2, 29, emojiPresentationRanges⟩ (by simp [derivedSets]) c hc⟩
  have h := derived_sets ⟨"Alphabetic", 1, 8, alphabeticRanges⟩ (by simp [derivedSets]) c hc
  have h : getBinaryProp c 8 1 = _ := h
  rw [getBinaryProp_eq c 8 1 (by decide) (by decide)] at h
  rw [isAlphabetic_eq]
  exact h

example : isAlphabetic 0x345 = .ok true ∧ InRanges alphabeticRanges 0x345 ∧ isEmoji 0x23 = .ok true ∧
    isEmojiPresentation 0x23 = .ok false ∧ InRanges emojiRanges 0x23 ∧ ¬ InRanges emojiPresentationRanges 0x23 := by decide +kernel

/-- C111 without the last code point: for every other one, the noncharacter property (bit 12) is true for exactly the
noncharacters. -/
theorem noncharacters_partial : ∀ c < 0x10FFFF, getBinaryProp c 12 1 = .ok (decide (InRanges noncharacterCodePointRanges c)) :=
  fun _ hc => large_get (s := ⟨"Noncharacter_Code_Point", 1, 12, noncharacterCodePointRanges⟩) (by simp [largeSets]) hc

/-- C111 does not hold for U+10FFFF. -/
theorem noncharacters_refuted : getBinaryProp 0x10FFFF 12 1 = .ok false ∧ InRanges noncharacterCodePointRanges 0x10FFFF := by
  decide +kernel

/-- The list of the noncharacters is what the standard says: the code points from U+FDD0 to U+FDEF and the last two of every plane. -/
theorem noncharacters_rule {c : Nat} (hc : c ≤ 0x10FFFF) :
    InRanges noncharacterCodePointRanges c ↔ (0xFDD0 ≤ c ∧ c ≤ 0xFDEF) ∨ 0xFFFE ≤ c % 0x10000 := by
  simp only [InRanges, noncharacterCodePointRanges, List.mem_cons, List.not_mem_nil, or_false, exists_eq_or_imp, exists_eq_left]
  omega

example : getBinaryProp 0xFDD0 12 1 = .ok true ∧ getBinaryProp 0xFDF0 12 1 = .ok false ∧ getBinaryProp 0x10FFFE 12 1 = .ok true := by
  decide +kernel

end Verif.Char.Props

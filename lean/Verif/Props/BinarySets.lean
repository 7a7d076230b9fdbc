import Verif.Lemmas.ExactSets
import Verif.Lemmas.CharGet
import Verif.Spec.BinarySets
/-! # The binary properties of the shipped data are the sets of the standard (C95) -/
namespace Verif.Char.Props
open Verif Verif.Spec Verif.Data Verif.Char
set_option maxRecDepth 100000

/-- Word `col` of a vector. -/
noncomputable def column (col a b d : Nat) : Nat := cond (Nat.beq col 1) b (cond (Nat.beq col 2) d a)

/-- The binary properties of a vector, in the order of the list. -/
noncomputable def setBits (a b d : Nat) : List Bool := binarySets.map fun s => bitAt (column s.column a b d) s.shift

noncomputable def setsCheck : Bool :=
  force (vecFields (fun a b d => pack (setBits a b d)) 23) fun G => force propsVectorsIndex.big fun B =>
    and (Nat.beq (bigEntry 23 0x7FFFFF G (Nat.div propsVectorTrie.initialValue 3)) 0)
      ((propsVectorTrie.withBig B).exactCheck (fun v => bigEntry 23 0x7FFFFF G (Nat.div v 3)) 23 (binarySets.map (·.ranges)))

theorem sets_scan : setsCheck = true := by decide +kernel

theorem bit_nonzero (x k : Nat) : decide (x &&& (1 <<< k) ≠ 0) = x.testBit k := by
  rw [Bool.eq_iff_iff, decide_eq_true_iff]
  exact and_one_shift x k

theorem copies_23 : ∀ j < 32, (copies 1 23).testBit (23 * j) = true := by decide +kernel

theorem last_none : ∀ s ∈ binarySets, getBinaryProp 0x10FFFF s.shift s.column = .ok false ∧ ¬ InRanges s.ranges 0x10FFFF := by
  decide +kernel

theorem columns : ∀ s ∈ binarySets, (s.column = 1 ∨ s.column = 2) ∧ s.shift < 32 := by decide +kernel

theorem column_word {c col : Nat} (h : col = 1 ∨ col = 2) : column col (word c 0) (word c 1) (word c 2) = word c col := by
  rcases h with rfl | rfl <;> rfl

/-- C95. `getBinaryProp(c, shift, column)` is true for exactly the code points that the standard lists for the property. -/
theorem binary_sets : ∀ s ∈ binarySets, ∀ c ≤ 0x10FFFF, getBinaryProp c s.shift s.column = .ok (decide (InRanges s.ranges c)) := by
  intro s hs c hc
  by_cases hl : c = 0x10FFFF
  · subst hl
    obtain ⟨h1, h2⟩ := last_none s hs
    rw [h1, decide_eq_false h2]
  have hc' : c < 0x10FFFF := by omega
  have hscan := sets_scan
  unfold setsCheck at hscan
  simp only [force_eq, Bool.and_eq_true] at hscan
  obtain ⟨h0, hscan⟩ := hscan
  obtain ⟨i, hi, he⟩ := List.mem_iff_getElem.mp hs
  have hlen : ∀ a b d, (setBits a b d).length = 23 := fun a b d => by unfold setBits; rw [List.length_map]; rfl
  have hf : ∀ a b d, pack (setBits a b d) < 2 ^ 23 := fun a b d => by
    have := pack_lt (setBits a b d)
    rw [hlen] at this
    exact this
  have hG := vecFields_spec (k := 23) (m := 0x7FFFFF) hf (by decide) (by decide) c
  generalize vecFields (fun a b d => pack (setBits a b d)) 23 = G at h0 hscan hG
  have hlt : ∀ v, (fun v => bigEntry 23 0x7FFFFF G (Nat.div v 3)) v < 2 ^ 23 := fun v => by
    show bigEntry _ _ _ _ < 2 ^ 23
    unfold bigEntry
    exact Nat.lt_of_le_of_lt Nat.and_le_right (by decide)
  have key := bvfull.exact (f := fun v => bigEntry 23 0x7FFFFF G (Nat.div v 3)) (k := 23) (by decide) hlt copies_23
    (Nat.eq_of_beq_eq_true h0) hscan (i := i) (R := s.ranges)
    (by rw [List.getElem?_map, List.getElem?_eq_getElem hi, he]; rfl) (by decide) hc'
  have e : (propsVectorTrie.withBig propsVectorsIndex.big).getv c = propsVectorTrie.getv c := vagree.getv vtrie_ok c
  rw [e] at key
  have key : (bigEntry 23 0x7FFFFF G (propsVectorTrie.getv c / 3)).testBit i = true ↔ _ := key
  rw [hG, pack_testBit] at key
  have eb : (setBits (word c 0) (word c 1) (word c 2)).getD i false = (word c s.column).testBit s.shift := by
    unfold setBits
    rw [List.getD_eq_getElem?_getD, List.getElem?_map, List.getElem?_eq_getElem hi, he]
    show bitAt _ _ = _
    rw [column_word (columns s hs).1, bitAt_eq]
  rw [eb] at key
  unfold getBinaryProp binaryPropFromVecIndex
  have hsh := (columns s hs).2
  have hcol : s.column < 3 := by rcases (columns s hs).1 with h | h <;> omega
  rw [if_neg (by omega), vget_eq]
  show (unicodePropertiesFromVecIndex (propsVectorTrie.getv c) s.column >>= fun p => pure (decide (p &&& (1 <<< s.shift) ≠ 0))) = _
  rw [vec_get c _ hcol]
  show Except.ok (decide (word c s.column &&& (1 <<< s.shift) ≠ 0)) = _
  rw [bit_nonzero]
  congr 1
  rw [Bool.eq_iff_iff, key, decide_eq_true_iff]

example : (⟨"Emoji_Modifier", 2, 30, [(0x1F3FB, 0x1F3FF)]⟩ : BinarySet) ∈ binarySets := by simp [binarySets]

/-- C95. The calls with a name of their own. -/
theorem emoji_sets {c : Nat} (hc : c ≤ 0x10FFFF) :
    isEmojiComponent c = .ok (decide (InRanges [(0x23, 0x23), (0x2A, 0x2A), (0x30, 0x39), (0x200D, 0x200D), (0x20E3, 0x20E3),
      (0xFE0F, 0xFE0F), (0x1F1E6, 0x1F1FF), (0x1F3FB, 0x1F3FF), (0x1F9B0, 0x1F9B3), (0xE0020, 0xE007F)] c)) ∧
    isEmojiModifier c = .ok (decide (0x1F3FB ≤ c ∧ c ≤ 0x1F3FF)) := by
  refine ⟨binary_sets ⟨"Emoji_Component", 2, 27, _⟩ (by simp [binarySets]) c hc, ?_⟩
  refine (binary_sets ⟨"Emoji_Modifier", 2, 30, [(0x1F3FB, 0x1F3FF)]⟩ (by simp [binarySets]) c hc).trans ?_
  simp [InRanges]

/-- C95. The other two calls with a name of their own. -/
theorem pictograph_sets : ∃ s ∈ binarySets, ∃ t ∈ binarySets, s.name = "Extended_Pictographic" ∧ t.name = "Emoji_Modifier_Base" ∧
    ∀ c ≤ 0x10FFFF, isExtendedPictograph c = .ok (decide (InRanges s.ranges c)) ∧
      isEmojiModifierBase c = .ok (decide (InRanges t.ranges c)) := by
  have h1 : binarySets[19]? = some ⟨"Extended_Pictographic", 2, 26, (binarySets.map (·.ranges)).getD 19 []⟩ := by rfl
  have h2 : binarySets[22]? = some ⟨"Emoji_Modifier_Base", 2, 31, (binarySets.map (·.ranges)).getD 22 []⟩ := by rfl
  have m1 := List.mem_of_getElem? h1
  have m2 := List.mem_of_getElem? h2
  exact ⟨_, m1, _, m2, rfl, rfl, fun c hc => ⟨binary_sets _ m1 c hc, binary_sets _ m2 c hc⟩⟩

example : isExtendedPictograph 0xA9 = .ok true ∧ isEmojiModifierBase 0x261D = .ok true ∧ isEmojiModifierBase 0xA9 = .ok false := by
  decide +kernel

end Verif.Char.Props

import Verif.Lemmas.NfcBits
/-! # What the scan of `NfcBits` says about each code point -/
namespace Verif
open Verif.Data Verif.CPTrie Verif.Spec
set_option maxRecDepth 100000

set_option exponentiation.threshold 200000 in
theorem nfc_checkN {c : Nat} (hc : c ≤ 0x10FFFF) :
    checkN c (nfcTrie.val c) (decomposing.testBit c) (backward.testBit c) (forward.testBit c) = true := by
  have h := nfc_scanAll
  unfold scanAll at h
  rw [force_eq, force_eq, force_eq] at h
  generalize decomposing = D at *
  generalize backward = M at *
  generalize forward = F at *
  rw [Bool.and_eq_true, Nat.blt_eq] at h
  obtain ⟨h, hlt⟩ := h
  have h1 : ∀ c, checkN c 1 false false false = true := by
    intro c
    unfold checkN
    cases and (Nat.ble 0xD800 c) (Nat.ble c 0xDBFF) <;> rfl
  have hhs : nfcTrie.highStart = 0x2FC00 := rfl
  by_cases hx : c < 0x2FC00
  · have hv : nfcTrie.val c = nfcTrie.data.at' (nfcTrie.blk (c / 16) + c % 16) := by
      unfold val; rw [if_pos (by rw [hhs]; exact hx)]
    have h2 := allB_range h (lo := 0) (hi := 16384) rfl rfl (c / 16) (by omega) (by omega)
    unfold scanN at h2
    rw [force_eq, force_eq, force_eq, force_eq] at h2
    have hb : ∀ n : Nat, hasBit (chunk n (c / 16)) (c % 16) = n.testBit c := by
      intro n
      rw [chunk_bit n (c / 16) (by omega), Nat.div_add_mod]
    simp only [Bool.or_eq_true, Bool.and_eq_true, Nat.ble_eq, Nat.beq_eq] at h2
    rcases h2 with h2 | ⟨h2, h3, h4, h5⟩ | h2
    · omega
    · have z : ∀ n : Nat, chunk n (c / 16) = 0 → n.testBit c = false := by
        intro n hn
        rw [← hb, hn, hasBit_eq, Nat.zero_testBit]
      rw [z D h3, z M h4, z F h5, hv, h2, nfc_null (c % 16) (by omega)]
      exact h1 c
    · have h3 := allB_range h2 (lo := 0) (hi := 16) rfl rfl (c % 16) (by omega) (by omega)
      rw [force_eq, force_eq, show Nat.add (Nat.mul 16 (c / 16)) (c % 16) = c from Nat.div_add_mod c 16, hb, hb, hb] at h3
      rw [hv]
      exact h3
  · have hv : nfcTrie.val c = nfcTrie.data.at' (nfcTrie.data.size - 2) := by
      unfold val; rw [if_neg (by rw [hhs]; exact hx)]
    have hz : ((D ||| (M ||| F)) : Nat).testBit c = false :=
      Nat.testBit_lt_two_pow (Nat.lt_of_lt_of_le hlt (Nat.pow_le_pow_right (by decide) (by omega)))
    rw [Nat.testBit_or, Nat.testBit_or, Bool.or_eq_false_iff, Bool.or_eq_false_iff] at hz
    rw [hz.1, hz.2.1, hz.2.2, hv, nfc_high]
    exact h1 c

theorem lor_bit (a b c : Nat) : (Nat.lor a b).testBit c = true ↔ a.testBit c = true ∨ b.testBit c = true := by
  rw [show (Nat.lor a b).testBit c = (a.testBit c || b.testBit c) from Nat.testBit_or .., Bool.or_eq_true]

theorem decomposing_iff (c : Nat) : decomposing.testBit c = true ↔ standardRaw c ≠ none := by
  unfold decomposing
  rw [lor_bit, span_iff, gather_iff]
  unfold standardRaw
  split
  · rename_i h; simp [h]
  · rename_i h
    simp only [h, false_or]
    constructor
    · rintro ⟨g, hg, h⟩
      rw [gather_iff] at h
      obtain ⟨e, he, h⟩ := h
      rw [mark_iff] at h
      rw [Ne, List.lookup_eq_none_iff]
      intro hn
      have := hn e (List.mem_flatten.mpr ⟨g, hg, he⟩)
      simp [h] at this
    · intro hn
      rw [Ne, List.lookup_eq_none_iff] at hn
      simp only [Classical.not_forall] at hn
      obtain ⟨e, he, hx⟩ := hn
      obtain ⟨g, hg, he⟩ := List.mem_flatten.mp he
      refine ⟨g, hg, ?_⟩
      rw [gather_iff]
      exact ⟨e, he, (mark_iff ..).2 (by simpa using hx)⟩

theorem excluded_iff (c : Nat) : excluded.testBit c = true ↔ c ∈ compositionExclusions := by
  unfold excluded
  rw [gather_iff]
  simp [mark_iff]

theorem parts_iff (second : Bool) (c : Nat) : (parts second).testBit c = true ↔ ∃ x a b, Composite x a b ∧ c = cond second b a := by
  unfold parts
  rw [force_eq, gather_iff]
  unfold Composite
  constructor
  · rintro ⟨g, hg, h⟩
    rw [gather_iff] at h
    obtain ⟨⟨x, d⟩, he, h⟩ := h
    unfold part at h
    split at h
    · rename_i a b hd
      simp only at hd
      subst hd
      rw [hasBit_eq] at h
      cases hx : excluded.testBit x
      · rw [hx] at h
        refine ⟨x, a, b, ⟨List.mem_flatten.mpr ⟨g, hg, he⟩, fun hm => ?_⟩, (mark_iff ..).1 h⟩
        rw [(excluded_iff x).2 hm] at hx
        exact absurd hx (by decide)
      · rw [hx] at h
        simp at h
    · simp at h
  · rintro ⟨x, a, b, ⟨hm, hx⟩, hc⟩
    obtain ⟨g, hg, he⟩ := List.mem_flatten.mp hm
    refine ⟨g, hg, (gather_iff ..).2 ⟨_, he, ?_⟩⟩
    have : excluded.testBit x = false := by
      rw [← Bool.not_eq_true, excluded_iff]; exact hx
    simp only [part, hasBit_eq, this, cond_false]
    exact (mark_iff ..).2 hc

theorem backward_iff (c : Nat) : backward.testBit c = true ↔ Combining c ∨ (∃ x a, Composite x a c) ∨
    (0x1161 ≤ c ∧ c ≤ 0x1175) ∨ (0x11A8 ≤ c ∧ c ≤ 0x11C2) := by
  unfold backward Combining
  rw [lor_bit, lor_bit, lor_bit, gather_iff, parts_iff, span_iff, span_iff]
  simp only [span_iff, cond_true]
  refine or_congr Iff.rfl (or_congr ⟨?_, ?_⟩ Iff.rfl)
  · rintro ⟨x, a, b, h, rfl⟩; exact ⟨x, a, h⟩
  · rintro ⟨x, a, h⟩; exact ⟨x, a, c, h, rfl⟩

theorem forward_iff (c : Nat) : forward.testBit c = true ↔ (∃ x b, Composite x c b) ∨ (0x1100 ≤ c ∧ c ≤ 0x1112) := by
  unfold forward
  rw [lor_bit, parts_iff, span_iff]
  simp only [cond_false]
  refine or_congr ⟨?_, ?_⟩ Iff.rfl
  · rintro ⟨x, a, b, h, rfl⟩; exact ⟨x, b, h⟩
  · rintro ⟨x, b, h⟩; exact ⟨x, c, b, h, rfl⟩

/-- The value of a code point, with the lead surrogates. -/
theorem nfc_value {c v : Nat} (hc : c ≤ 0x10FFFF) (hv : nfc.getNorm16 c = .ok v) :
    (decomposing.testBit c = true ↔ 0xAE2 ≤ v ∧ v < 0xFC00) ∧
    (0xFC00 ≤ v ↔ decomposing.testBit c = false ∧ backward.testBit c = true) ∧
    (v = 1 ↔ decomposing.testBit c = false ∧ backward.testBit c = false ∧ forward.testBit c = false) := by
  have h := nfc_checkN hc
  rw [nfc_norm16 hc] at hv
  have hv := Except.ok.inj hv
  unfold checkN at h
  generalize decomposing.testBit c = d at *
  generalize backward.testBit c = m at *
  generalize forward.testBit c = f at *
  by_cases hl : 0xD800 ≤ c ∧ c ≤ 0xDBFF
  · have : and (Nat.ble 0xD800 c) (Nat.ble c 0xDBFF) = true := by
      rw [Bool.and_eq_true, Nat.ble_eq, Nat.ble_eq]; exact hl
    rw [this] at h
    rw [if_pos hl] at hv
    subst hv
    revert h
    cases d <;> cases m <;> cases f <;> simp
  · have : and (Nat.ble 0xD800 c) (Nat.ble c 0xDBFF) = false := by
      rw [← Bool.not_eq_true, Bool.and_eq_true, Nat.ble_eq, Nat.ble_eq]; exact hl
    rw [this] at h
    rw [if_neg hl] at hv
    rw [hv] at h
    have hb : Nat.beq v 1 = false ↔ v ≠ 1 := by rw [← Bool.not_eq_true, Nat.beq_eq]
    revert h
    cases d <;> cases m <;> cases f <;>
      simp only [cond_true, cond_false, Bool.and_eq_true, Nat.ble_eq, Nat.blt_eq, Bool.not_eq_true', Nat.beq_eq, hb] <;>
      simp <;> omega

theorem sameList_spec {s t : Str} (h : sameList s t = true) : s = t := by
  induction s generalizing t with
  | nil => cases t with
    | nil => rfl
    | cons => simp [sameList] at h
  | cons a s ih => cases t with
    | nil => simp [sameList] at h
    | cons b t =>
      rw [sameList, Bool.and_eq_true, Nat.beq_eq] at h
      rw [h.1, ih h.2]

theorem nfc_listed {c : Nat} {d : Str} (h : decompositionGroups.flatten.lookup c = some d) : nfc.getRawDecomposition c = .ok (some d) := by
  have he : (c, d) ∈ decompositionGroups.flatten := by
    have := List.lookup_eq_some_iff.mp h
    obtain ⟨l1, l2, h, _⟩ := this
    rw [h]
    simp
  obtain ⟨g, hg, he⟩ := List.mem_flatten.mp he
  have h1 := List.all_eq_true.mp (List.all_eq_true.mp nfc_entries g hg) _ he
  unfold entryOk at h1
  split at h1
  · rename_i d' hd'
    rw [hd', sameList_spec h1]
  · simp at h1

end Verif

import Verif.Lemmas.NfcClasses
/-!
# The classes of code points in the shipped NFC data (C92) and the lengths of its decompositions (C93)
-/
namespace Verif.Normalizer2.Props
open Verif Verif.Spec
set_option maxRecDepth 100000

/-- C92. With the normalizer made from the shipped data, the value of every code point tells what it is: a leading consonant jamo, a
vowel or trailing consonant jamo, a Hangul syllable without or with trailing consonant. Lead surrogates are inert. -/
theorem nfc_hangul_classes {n : Normalizer2} (hn : createFromHardCodedData = .ok n) {c : Nat} (hc : c ≤ 0x10FFFF) :
    ∃ v, n.getNorm16 c = .ok v ∧
      (isJamoL v = true ↔ 0x1100 ≤ c ∧ c ≤ 0x1112) ∧
      (isJamoVT v = true ↔ (0x1161 ≤ c ∧ c ≤ 0x1175) ∨ (0x11A8 ≤ c ∧ c ≤ 0x11C2)) ∧
      (n.isHangulLV v = true ↔ (0xAC00 ≤ c ∧ c ≤ 0xD7A3) ∧ (c - 0xAC00) % 28 = 0) ∧
      (n.isHangulLVT v = true ↔ (0xAC00 ≤ c ∧ c ≤ 0xD7A3) ∧ (c - 0xAC00) % 28 ≠ 0) ∧
      (0xD800 ≤ c ∧ c ≤ 0xDBFF → isInert v = true) := by
  rw [nfc_created] at hn
  cases hn
  refine ⟨_, nfc_norm16 hc, ?_⟩
  have h1 := nfc_jamo hc
  have h2 := nfc_syllables hc
  simp only [isJamoL, isJamoVT, isHangulLV, isHangulLVT, isInert, decide_eq_true_eq]
  have e1 : nfc.minYesNo = 0xAE2 := rfl
  have e2 : nfc.hangulLVT = 0x1289 := rfl
  rw [e1, e2]
  unfold JAMO_L JAMO_VT INERT
  by_cases hs : 0xD800 ≤ c ∧ c ≤ 0xDBFF
  · rw [if_pos hs]
    omega
  · rw [if_neg hs]
    exact ⟨h1.1, h1.2, h2.1, h2.2, fun h => absurd h hs⟩

example : ∃ n, createFromHardCodedData = .ok n := ⟨_, nfc_created⟩

/-- C92. An inert code point has no decomposition. -/
theorem nfc_inert {n : Normalizer2} (hn : createFromHardCodedData = .ok n) {c v : Nat} (hv : n.getNorm16 c = .ok v)
    (hi : isInert v = true) : n.getDecomposition c = .ok none ∧ n.getRawDecomposition c = .ok none := by
  rw [nfc_created] at hn
  cases hn
  have hi : v = 1 := of_decide_eq_true hi
  subst hi
  rw [full_unfold hv, raw_unfold hv, if_pos (c := c < 0xC0 ∨ 1 < 0xAE2 ∨ 0xFC00 ≤ 1) (.inr (.inl (by omega)))]
  refine ⟨?_, rfl⟩
  split
  · rfl
  · rw [if_neg (by omega), if_pos (by omega)]

example : nfc.getNorm16 0x4E00 = .ok 1 := by decide +kernel

/-- C93. With the normalizer made from the shipped data, the raw decomposition of every code point has one or two code points and
its full decomposition one to four. -/
theorem nfc_lengths {n : Normalizer2} (hn : createFromHardCodedData = .ok n) {c : Nat} (hc : c ≤ 0x10FFFF) :
    (∀ r, n.getRawDecomposition c = .ok (some r) → r.length = 1 ∨ r.length = 2) ∧
    (∀ d, n.getDecomposition c = .ok (some d) → 1 ≤ d.length ∧ d.length ≤ 4) := by
  rw [nfc_created] at hn
  cases hn
  have hs := nfc_short hc
  rcases good hc with ⟨h1, h2⟩ | ⟨d', r', h1, h2, h3, h4, _⟩
  · rw [h1, h2]
    constructor <;> intro d h <;> simp at h
  · refine ⟨fun r h => ?_, fun d h => ⟨?_, hs.1 d h⟩⟩
    · have := hs.2 r h
      rw [h2] at h
      cases h
      have := List.length_pos_iff.mpr h4
      omega
    · rw [h1] at h
      cases h
      exact List.length_pos_iff.mpr h3

/-- Both bounds are met. -/
example : nfc.getDecomposition 0x1FA7 = .ok (some [0x3C9, 0x314, 0x342, 0x345]) ∧ nfc.getRawDecomposition 0x1FA7 = .ok (some [0x1F67, 0x345]) ∧
    nfc.getRawDecomposition 0x2126 = .ok (some [0x3A9]) := by decide +kernel

end Verif.Normalizer2.Props

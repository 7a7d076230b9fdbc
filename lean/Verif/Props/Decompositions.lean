import Verif.Lemmas.NfcLists
import Verif.Props.Normalizer2
/-! # Canonical decompositions and classes of the shipped NFC data are those of the standard (C112, C113) -/
namespace Verif.Normalizer2.Props
open Verif Verif.Spec Verif.Data

/-- C112. For every code point, `getRawDecomposition` returns its canonical decomposition mapping of Unicode 13.0, or `None` if it
has none. -/
theorem raw_map {n : Normalizer2} (hn : createFromHardCodedData = .ok n) {c : Nat} (hc : c ≤ 0x10FFFF) :
    n.getRawDecomposition c = .ok (standardRaw c) := by
  rw [nfc_created] at hn
  have hn := Except.ok.inj hn
  subst hn
  by_cases hh : 0xAC00 ≤ c ∧ c ≤ 0xD7A3
  · obtain ⟨l, v, t, hl, hv, ht, hs⟩ := hangul_split hh.1 hh.2
    have h2 := (nfc_hangul hl hv ht).2
    rw [← hs] at h2
    rw [h2]
    unfold standardRaw hangulJamos hangulSyllable
    unfold hangulSyllable at hs
    rw [if_pos hh, if_pos rfl]
    dsimp only
    by_cases h0 : t = 0
    · rw [if_pos h0, if_pos (by omega), show (c - 0xAC00) / 588 = l by omega, show (c - 0xAC00) % 588 / 28 = v by omega]
    · rw [if_neg h0, if_neg (by omega), show (c - 0xAC00) % 28 = t by omega, show 0xAC00 + (l * 21 + v) * 28 + 0 = c - t by omega]
  · cases hs : standardRaw c with
    | some d =>
      unfold standardRaw at hs
      rw [if_neg hh] at hs
      exact nfc_listed hs
    | none =>
      obtain ⟨_, r, hr⟩ := nfc_total.2 c hc
      have hv := (nfc_value hc (nfc_norm16 hc)).1
      rw [decomposing_iff, hs] at hv
      rw [raw_unfold (nfc_norm16 hc), if_pos]
      have h1 := fun h => hv.2 h rfl
      revert h1
      generalize (if 0xD800 ≤ c ∧ c ≤ 0xDBFF then 1 else nfcTrie.val c) = v
      intro h1
      by_cases h2 : 0xAE2 ≤ v ∧ v < 0xFC00
      · exact absurd h2 h1
      · omega

set_option exponentiation.threshold 200000 in
/-- The data and the standard agree also on numbers that are no code points: there is no decomposition. -/
theorem nfcRaw_standard : nfcRaw = standardRaw := by
  funext c
  by_cases hc : c ≤ 0x10FFFF
  · exact nfcRaw_of (raw_map nfc_created hc)
  · have h1 : nfc.getNorm16 c = .ok 1 := by
      unfold Normalizer2.getNorm16
      split
      · rfl
      · show nfcTrie.get c = _
        rw [CPTrie.represents_get_error nfc_ok.represents c (by omega)]
        have : nfcTrie.data.at' (nfcTrie.data.size - 1) = 1 := by decide +kernel
        rw [this]
    have h2 : nfc.getRawDecomposition c = .ok none := by
      rw [raw_unfold h1, if_pos (by omega)]
    rw [nfcRaw_of h2]
    have h3 : ¬ decomposing.testBit c = true := by
      have h := nfc_scanAll
      unfold scanAll at h
      rw [force_eq, force_eq, force_eq, Bool.and_eq_true, Nat.blt_eq] at h
      generalize decomposing = D at *
      generalize backward = M at *
      generalize forward = F at *
      have hz : ((D ||| (M ||| F)) : Nat).testBit c = false :=
        Nat.testBit_lt_two_pow (Nat.lt_of_lt_of_le h.2 (Nat.pow_le_pow_right (by decide) (by omega)))
      rw [Nat.testBit_or, Bool.or_eq_false_iff] at hz
      simp [hz.1]
    rw [decomposing_iff] at h3
    exact (Classical.not_not.mp h3).symm

/-- C112. For every code point, `getDecomposition` returns its full canonical decomposition: what is left when the mappings of
the standard are applied as long as one applies. It returns `None` if there is no mapping for the code point. -/
theorem full_map {n : Normalizer2} (hn : createFromHardCodedData = .ok n) {c : Nat} (hc : c ≤ 0x10FFFF) :
    (standardRaw c = none → n.getDecomposition c = .ok none) ∧
    (standardRaw c ≠ none → ∃ d, n.getDecomposition c = .ok (some d) ∧ Expands standardRaw [c] d ∧
      ∀ e, Expands standardRaw [c] e → e = d) := by
  have hr := raw_map hn hc
  rw [nfc_created] at hn
  have hn := Except.ok.inj hn
  subst hn
  constructor
  · intro h
    rw [(nfc_expansion hc []).2, hr, h]
  · intro h
    obtain ⟨⟨d, hd⟩, _⟩ := nfc_total.2 c hc
    cases d with
    | none => rw [(nfc_expansion hc []).2, hr] at hd; exact absurd (Except.ok.inj hd) h
    | some d =>
      have he := ((nfc_expansion hc d).1.2 (.inl hd))
      rw [nfcRaw_standard] at he
      exact ⟨d, hd, he, fun e h => expands_unique h he⟩

example : standardRaw 0x1E69 = some [0x1E63, 0x307] ∧ standardRaw 0x1E63 = some [0x73, 0x323] ∧
    nfc.getDecomposition 0x1E69 = .ok (some [0x73, 0x323, 0x307]) ∧ standardRaw 0x212B = some [0xC5] ∧
    standardRaw 0xAC01 = some [0xAC00, 0x11A8] ∧ standardRaw 0x41 = none := by
  decide +kernel

/-- C113. The classes of `getNorm16(c)`. Decomposition leaves a code point alone exactly if the standard has no mapping for it
(`isDecompYes`). `isMaybeOrNonZeroCC` holds exactly for the code points without mapping that have a combining class or are the
second part of a composition. `isInert` holds exactly for the code points that take no part in normalization: no
mapping, combining class 0, no part of a composition. -/
theorem class_maps {n : Normalizer2} (hn : createFromHardCodedData = .ok n) {c v : Nat} (hc : c ≤ 0x10FFFF) (hv : n.getNorm16 c = .ok v) :
    (n.isDecompYes v = true ↔ standardRaw c = none) ∧
    (n.isMaybeOrNonZeroCC v = true ↔ standardRaw c = none ∧ (Combining c ∨ (∃ x a, Composite x a c) ∨
      (0x1161 ≤ c ∧ c ≤ 0x1175) ∨ (0x11A8 ≤ c ∧ c ≤ 0x11C2))) ∧
    (isInert v = true ↔ standardRaw c = none ∧ ¬ Combining c ∧ (∀ x y, ¬ Composite x y c ∧ ¬ Composite x c y) ∧
      ¬ ((0x1100 ≤ c ∧ c ≤ 0x1112) ∨ (0x1161 ≤ c ∧ c ≤ 0x1175) ∨ (0x11A8 ≤ c ∧ c ≤ 0x11C2))) := by
  rw [nfc_created] at hn
  have hn := Except.ok.inj hn
  subst hn
  obtain ⟨h1, h2, h3⟩ := nfc_value hc hv
  have hd : decomposing.testBit c = false ↔ standardRaw c = none := by
    rw [← Bool.not_eq_true, decomposing_iff, Classical.not_not]
  have hf : ∀ b : Bool, b = false ↔ ¬ b = true := by decide
  refine ⟨?_, ?_, ?_⟩
  · rw [← hd, ← Bool.not_eq_true, h1]
    simp only [isDecompYes, decide_eq_true_eq]
    show v < 0xAE2 ∨ 0xFC00 ≤ v ↔ _
    omega
  · rw [← hd, ← backward_iff, ← h2]
    simp only [isMaybeOrNonZeroCC, decide_eq_true_eq]
    exact Iff.rfl
  · rw [isInert, decide_eq_true_eq, INERT]
    rw [h3, hd, hf, hf, backward_iff, forward_iff]
    constructor
    · rintro ⟨a, b, d⟩
      refine ⟨a, fun h => b (.inl h), fun x y => ⟨fun h => b (.inr (.inl ⟨x, y, h⟩)), fun h => d (.inl ⟨x, y, h⟩)⟩, ?_⟩
      rintro (h | h)
      · exact d (.inr h)
      · exact b (.inr (.inr h))
    · rintro ⟨a, b, d, e⟩
      refine ⟨a, ?_, ?_⟩
      · rintro (h | ⟨x, y, h⟩ | h)
        · exact b h
        · exact (d x y).1 h
        · exact e (.inr h)
      · rintro (⟨x, y, h⟩ | h)
        · exact (d x y).2 h
        · exact e (.inl h)

/-- U+0301 combines with what is before it and has a combining class; U+0915 is excluded from composition with U+093C. -/
example : (0xE9, [0x65, 0x301]) ∈ decompositionGroups.flatten ∧ (0x958, [0x915, 0x93C]) ∈ decompositionGroups.flatten ∧
    0x958 ∈ compositionExclusions ∧ (nfc.getNorm16 0x301).toOption.map nfc.isMaybeOrNonZeroCC = some true ∧
    (nfc.getNorm16 0x4E00).toOption.map isInert = some true := by
  decide +kernel

end Verif.Normalizer2.Props

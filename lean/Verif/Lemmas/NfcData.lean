import Verif.Lemmas.NfcScan
/-! # Decompositions with the shipped NFC data -/
namespace Verif
open Verif.Data Verif.CPTrie Verif.Spec
set_option maxRecDepth 100000

theorem nfc_null : ∀ j < 16, nfcTrie.data.at' (0x226 + j) = 1 := by decide +kernel
theorem nfc_high : nfcTrie.data.at' (nfcTrie.data.size - 2) = 1 := by decide +kernel

theorem nfc_checkC {c : Nat} (hc : c ≤ 0x10FFFF) : checkC c (nfcTrie.val c) = true := by
  have h1 : ∀ c, ¬ (0xAC00 ≤ c ∧ c ≤ 0xD7A3) → checkC c 1 = true := by
    intro c h
    have : and (Nat.ble 0xAC00 c) (Nat.ble c 0xD7A3) = false := by
      rw [← Bool.not_eq_true, Bool.and_eq_true, Nat.ble_eq, Nat.ble_eq]; exact h
    unfold checkC
    rw [this]
    rfl
  have hhs : nfcTrie.highStart = 0x2FC00 := rfl
  by_cases h : c < 0x2FC00
  · have hv : nfcTrie.val c = nfcTrie.data.at' (nfcTrie.blk (c / 16) + c % 16) := by
      unfold val; rw [if_pos (by rw [hhs]; exact h)]
    have h2 := allB_range nfc_scan (lo := 0) (hi := 16384) rfl rfl (c / 16) (by omega) (by omega)
    unfold scanC at h2
    rw [force_eq] at h2
    simp only [Bool.or_eq_true, Bool.and_eq_true, Nat.ble_eq, Nat.blt_eq, Nat.beq_eq] at h2
    rcases h2 with h2 | ⟨h2, h3⟩ | h2
    · omega
    · rw [hv, h2, nfc_null (c % 16) (by omega)]
      exact h1 c (by omega)
    · have h3 := allB_range h2 (lo := 0) (hi := 16) rfl rfl (c % 16) (by omega) (by omega)
      rw [force_eq, force_eq, show Nat.add (Nat.mul 16 (c / 16)) (c % 16) = c from Nat.div_add_mod c 16] at h3
      rw [hv]
      exact h3
  · have hv : nfcTrie.val c = nfcTrie.data.at' (nfcTrie.data.size - 2) := by
      unfold val; rw [if_neg (by rw [hhs]; exact h)]
    rw [hv, nfc_high]
    exact h1 c (by omega)

theorem nfc_dsize : nfcTrie.data.size = 7892 := rfl

theorem nfc_checkV {c : Nat} : checkV (nfcTrie.val c) = true := by
  have key : ∀ i < 7892, checkV (nfcTrie.data.at' i) = true := by
    intro i hi
    have := allB_range nfc_values (lo := 0) (hi := 8192) rfl rfl i (by omega) (by omega)
    rw [force_eq, Bool.or_eq_true, Nat.ble_eq] at this
    rcases this with h | h
    · omega
    · exact h
  unfold val
  split
  · rename_i h
    have := nfc_ok.block (b := c / 16) (by omega)
    rw [nfc_dsize] at this
    exact key _ (by omega)
  · exact key _ (by rw [nfc_dsize]; omega)

/-- What is to be shown about each code point. -/
def Good (c : Nat) : Prop :=
  (nfc.getDecomposition c = .ok none ∧ nfc.getRawDecomposition c = .ok none) ∨
  ∃ d r, nfc.getDecomposition c = .ok (some d) ∧ nfc.getRawDecomposition c = .ok (some r) ∧ d ≠ [] ∧ r ≠ [] ∧
    (∀ x ∈ d, x ≤ 0x10FFFF ∧ nfc.getDecomposition x = .ok none) ∧ Expands nfcRaw r d

theorem nfcNone_spec {x : Nat} (h : nfcNone x = true) : nfc.getDecomposition x = .ok none := by
  unfold nfcNone at h
  split at h
  · assumption
  · simp at h

theorem nfc_norm16 {c : Nat} (hc : c ≤ 0x10FFFF) :
    nfc.getNorm16 c = .ok (if 0xD800 ≤ c ∧ c ≤ 0xDBFF then 1 else nfcTrie.val c) := by
  unfold Normalizer2.getNorm16
  by_cases h : 0xD800 ≤ c ∧ c ≤ 0xDBFF
  · rw [if_pos h, if_pos ((Normalizer2.isLead_nat c hc).2 h)]; rfl
  · rw [if_neg h, if_neg (fun h' => h ((Normalizer2.isLead_nat c hc).1 h'))]
    exact nfc_get c hc

theorem full_unfold {c v : Nat} (h : nfc.getNorm16 c = .ok v) : nfc.getDecomposition c =
    if c < 0xC0 ∨ 0xFC00 ≤ v then .ok none
    else if 0x3C66 ≤ v then (do
      let c ← chr (nfc.mapAlgorithmic c v)
      let norm16 ← nfc.getRawNorm16 c
      if norm16 < nfc.minYesNo then return some [c] else nfc.mappingOf c norm16)
    else if v < 0xAE2 then .ok none
    else nfc.mappingOf c v := by
  unfold Normalizer2.getDecomposition
  rw [h]
  simp only [Normalizer2.isMaybeOrNonZeroCC, Normalizer2.isDecompNoAlgorithmic, decide_eq_true_eq]
  rfl

theorem raw_unfold {c v : Nat} (h : nfc.getNorm16 c = .ok v) : nfc.getRawDecomposition c =
    if c < 0xC0 ∨ (v < 0xAE2 ∨ 0xFC00 ≤ v) then .ok none
    else if v = 0xAE2 ∨ v = 0x1289 then (do
      let d ← Normalizer2.rawHangulDecomposition c
      return some d)
    else if 0x3C66 ≤ v then (do
      let x ← chr (nfc.mapAlgorithmic c v)
      return some [x])
    else nfc.rawMappingOf v := by
  unfold Normalizer2.getRawDecomposition
  rw [h]
  simp only [Normalizer2.isDecompYes, Normalizer2.isHangulLV, Normalizer2.isHangulLVT, Normalizer2.isDecompNoAlgorithmic,
    decide_eq_true_eq]
  rfl

theorem mapping_unfold (c v : Nat) : nfc.mappingOf c v =
    if v = 0xAE2 ∨ v = 0x1289 then (do
      let d ← Normalizer2.hangulDecomposition c
      return some d)
    else (do
      let ix := Normalizer2.getMappingIndex v
      let firstUnit ← nfc.extraData.getI ix
      let d ← nfc.stringFromData (ix + 1) (firstUnit &&& Normalizer2.MAPPING_LENGTH_MASK : Nat)
      return some d) := by
  unfold Normalizer2.mappingOf
  simp only [Normalizer2.isHangulLV, Normalizer2.isHangulLVT, decide_eq_true_eq]
  rfl

theorem jamo_none : (∀ l < 19, nfc.getDecomposition (0x1100 + l) = .ok none ∧ nfcRaw (0x1100 + l) = none) ∧
    (∀ v < 21, nfc.getDecomposition (0x1161 + v) = .ok none ∧ nfcRaw (0x1161 + v) = none) ∧
    (∀ t < 28, nfc.getDecomposition (0x11A7 + t) = .ok none ∧ nfcRaw (0x11A7 + t) = none) := by decide +kernel

theorem good_algorithmic : Good 0x2000 ∧ Good 0x2001 := by
  refine ⟨.inr ⟨[0x2002], [0x2002], by decide +kernel, by decide +kernel, by simp, by simp, ?_, ?_⟩,
    .inr ⟨[0x2003], [0x2003], by decide +kernel, by decide +kernel, by simp, by simp, ?_, ?_⟩⟩
  · intro x hx
    rw [List.mem_singleton] at hx
    subst hx
    exact ⟨by omega, by decide +kernel⟩
  · exact .keep (by decide +kernel) .nil
  · intro x hx
    rw [List.mem_singleton] at hx
    subst hx
    exact ⟨by omega, by decide +kernel⟩
  · exact .keep (by decide +kernel) .nil

theorem nfc_hangul_raw {l v t : Nat} (hl : l < 19) (hv : v < 21) (ht : t < 28) : nfc.getRawDecomposition (hangulSyllable l v t) =
    .ok (some (if t = 0 then hangulJamos l v 0 else [hangulSyllable l v 0, 0x11A7 + t])) ∧
    nfc.getDecomposition (hangulSyllable l v t) = .ok (some (hangulJamos l v t)) := by
  have h1 : 0xAC00 ≤ hangulSyllable l v t ∧ hangulSyllable l v t ≤ 0xD7A3 := by unfold hangulSyllable; omega
  have hn := nfc_norm16 (c := hangulSyllable l v t) (by omega)
  rw [if_neg (by omega)] at hn
  have hc := nfc_checkC (c := hangulSyllable l v t) (by omega)
  generalize hval : nfcTrie.val (hangulSyllable l v t) = w at *
  have hw : w = 0xAE2 ∨ w = 0x1289 := by
    unfold checkC at hc
    have : and (Nat.ble 0xAC00 (hangulSyllable l v t)) (Nat.ble (hangulSyllable l v t) 0xD7A3) = true := by
      rw [Bool.and_eq_true, Nat.ble_eq, Nat.ble_eq]; exact h1
    rw [this] at hc
    simp only [cond_true, Nat.beq_eq] at hc
    cases h : Nat.beq (Nat.mod (Nat.sub (hangulSyllable l v t) 0xAC00) 28) 0 with
    | true => rw [h] at hc; exact .inl hc
    | false => rw [h] at hc; exact .inr hc
  refine ⟨?_, ?_⟩
  · rw [raw_unfold hn, if_neg (by omega), if_pos hw, Normalizer2.hangul_raw hl hv ht]; rfl
  · rw [full_unfold hn, if_neg (by omega), if_neg (by omega), if_neg (by omega), mapping_unfold, if_pos hw,
      Normalizer2.hangul_full hl hv ht]
    rfl

theorem nfcRaw_of {c : Nat} {o : Option Str} (h : nfc.getRawDecomposition c = .ok o) : nfcRaw c = o := by
  unfold nfcRaw
  rw [h]
  rfl

theorem good_hangul {l v t : Nat} (hl : l < 19) (hv : v < 21) (ht : t < 28) : Good (hangulSyllable l v t) := by
  obtain ⟨h1, h2⟩ := nfc_hangul_raw hl hv ht
  obtain ⟨jl, jv, jt⟩ := jamo_none
  have hLV : Expands nfcRaw (hangulJamos l v 0) (hangulJamos l v 0) := .keep (jl l hl).2 (.keep (jv v hv).2 .nil)
  refine .inr ⟨_, _, h2, h1, ?_, ?_, ?_, ?_⟩
  · unfold hangulJamos; split <;> simp
  · unfold hangulJamos; split <;> simp
  · intro x hx
    have : x = 0x1100 + l ∨ x = 0x1161 + v ∨ x = 0x11A7 + t := by
      unfold hangulJamos at hx
      split at hx
      · simp only [List.mem_cons, List.not_mem_nil, or_false] at hx; omega
      · simp only [List.mem_cons, List.not_mem_nil, or_false] at hx; omega
    rcases this with rfl | rfl | rfl
    · exact ⟨by omega, (jl l hl).1⟩
    · exact ⟨by omega, (jv v hv).1⟩
    · exact ⟨by omega, (jt t ht).1⟩
  · by_cases h : t = 0
    · subst h; exact hLV
    · rw [if_neg h]
      have hr := nfcRaw_of (nfc_hangul_raw hl hv (t := 0) (by omega)).1
      rw [if_pos rfl] at hr
      have : hangulJamos l v t = hangulJamos l v 0 ++ [0x11A7 + t] := by
        unfold hangulJamos; rw [if_neg h, if_pos rfl]; rfl
      rw [this]
      exact .replace hr (expands_append hLV (.keep (jt t ht).2 .nil))

theorem good {c : Nat} (hc : c ≤ 0x10FFFF) : Good c := by
  have hn := nfc_norm16 hc
  generalize hw : (if 0xD800 ≤ c ∧ c ≤ 0xDBFF then 1 else nfcTrie.val c) = w at hn
  by_cases hA : c < 0xC0 ∨ (w < 0xAE2 ∨ 0xFC00 ≤ w)
  · refine .inl ⟨?_, by rw [raw_unfold hn, if_pos hA]⟩
    rw [full_unfold hn]
    by_cases h1 : c < 0xC0 ∨ 0xFC00 ≤ w
    · rw [if_pos h1]
    · rw [if_neg h1, if_neg (by omega), if_pos (by omega)]
  by_cases hL : 0xD800 ≤ c ∧ c ≤ 0xDBFF
  · rw [if_pos hL] at hw; omega
  rw [if_neg hL] at hw
  have h1 := nfc_checkC hc
  have h2 := nfc_checkV (c := c)
  rw [hw] at h1 h2
  by_cases hH : 0xAC00 ≤ c ∧ c ≤ 0xD7A3
  · obtain ⟨l, v, t, hl, hv, ht, rfl⟩ := Normalizer2.hangul_split hH.1 hH.2
    exact good_hangul hl hv ht
  unfold checkC at h1
  have e : and (Nat.ble 0xAC00 c) (Nat.ble c 0xD7A3) = false := by
    rw [← Bool.not_eq_true, Bool.and_eq_true, Nat.ble_eq, Nat.ble_eq]; exact hH
  rw [e] at h1
  simp only [cond_false, Bool.and_eq_true, Bool.or_eq_true, Bool.not_eq_true', Nat.ble_eq, Nat.blt_eq, Nat.beq_eq] at h1
  rw [← Bool.not_eq_true, ← Bool.not_eq_true, Nat.beq_eq, Nat.beq_eq] at h1
  by_cases hG : 0x3C66 ≤ w
  · have : c = 0x2000 ∨ c = 0x2001 := by omega
    rcases this with rfl | rfl
    · exact good_algorithmic.1
    · exact good_algorithmic.2
  · unfold checkV at h2
    simp only [Bool.or_eq_true, Nat.ble_eq, Nat.blt_eq, Nat.beq_eq] at h2
    rcases h2 with (h2 | h2) | (h2 | h2) | h2
    · omega
    · omega
    · exact absurd h2 h1.1
    · exact absurd h2 h1.2.1
    · have hm : nfc.mappingOf c w = nfc.mappingOf 0 w := by
        rw [mapping_unfold, mapping_unfold, if_neg (by omega), if_neg (by omega)]
      have hf : nfc.getDecomposition c = nfc.mappingOf 0 w := by
        rw [full_unfold hn, if_neg (by omega), if_neg (by omega), if_neg (by omega), hm]
      have hr : nfc.getRawDecomposition c = nfc.rawMappingOf w := by
        rw [raw_unfold hn, if_neg (by omega), if_neg (by omega), if_neg (by omega)]
      split at h2
      · rename_i d r hd hr'
        rw [hd] at hf
        rw [hr'] at hr
        simp only [Bool.and_eq_true, List.all_eq_true, Nat.ble_eq, Bool.not_eq_true', List.isEmpty_eq_false_iff] at h2
        refine .inr ⟨d, r, hf, hr, h2.2.1, h2.2.2.1, fun x hx => ⟨(h2.1 x hx).1, nfcNone_spec (h2.1 x hx).2⟩, ?_⟩
        have h3 := h2.2.2.2
        split at h3
        · rename_i e he
          have := eq_of_beq h3
          subst this
          exact expandN_sound _ _ _ he
        · simp at h3
      · simp at h2

end Verif

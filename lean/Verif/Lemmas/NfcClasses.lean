import Verif.Lemmas.NfcData
/-! # The classes of the shipped NFC data, and the lengths of its mappings -/
namespace Verif
open Verif.Data Verif.CPTrie Verif.Spec
set_option maxRecDepth 100000

/-- The check of one code point: the two values of jamos belong to the modern jamos. -/
noncomputable def checkJ (c v : Nat) : Bool :=
  and (cond (and (Nat.ble 0x1100 c) (Nat.ble c 0x1112)) (Nat.beq v 2) (not (Nat.beq v 2)))
    (cond (or (and (Nat.ble 0x1161 c) (Nat.ble c 0x1175)) (and (Nat.ble 0x11A8 c) (Nat.ble c 0x11C2))) (Nat.beq v 0xFE00)
      (not (Nat.beq v 0xFE00)))

/-- The null block is skipped outside the jamos. -/
noncomputable def scanJ (b : Nat) : Bool :=
  or (Nat.ble 12224 b) (force (nfcTrie.blk b) fun p => or (and (Nat.beq p 0x226) (or (Nat.blt b 0x110) (Nat.blt 0x11C b)))
    (allB (fun j => force (Nat.add (Nat.mul 16 b) j) fun c => force (nfcTrie.data.at' (Nat.add p j)) fun v => checkJ c v) 4 0))

theorem nfc_scanJ : allB scanJ 14 0 = true := by decide +kernel

theorem nfc_checkJ {c : Nat} (hc : c ≤ 0x10FFFF) : checkJ c (nfcTrie.val c) = true := by
  have h1 : ∀ c, ¬ (0x1100 ≤ c ∧ c ≤ 0x11CF) → checkJ c 1 = true := by
    intro c h
    have e1 : and (Nat.ble 0x1100 c) (Nat.ble c 0x1112) = false := by
      rw [← Bool.not_eq_true, Bool.and_eq_true, Nat.ble_eq, Nat.ble_eq]; omega
    have e2 : or (and (Nat.ble 0x1161 c) (Nat.ble c 0x1175)) (and (Nat.ble 0x11A8 c) (Nat.ble c 0x11C2)) = false := by
      rw [← Bool.not_eq_true, Bool.or_eq_true, Bool.and_eq_true, Bool.and_eq_true, Nat.ble_eq, Nat.ble_eq, Nat.ble_eq, Nat.ble_eq]; omega
    unfold checkJ
    rw [e1, e2]
    rfl
  have hhs : nfcTrie.highStart = 0x2FC00 := rfl
  by_cases h : c < 0x2FC00
  · have hv : nfcTrie.val c = nfcTrie.data.at' (nfcTrie.blk (c / 16) + c % 16) := by
      unfold val; rw [if_pos (by rw [hhs]; exact h)]
    have h2 := allB_range nfc_scanJ (lo := 0) (hi := 16384) rfl rfl (c / 16) (by omega) (by omega)
    unfold scanJ at h2
    rw [force_eq] at h2
    simp only [Bool.or_eq_true, Bool.and_eq_true, Nat.ble_eq, Nat.blt_eq, Nat.beq_eq] at h2
    rcases h2 with h2 | ⟨h2, h3⟩ | h2
    · omega
    · rw [hv, h2, nfc_null (c % 16) (by omega)]
      exact h1 c (by omega)
    · have h3 := allB_range h2 (lo := 0) (hi := 16) rfl rfl (c % 16) (by omega) (by omega)
      rw [force_eq, force_eq, show Nat.add (Nat.mul 16 (c / 16)) (c % 16) = c from Nat.div_add_mod c 16] at h3
      rw [hv]
      exact h3
  · have hv : nfcTrie.val c = nfcTrie.data.at' (nfcTrie.data.size - 2) := by
      unfold val; rw [if_neg (by rw [hhs]; exact h)]
    rw [hv, nfc_high]
    exact h1 c (by omega)

theorem nfc_jamo {c : Nat} (hc : c ≤ 0x10FFFF) : (nfcTrie.val c = 2 ↔ 0x1100 ≤ c ∧ c ≤ 0x1112) ∧
    (nfcTrie.val c = 0xFE00 ↔ (0x1161 ≤ c ∧ c ≤ 0x1175) ∨ (0x11A8 ≤ c ∧ c ≤ 0x11C2)) := by
  have h := nfc_checkJ hc
  unfold checkJ at h
  rw [Bool.and_eq_true] at h
  obtain ⟨h1, h2⟩ := h
  constructor
  · by_cases hx : 0x1100 ≤ c ∧ c ≤ 0x1112
    · have e1 : and (Nat.ble 0x1100 c) (Nat.ble c 0x1112) = true := by
        rw [Bool.and_eq_true, Nat.ble_eq, Nat.ble_eq]; exact hx
      rw [e1, cond_true, Nat.beq_eq] at h1
      simp [h1, hx]
    · have e1 : and (Nat.ble 0x1100 c) (Nat.ble c 0x1112) = false := by
        rw [← Bool.not_eq_true, Bool.and_eq_true, Nat.ble_eq, Nat.ble_eq]; exact hx
      rw [e1, cond_false, Bool.not_eq_true', ← Bool.not_eq_true, Nat.beq_eq] at h1
      simp [h1, hx]
  · by_cases hx : (0x1161 ≤ c ∧ c ≤ 0x1175) ∨ (0x11A8 ≤ c ∧ c ≤ 0x11C2)
    · have e1 : or (and (Nat.ble 0x1161 c) (Nat.ble c 0x1175)) (and (Nat.ble 0x11A8 c) (Nat.ble c 0x11C2)) = true := by
        rw [Bool.or_eq_true, Bool.and_eq_true, Bool.and_eq_true, Nat.ble_eq, Nat.ble_eq, Nat.ble_eq, Nat.ble_eq]; exact hx
      rw [e1, cond_true, Nat.beq_eq] at h2
      simp only [h2, hx]
    · have e1 : or (and (Nat.ble 0x1161 c) (Nat.ble c 0x1175)) (and (Nat.ble 0x11A8 c) (Nat.ble c 0x11C2)) = false := by
        rw [← Bool.not_eq_true, Bool.or_eq_true, Bool.and_eq_true, Bool.and_eq_true, Nat.ble_eq, Nat.ble_eq, Nat.ble_eq, Nat.ble_eq]; exact hx
      rw [e1, cond_false, Bool.not_eq_true', ← Bool.not_eq_true, Nat.beq_eq] at h2
      simp only [h2, hx]

theorem nfc_syllables {c : Nat} (hc : c ≤ 0x10FFFF) :
    (nfcTrie.val c = 0xAE2 ↔ (0xAC00 ≤ c ∧ c ≤ 0xD7A3) ∧ (c - 0xAC00) % 28 = 0) ∧
    (nfcTrie.val c = 0x1289 ↔ (0xAC00 ≤ c ∧ c ≤ 0xD7A3) ∧ (c - 0xAC00) % 28 ≠ 0) := by
  have h := nfc_checkC hc
  unfold checkC at h
  by_cases hx : 0xAC00 ≤ c ∧ c ≤ 0xD7A3
  · have e1 : and (Nat.ble 0xAC00 c) (Nat.ble c 0xD7A3) = true := by
      rw [Bool.and_eq_true, Nat.ble_eq, Nat.ble_eq]; exact hx
    rw [e1, cond_true, Nat.beq_eq] at h
    have hm : Nat.mod (Nat.sub c 0xAC00) 28 = (c - 0xAC00) % 28 := rfl
    rw [hm] at h
    by_cases h0 : (c - 0xAC00) % 28 = 0
    · rw [h0] at h
      have h : nfcTrie.val c = 0xAE2 := h
      simp [h, hx, h0]
    · have e2 : Nat.beq ((c - 0xAC00) % 28) 0 = false := by rw [← Bool.not_eq_true, Nat.beq_eq]; exact h0
      rw [e2, cond_false] at h
      simp [h, hx, h0]
  · have e1 : and (Nat.ble 0xAC00 c) (Nat.ble c 0xD7A3) = false := by
      rw [← Bool.not_eq_true, Bool.and_eq_true, Nat.ble_eq, Nat.ble_eq]; exact hx
    rw [e1] at h
    simp only [cond_false, Bool.and_eq_true, Bool.not_eq_true'] at h
    have h1 := h.1
    have h2 := h.2.1
    rw [← Bool.not_eq_true, Nat.beq_eq] at h1 h2
    exact ⟨⟨fun h => absurd h h1, fun h => absurd h.1 hx⟩, ⟨fun h => absurd h h2, fun h => absurd h.1 hx⟩⟩

/-- The mappings of a value have at most four, the raw ones at most two code points. -/
noncomputable def checkL (v : Nat) : Bool :=
  or (or (Nat.blt v 0xAE2) (Nat.ble 0x3C66 v)) (or (or (Nat.beq v 0xAE2) (Nat.beq v 0x1289))
    (match nfc.mappingOf 0 v, nfc.rawMappingOf v with
     | .ok (some d), .ok (some r) => and (Nat.ble d.length 4) (Nat.ble r.length 2)
     | _, _ => false))

theorem nfc_valuesL : allB (fun i => or (Nat.ble 7892 i) (force (nfcTrie.data.at' i) checkL)) 13 0 = true := by decide +kernel

theorem nfc_checkL {c : Nat} : checkL (nfcTrie.val c) = true := by
  have key : ∀ i < 7892, checkL (nfcTrie.data.at' i) = true := by
    intro i hi
    have := allB_range nfc_valuesL (lo := 0) (hi := 8192) rfl rfl i (by omega) (by omega)
    rw [force_eq, Bool.or_eq_true, Nat.ble_eq] at this
    rcases this with h | h
    · omega
    · exact h
  unfold val
  split
  · rename_i h
    have := nfc_ok.block (b := c / 16) (by omega)
    rw [nfc_dsize] at this
    exact key _ (by omega)
  · exact key _ (by rw [nfc_dsize]; omega)

theorem nfc_short {c : Nat} (hc : c ≤ 0x10FFFF) : (∀ d, nfc.getDecomposition c = .ok (some d) → d.length ≤ 4) ∧
    ∀ r, nfc.getRawDecomposition c = .ok (some r) → r.length ≤ 2 := by
  have hn := nfc_norm16 hc
  generalize hw : (if 0xD800 ≤ c ∧ c ≤ 0xDBFF then 1 else nfcTrie.val c) = w at hn
  by_cases hA : c < 0xC0 ∨ (w < 0xAE2 ∨ 0xFC00 ≤ w)
  · have h1 : nfc.getDecomposition c = .ok none := by
      rw [full_unfold hn]
      by_cases h1 : c < 0xC0 ∨ 0xFC00 ≤ w
      · rw [if_pos h1]
      · rw [if_neg h1, if_neg (by omega), if_pos (by omega)]
    have h2 : nfc.getRawDecomposition c = .ok none := by rw [raw_unfold hn, if_pos hA]
    rw [h1, h2]
    constructor <;> intro d h <;> simp at h
  by_cases hL : 0xD800 ≤ c ∧ c ≤ 0xDBFF
  · rw [if_pos hL] at hw; omega
  rw [if_neg hL] at hw
  by_cases hH : 0xAC00 ≤ c ∧ c ≤ 0xD7A3
  · obtain ⟨l, v, t, hl, hv, ht, rfl⟩ := Normalizer2.hangul_split hH.1 hH.2
    obtain ⟨h1, h2⟩ := nfc_hangul_raw hl hv ht
    rw [h1, h2]
    constructor
    · intro d h
      simp only [Except.ok.injEq, Option.some.injEq] at h
      subst h
      unfold hangulJamos
      split <;> simp
    · intro r h
      simp only [Except.ok.injEq, Option.some.injEq] at h
      subst h
      unfold hangulJamos
      split <;> simp
  have hS := nfc_syllables hc
  have h1 := nfc_checkC hc
  have h2 := nfc_checkL (c := c)
  rw [hw] at h1 h2 hS
  unfold checkC at h1
  have e : and (Nat.ble 0xAC00 c) (Nat.ble c 0xD7A3) = false := by
    rw [← Bool.not_eq_true, Bool.and_eq_true, Nat.ble_eq, Nat.ble_eq]; exact hH
  rw [e] at h1
  simp only [cond_false, Bool.and_eq_true, Bool.or_eq_true, Bool.not_eq_true', Nat.ble_eq, Nat.blt_eq, Nat.beq_eq] at h1
  rw [← Bool.not_eq_true, ← Bool.not_eq_true, Nat.beq_eq, Nat.beq_eq] at h1
  by_cases hG : 0x3C66 ≤ w
  · have : c = 0x2000 ∨ c = 0x2001 := by omega
    have ha : nfc.getDecomposition 0x2000 = .ok (some [0x2002]) := by decide +kernel
    have hb : nfc.getDecomposition 0x2001 = .ok (some [0x2003]) := by decide +kernel
    have ha' : nfc.getRawDecomposition 0x2000 = .ok (some [0x2002]) := by decide +kernel
    have hb' : nfc.getRawDecomposition 0x2001 = .ok (some [0x2003]) := by decide +kernel
    rcases this with rfl | rfl
    · rw [ha, ha']
      constructor <;> intro d h <;> (simp only [Except.ok.injEq, Option.some.injEq] at h; subst h; simp)
    · rw [hb, hb']
      constructor <;> intro d h <;> (simp only [Except.ok.injEq, Option.some.injEq] at h; subst h; simp)
  · unfold checkL at h2
    simp only [Bool.or_eq_true, Nat.ble_eq, Nat.blt_eq, Nat.beq_eq] at h2
    rcases h2 with (h2 | h2) | (h2 | h2) | h2
    · omega
    · omega
    · exact absurd h2 h1.1
    · exact absurd h2 h1.2.1
    · have hm : nfc.mappingOf c w = nfc.mappingOf 0 w := by
        rw [mapping_unfold, mapping_unfold, if_neg (by omega), if_neg (by omega)]
      have hf : nfc.getDecomposition c = nfc.mappingOf 0 w := by
        rw [full_unfold hn, if_neg (by omega), if_neg (by omega), if_neg (by omega), hm]
      have hr : nfc.getRawDecomposition c = nfc.rawMappingOf w := by
        rw [raw_unfold hn, if_neg (by omega), if_neg (by omega), if_neg (by omega)]
      split at h2
      · rename_i d r hd hr'
        rw [hd] at hf
        rw [hr'] at hr
        simp only [Bool.and_eq_true, Nat.ble_eq] at h2
        rw [hf, hr]
        exact ⟨fun d' h => by cases h; exact h2.1, fun d' h => by cases h; exact h2.2⟩
      · simp at h2

end Verif

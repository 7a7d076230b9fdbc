import Verif.Spec.Trie2
/-! # Lookups in a UTrie2 -/
namespace Verif
open Spec

theorem Arr.get_ok {a : Arr} {i : Nat} (h : i < a.size) : a.get i = .ok (a.at' i) := by
  simp [Arr.get, h]

theorem Arr.get_eq_ok {a : Arr} {i v : Nat} : a.get i = .ok v ↔ i < a.size ∧ a.at' i = v := by
  unfold Arr.get; split <;> simp_all <;> omega

namespace UTrie2

theorem get_bmp (t : UTrie2) (c : Nat) (h : c < 0xD800 ∨ (0xDC00 ≤ c ∧ c < 0x10000)) :
    t.get c = (t.index.get (c / 32)).bind fun e => t.index.get (4 * e + c % 32) := by
  unfold get indexFromCodePoint indexRaw
  simp only [SHIFT_2, INDEX_SHIFT, DATA_BLOCK_LENGTH, LSCP_INDEX_2_OFFSET]
  by_cases h1 : c < 0xD800
  · simp only [h1, if_true, Nat.zero_add]
    cases t.index.get (c / 2 ^ 5) with
    | error e => rfl
    | ok e => simp [bind, pure, Except.bind, Except.pure]; congr 1; omega
  · have h2 : c ≤ 0xFFFF := by omega
    have h3 : c ≥ 0xDC00 := by omega
    simp only [h1, h2, h3, if_true, if_false, Nat.zero_add]
    cases t.index.get (c / 2 ^ 5) with
    | error e => rfl
    | ok e => simp [bind, pure, Except.bind, Except.pure]; congr 1; omega

theorem get_lead (t : UTrie2) (c : Nat) (h : 0xD800 ≤ c) (h' : c < 0xDC00) :
    t.get c = (t.index.get (0x800 + (c - 0xD800) / 32)).bind fun e => t.index.get (4 * e + c % 32) := by
  unfold get indexFromCodePoint indexRaw
  simp only [SHIFT_2, INDEX_SHIFT, DATA_BLOCK_LENGTH, LSCP_INDEX_2_OFFSET]
  have h1 : ¬ c < 0xD800 := by omega
  have h2 : c ≤ 0xFFFF := by omega
  have h3 : ¬ c ≥ 0xDC00 := by omega
  simp only [h1, h2, h3, if_true, if_false]
  have e1 : (65536 / 2 ^ 5 - 55296 / 2 ^ 5 + c / 2 ^ 5) = 2048 + (c - 0xD800) / 32 := by omega
  rw [e1]
  cases t.index.get (2048 + (c - 0xD800) / 32) with
  | error e => rfl
  | ok e => simp [bind, pure, Except.bind, Except.pure]; congr 1; omega

theorem get_supp (t : UTrie2) (c : Nat) (h : 0x10000 ≤ c) (h' : c < 0x10FFFF) (hs : c < t.highStart) :
    t.get c = (t.index.get (2080 + c / 2048)).bind fun i2 => (t.index.get (i2 + c / 32 % 64)).bind fun e =>
      t.index.get (4 * e + c % 32) := by
  unfold get indexFromCodePoint indexFromSupp
  simp only [SHIFT_2, SHIFT_1, SHIFT_1_2, INDEX_SHIFT, DATA_BLOCK_LENGTH, INDEX_1_OFFSET, OMITTED_BMP_INDEX_1_LENGTH,
    UTF8_2B_INDEX_2_OFFSET, UTF8_2B_INDEX_2_LENGTH, INDEX_2_BMP_LENGTH, LSCP_INDEX_2_OFFSET, LSCP_INDEX_2_LENGTH,
    INDEX_2_BLOCK_LENGTH]
  have h1 : ¬ c < 0xD800 := by omega
  have h2 : ¬ c ≤ 0xFFFF := by omega
  have h3 : ¬ c ≥ 0x10FFFF := by omega
  have h4 : ¬ c ≥ t.highStart := by omega
  simp only [h1, h2, h3, h4, if_false]
  have e1 : (65536 / 2 ^ 5 + 1024 / 2 ^ 5 + 2048 / 2 ^ 6 - 65536 / 2 ^ (6 + 5) + c / 2 ^ (6 + 5)) = 2080 + c / 2048 := by
    omega
  rw [e1]
  cases t.index.get (2080 + c / 2048) with
  | error e => rfl
  | ok i2 =>
    simp only [bind, pure, Except.bind, Except.pure]
    have e2 : i2 + c / 2 ^ 5 % 2 ^ (6 + 5 - 5) = i2 + c / 32 % 64 := by omega
    rw [e2]
    cases t.index.get (i2 + c / 32 % 64) with
    | error e => rfl
    | ok e => simp; congr 1; omega

theorem get_high (t : UTrie2) (c : Nat) (h : 0x10000 ≤ c) (h' : c < 0x10FFFF) (hs : t.highStart ≤ c) :
    t.get c = t.index.get t.highValueIndex := by
  unfold get indexFromCodePoint
  have h1 : ¬ c < 0xD800 := by omega
  have h2 : ¬ c ≤ 0xFFFF := by omega
  have h3 : ¬ c ≥ 0x10FFFF := by omega
  have h4 : c ≥ t.highStart := by omega
  simp only [h1, h2, h3, h4, if_false, if_true]
  rfl

theorem get_error (t : UTrie2) (c : Nat) (h : 0x10FFFF ≤ c) :
    t.get c = t.index.get (t.indexLength + 0x80) := by
  unfold get indexFromCodePoint
  have h1 : ¬ c < 0xD800 := by omega
  have h2 : ¬ c ≤ 0xFFFF := by omega
  simp only [h1, h2, h, if_false, if_true, ge_iff_le]
  rfl

theorem represents_get {t : UTrie2} {f : Nat → Nat} {err : Nat} (h : Represents t f err) (c : Nat)
    (hc : c < 0x10FFFF) : t.get c = .ok (f c) := by
  by_cases h1 : c < 0xD800 ∨ (0xDC00 ≤ c ∧ c < 0x10000)
  · obtain ⟨e, he, hj⟩ := h.bmp (c / 32) (by omega) (by omega)
    rw [get_bmp t c h1, he]
    simp only [Except.bind]
    rw [hj (c % 32) (by omega)]
    congr 2; omega
  · by_cases h2 : c < 0xDC00
    · obtain ⟨e, he, hj⟩ := h.lead ((c - 0xD800) / 32) (by omega)
      rw [get_lead t c (by omega) h2, he]
      simp only [Except.bind]
      rw [hj (c % 32) (by omega)]
      congr 2; omega
    · by_cases h3 : c < t.highStart
      · have hal := h.aligned
        obtain ⟨i2, hi, hm⟩ := h.supp (c / 2048) (by omega) (by omega) (by omega)
        obtain ⟨e, he, hj⟩ := hm (c / 32 % 64) (by omega)
        rw [get_supp t c (by omega) hc h3]
        rw [show 2080 + c / 2048 = 2112 + (c / 2048 - 32) by omega, hi]
        simp only [Except.bind]
        rw [he]
        simp only
        rw [hj (c % 32) (by omega)]
        congr 2; omega
      · rw [get_high t c (by omega) hc (by omega)]
        exact h.high c (by omega) (by omega) (by omega)

theorem build_represents (f : Nat → Nat) (err : Nat) : Represents (build f err) f err := by
  have key : ∀ i c0, (c0 % 32 = 0) → c0 < 0x110000 → i < (build f err).index.size →
      (build f err).index.at' i = (if c0 < 0x80 then 35392 + c0 else 35392 + 0x40 + c0) / 4 →
      BlockAt (build f err).index i f c0 := by
    intro i c0 h0 hc hi hat
    refine ⟨_, Arr.get_eq_ok.2 ⟨hi, rfl⟩, ?_⟩
    intro j hj
    rw [Arr.get_eq_ok, hat]
    constructor
    · simp only [build]; split <;> omega
    · simp only [build]
      split
      · rw [if_neg (by omega), if_neg (by omega), if_neg (by omega), if_neg (by omega), if_neg (by omega),
          if_pos (by omega)]
        exact congrArg f (by omega)
      · rw [if_neg (by omega), if_neg (by omega), if_neg (by omega), if_neg (by omega), if_neg (by omega),
          if_neg (by omega), if_neg (by omega)]
        exact congrArg f (by omega)
  constructor
  · intro b hb _
    apply key _ _ (by omega) (by omega) (by simp only [build]; omega)
    simp only [build]; rw [if_pos hb]
  · intro k hk
    apply key _ _ (by omega) (by omega) (by simp only [build]; omega)
    simp only [build]; rw [if_neg (by omega), if_pos (by omega), show 2048 + k - 2048 = k by omega]
  · intro g h1 h2 _
    refine ⟨2624 + 64 * (g - 32), Arr.get_eq_ok.2 ⟨by simp only [build]; omega, ?_⟩, ?_⟩
    · simp only [build]
      rw [if_neg (by omega), if_neg (by omega), if_neg (by omega), if_pos (by omega),
        show 2112 + (g - 32) - 2112 = g - 32 by omega]
    · intro m hm
      apply key _ _ (by omega) (by omega) (by simp only [build]; omega)
      simp only [build]
      rw [if_neg (by omega), if_neg (by omega), if_neg (by omega), if_neg (by omega), if_pos (by omega)]
      rw [show 65536 + 32 * (2624 + 64 * (g - 32) + m - 2624) = 2048 * g + 32 * m by omega]
  · intro c _ h2 h3
    simp only [build] at h2
    omega
  · rw [Arr.get_eq_ok]
    simp [build]
  · simp [build]

end UTrie2
end Verif

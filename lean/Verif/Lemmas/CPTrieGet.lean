import Verif.Spec.CPTrie
import Verif.Lemmas.Trie2Enum
/-! # UCPTrie lookups -/
namespace Verif.CPTrie
open Verif.CPTrie.Spec

theorem and_0x30000 (x : Nat) : x &&& 0x30000 = x / 0x10000 % 4 * 0x10000 := by
  apply Nat.eq_of_testBit_eq
  intro i
  rw [show (0x30000 : Nat) = 3 * 2 ^ 16 by rfl, show (0x10000 : Nat) = 2 ^ 16 by rfl, show (4 : Nat) = 2 ^ 2 by rfl]
  simp only [Nat.testBit_and, Nat.testBit_mul_two_pow, Nat.testBit_mod_two_pow, Nat.testBit_div_two_pow]
  by_cases h : 16 ≤ i
  · simp only [h, decide_true, Bool.true_and]
    obtain ⟨k, rfl⟩ : ∃ k, i = k + 16 := ⟨i - 16, by omega⟩
    simp only [Nat.add_sub_cancel]
    by_cases h2 : k < 2
    · have : k = 0 ∨ k = 1 := by omega
      rcases this with rfl | rfl <;> simp [show Nat.testBit 3 0 = true by decide, show Nat.testBit 3 1 = true by decide]
    · have : Nat.testBit 3 k = false := by
        apply Nat.testBit_lt_two_pow
        have : 2 ^ 2 ≤ 2 ^ k := Nat.pow_le_pow_right (by omega) (by omega)
        omega
      simp [this, h2]
  · simp [h]

theorem or_low {h l : Nat} (hl : l < 0x10000) : h * 0x10000 ||| l = h * 0x10000 + l := by
  have := Nat.shiftLeft_add_eq_or_of_lt (show l < 2 ^ 16 from hl) h
  rw [Nat.shiftLeft_eq] at this
  exact this.symm

theorem and_8000 {e : Nat} (h : e < 0x10000) : (e &&& 0x8000 = 0 ↔ e < 0x8000) ∧ e &&& 0x7FFF = e % 0x8000 := by
  refine ⟨?_, by rw [show (0x7FFF : Nat) = 2 ^ 15 - 1 by rfl, Nat.and_two_pow_sub_one_eq_mod]⟩
  have h1 : e &&& 0x8000 = e / 0x8000 % 2 * 0x8000 := by
    apply Nat.eq_of_testBit_eq
    intro i
    rw [show (0x8000 : Nat) = 2 ^ 15 by rfl]
    rw [show e / 2 ^ 15 % 2 = e / 2 ^ 15 % 2 ^ 1 by rfl]
    simp only [Nat.testBit_and, Nat.testBit_mul_two_pow, Nat.testBit_mod_two_pow, Nat.testBit_div_two_pow, Nat.testBit_two_pow]
    by_cases h : i = 15
    · subst h; simp
    · by_cases h2 : 15 ≤ i
      · have : ¬ i - 15 < 1 := by omega
        simp [this]; intro _; omega
      · simp [h2]; intro _; omega
  rw [h1]
  omega

/-- An index-3 block gives back the positions it stores. -/
theorem blockAt_of_stores {t : CPTrie} {e : Nat} {pos : Nat → Nat} (h : I3Stores t.index e pos) {k : Nat} (hk : k < 32) :
    t.blockAt e k = .ok (pos k) := by
  unfold blockAt
  rcases h with ⟨h1, h2⟩ | ⟨h1, h1', h2⟩
  · rw [if_pos ((and_8000 (by omega)).1.2 h1)]
    exact h2 k hk
  · rw [if_neg (fun hh => by have := (and_8000 h1').1.1 hh; omega), (and_8000 h1').2]
    obtain ⟨hu, hl⟩ := h2 (k / 8) (by omega)
    have hl' := hl (k % 8) (by omega)
    rw [show 8 * (k / 8) + k % 8 = k by omega] at hl'
    have e1 : e % 0x8000 + k / 8 * 8 + k / 2 ^ 3 = e - 0x8000 + 9 * (k / 8) := by
      rw [show (2 : Nat) ^ 3 = 8 by rfl]; omega
    simp only [e1]
    rw [hu, show e - 0x8000 + 9 * (k / 8) + k % 8 + 1 = e - 0x8000 + 9 * (k / 8) + 1 + k % 8 by omega, hl'.2]
    simp only [bind, Except.bind, pure, Except.pure, Except.ok.injEq]
    rw [and_0x30000, or_low (by omega)]
    have hd : ∀ m < 8, pos (8 * (k / 8) + m) / 0x10000 < 4 := fun m hm => by
      have := (hl m hm).1; omega
    have d0 := hd 0 (by omega); have d1 := hd 1 (by omega); have d2 := hd 2 (by omega); have d3 := hd 3 (by omega)
    have d4 := hd 4 (by omega); have d5 := hd 5 (by omega); have d6 := hd 6 (by omega); have d7 := hd 7 (by omega)
    have hr : List.range 8 = [0, 1, 2, 3, 4, 5, 6, 7] := by decide
    rw [hr]
    simp only [List.foldl]
    have hk8 : 8 * (k / 8) + k % 8 = k := by omega
    have key : ∀ m, m < 8 → ∀ a0 a1 a2 a3 a4 a5 a6 a7 : Nat, a0 < 4 → a1 < 4 → a2 < 4 → a3 < 4 → a4 < 4 → a5 < 4 → a6 < 4 → a7 < 4 →
        (4 * (4 * (4 * (4 * (4 * (4 * (4 * (4 * 0 + a0) + a1) + a2) + a3) + a4) + a5) + a6) + a7) * 2 ^ (2 + 2 * m) / 0x10000 % 4 =
          (match m with | 0 => a0 | 1 => a1 | 2 => a2 | 3 => a3 | 4 => a4 | 5 => a5 | 6 => a6 | _ => a7) := by
      intro m hm a0 a1 a2 a3 a4 a5 a6 a7 b0 b1 b2 b3 b4 b5 b6 b7
      have : m = 0 ∨ m = 1 ∨ m = 2 ∨ m = 3 ∨ m = 4 ∨ m = 5 ∨ m = 6 ∨ m = 7 := by omega
      rcases this with rfl | rfl | rfl | rfl | rfl | rfl | rfl | rfl <;> simp only [Nat.reduceMul, Nat.reduceAdd, Nat.reducePow] <;> omega
    rw [key _ (by omega) _ _ _ _ _ _ _ _ d0 d1 d2 d3 d4 d5 d6 d7]
    have h8 : k % 8 < 8 := by omega
    generalize k / 8 = q at *
    generalize hm : k % 8 = m at *
    subst hk8
    have : m = 0 ∨ m = 1 ∨ m = 2 ∨ m = 3 ∨ m = 4 ∨ m = 5 ∨ m = 6 ∨ m = 7 := by omega
    rcases this with rfl | rfl | rfl | rfl | rfl | rfl | rfl | rfl <;> simp only <;> omega

theorem index1_def (t : CPTrie) (c : Nat) : t.index1 c = c / 16384 + (if t.trieType = 0 then 1020 else 64) := rfl

theorem index1_eq {t : CPTrie} (ht : t.trieType = 0 ∨ t.trieType = 1) {c : Nat} (hc : fastLimit t ≤ c) :
    t.index1 c = index1Pos t (c / 512) := by
  rw [index1_def]
  unfold index1Pos fastLimit at *
  rcases ht with h | h
  · rw [if_pos h] at *; rw [if_pos h]; omega
  · rw [if_neg (by omega)] at *; rw [if_neg (by omega)]; omega

/-- The data block of a code point in the multi-stage part. -/
theorem multi_block {t : CPTrie} {f : Nat → Nat} {err : Nat} (h : Represents t f err) {c : Nat} (h1 : fastLimit t ≤ c)
    (h2 : c < t.highStart) : ∃ e pos, t.i3BlockOf c = .ok e ∧ I3Stores t.index e pos ∧
    ∀ k < 32, ∀ j < 16, t.data.get (pos k + j) = .ok (f (512 * (c / 512) + 16 * k + j)) := by
  have ha := h.aligned
  have hfl : fastLimit t % 512 = 0 := by unfold fastLimit; split <;> rfl
  obtain ⟨i2, e, pos, g1, g2, g3, g4⟩ := h.multi (c / 512) (by omega) (by omega)
  refine ⟨e, pos, ?_, g3, g4⟩
  unfold i3BlockOf
  rw [index1_eq h.type h1, g1]
  exact g2

theorem get_ascii (t : CPTrie) {c : Nat} (hc : c ≤ 0x7F) : t.get c = t.data.get c := by
  unfold CPTrie.get; rw [if_pos hc]; rfl

theorem fastMax_eq (t : CPTrie) (c : Nat) :
    (c ≤ (if t.trieType = TYPE_FAST then 0xFFFF else SMALL_MAX)) ↔ c < fastLimit t := by
  unfold fastLimit TYPE_FAST SMALL_MAX
  by_cases h : t.trieType = 0
  · rw [if_pos h, if_pos h]; omega
  · rw [if_neg h, if_neg h]; omega

theorem represents_get {t : CPTrie} {f : Nat → Nat} {err : Nat} (h : Represents t f err) (c : Nat) (hc : c ≤ 0x10FFFF) :
    t.get c = .ok (f c) := by
  by_cases h0 : c ≤ 0x7F
  · rw [get_ascii t h0]; exact h.ascii c (by omega)
  · unfold CPTrie.get
    rw [if_neg h0]
    unfold cpIndex
    by_cases h1 : c < fastLimit t
    · rw [if_pos ((fastMax_eq t c).2 h1)]
      obtain ⟨p, hp, hv⟩ := h.fast (c / 64) (by omega)
      unfold fastIndex
      rw [show c / 2 ^ FAST_SHIFT = c / 64 by rfl, hp]
      show t.data.get (p + c % 64) = _
      rw [hv _ (by omega), show 64 * (c / 64) + c % 64 = c by omega]
    · rw [if_neg (fun hh => h1 ((fastMax_eq t c).1 hh)), if_pos hc]
      unfold smallIndex
      by_cases h2 : c ≥ t.highStart
      · rw [if_pos h2]
        exact h.high c (by omega) h2 hc
      · rw [if_neg h2]
        obtain ⟨e, pos, g1, g2, g3⟩ := multi_block h (c := c) (by omega) (by omega)
        unfold internalSmallIndex
        rw [g1]
        simp only [bind, Except.bind]
        rw [show c / 2 ^ SHIFT_3 % INDEX_3_BLOCK_LENGTH = c / 16 % 32 by rfl, blockAt_of_stores g2 (by omega)]
        show t.data.get (pos (c / 16 % 32) + c % 16) = _
        rw [g3 _ (by omega) _ (by omega), show 512 * (c / 512) + 16 * (c / 16 % 32) + c % 16 = c by omega]

theorem represents_get_error {t : CPTrie} {f : Nat → Nat} {err : Nat} (h : Represents t f err) (c : Nat) (hc : 0x10FFFF < c) :
    t.get c = .ok err := by
  have hf : ¬ c < fastLimit t := by unfold fastLimit; split <;> omega
  unfold CPTrie.get cpIndex
  rw [if_neg (by omega), if_neg (fun hh => hf ((fastMax_eq t c).1 hh)), if_neg (by omega)]
  exact h.error

theorem build_index (f : Nat → Nat) (err i : Nat) (hi : i < 9544) : (build f err).index.get i = .ok (
    if i < 64 then 64 * i else if i < 72 then 72 + 32 * (i - 64) else if i < 328 then 0x8000 + 328 + 36 * (i - 72)
    else if (i - 328) % 9 = 0 then upper (fun k => 16 * (8 * ((i - 328) / 9) + k))
      else 16 * (8 * ((i - 328) / 9) + ((i - 328) % 9 - 1)) % 0x10000) := by
  unfold Arr.get build
  simp only [if_pos hi]

theorem build_data (f : Nat → Nat) (err i : Nat) (hi : i < 0x20002) : (build f err).data.get i =
    .ok (if i < 0x20001 then f i else err) := by
  unfold Arr.get build
  simp only [if_pos hi]

theorem build_represents {f : Nat → Nat} (err : Nat) (hf : ∀ c, 0x20000 ≤ c → f c = f 0x20000) :
    Represents (build f err) f err := by
  have hd : ∀ c, c ≤ 0x20000 → (build f err).data.get c = .ok (f c) := by
    intro c hc
    rw [build_data _ _ _ (by omega), if_pos (by omega)]
  have hfl : fastLimit (build f err) = 0x1000 := rfl
  have hhs : (build f err).highStart = 0x20000 := by simp only [build]
  have hsz : (build f err).data.size = 0x20002 := by simp only [build]
  constructor
  · exact .inr rfl
  · intro c hc; exact hd c (by omega)
  · intro b hb
    rw [hfl] at hb
    refine ⟨64 * b, ?_, fun j hj => hd _ (by omega)⟩
    rw [build_index _ _ _ (by omega), if_pos (by omega)]
  · intro g h1 h2
    rw [hfl] at h1
    rw [hhs] at h2
    refine ⟨72 + 32 * (g / 32), 0x8000 + 328 + 36 * g, fun k => 512 * g + 16 * k, ?_, ?_, ?_, ?_⟩
    · have e : index1Pos (build f err) g = 64 + g / 32 := rfl
      rw [e, build_index _ _ _ (by omega), if_neg (by omega), if_pos (by omega), show 64 + g / 32 - 64 = g / 32 by omega]
    · rw [build_index _ _ _ (by omega), if_neg (by omega), if_neg (by omega), if_pos (by omega)]
      simp only [Except.ok.injEq]; omega
    · right
      refine ⟨by omega, by omega, fun q hq => ⟨?_, fun k hk => ⟨?_, ?_⟩⟩⟩
      · rw [build_index _ _ _ (by omega), if_neg (by omega), if_neg (by omega), if_neg (by omega), if_pos (by omega)]
        rw [show (0x8000 + 328 + 36 * g - 0x8000 + 9 * q - 328) / 9 = 4 * g + q by omega]
        unfold upper
        congr 1
        rw [show (fun w k => 4 * w + 16 * (8 * (4 * g + q) + k) / 0x10000) = fun w k => 4 * w + (512 * g + 16 * (8 * q + k)) / 0x10000 by
          funext w k; congr 2; omega]
      · simp only; omega
      · rw [build_index _ _ _ (by omega), if_neg (by omega), if_neg (by omega), if_neg (by omega), if_neg (by omega)]
        rw [show (0x8000 + 328 + 36 * g - 0x8000 + 9 * q + 1 + k - 328) / 9 = 4 * g + q by omega,
          show (0x8000 + 328 + 36 * g - 0x8000 + 9 * q + 1 + k - 328) % 9 = 1 + k by omega]
        dsimp only
        congr 2
        omega
    · intro k hk j hj
      simp only
      rw [hd _ (by omega)]
  · intro c h1 h2 h3
    rw [hhs] at h2
    rw [hf c h2, hsz]
    exact hd 0x20000 (by omega)
  · rw [hsz, build_data _ _ _ (by omega), if_neg (by omega)]
  · rw [hhs]

end Verif.CPTrie

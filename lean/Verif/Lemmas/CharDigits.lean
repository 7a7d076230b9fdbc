import Verif.Lemmas.CharData
/-! # Runs of decimal digits -/
namespace Verif.Char
open Verif.Data
set_option maxRecDepth 100000

/-- One more than the value of a decimal digit, or 0, from the value of the props trie. -/
noncomputable def digitField (v : Nat) : Nat :=
  force (Nat.shiftRight v 6) fun n => cond (Nat.ble n 10) n 0

/-- The last field of the block before, the fields of the block, the first field of the block after. -/
noncomputable def threeBlocks (t : UTrie2) (F b w : Nat) : Nat :=
  Nat.add (Nat.mod (Nat.shiftRight (t.slice 4 F (Nat.sub b 1)) 124) 16)
    (Nat.mul 16 (Nat.add (Nat.land w (2 ^ 128 - 1)) (Nat.mul (2 ^ 128) (Nat.mod (t.slice 4 F (Nat.add b 1)) 16))))

/-- Every digit is followed by the next one, up to 9, and preceded by the one before, down to 0. -/
noncomputable def digitRel (t : UTrie2) (F b w : Nat) : Bool :=
  or (Nat.beq (Nat.land w (2 ^ 128 - 1)) 0)
  (force (threeBlocks t F b w) fun W => allB (fun j =>
    force (Nat.mod (Nat.shiftRight W (Nat.mul 4 (Nat.add j 1))) 16) fun n =>
      or (Nat.beq n 0) (and (or (Nat.beq n 10) (Nat.beq (Nat.mod (Nat.shiftRight W (Nat.mul 4 (Nat.add j 2))) 16) (Nat.add n 1)))
        (or (Nat.beq n 1) (Nat.beq (Nat.add (Nat.mod (Nat.shiftRight W (Nat.mul 4 j)) 16) 1) n)))) 5 0)

noncomputable def digitCheck : Bool :=
  force propsIndex.big fun B =>
    (propsTrie.withBig B).check1 digitField 4 (fun _ => true) (digitRel (propsTrie.withBig B))

theorem digit_scan : digitCheck = true := by decide +kernel

/-- What the scan says about one code point: `v` gives the digit field of a code point. -/
def DigitQ (v : Nat → Nat) (c n : Nat) : Prop :=
  n = 0 ∨ ((n = 10 ∨ (c + 1 < 0x10FFFF → v (c + 1) = n + 1)) ∧ (n = 1 ∨ (1 ≤ c → v (c - 1) + 1 = n)))

theorem three_first (p l q : Nat) (hp : p < 16) : field 4 (p + 16 * (l + 2 ^ 128 * q)) 0 = p := by
  unfold field
  rw [Nat.mul_zero, Nat.shiftRight_zero, show 2 ^ 4 = 16 from rfl]
  omega

theorem three_shift (p l q j : Nat) (hp : p < 16) : field 4 (p + 16 * (l + 2 ^ 128 * q)) (j + 1) = field 4 (l + 2 ^ 128 * q) j := by
  unfold field
  rw [show 4 * (j + 1) = 4 + 4 * j by omega, Nat.shiftRight_add, Nat.shiftRight_eq_div_pow _ 4]
  congr 2
  omega

theorem three_mid (p l q j : Nat) (hp : p < 16) (hl : l < 2 ^ 128) (hj : j < 32) :
    field 4 (p + 16 * (l + 2 ^ 128 * q)) (j + 1) = field 4 l j := by
  rw [three_shift _ _ _ _ hp, ← field_mod 4 (l + 2 ^ 128 * q) j 128 (by omega), Nat.add_mul_mod_self_left, Nat.mod_eq_of_lt hl]

theorem three_last (p l q : Nat) (hp : p < 16) (hl : l < 2 ^ 128) (hq : q < 16) :
    field 4 (p + 16 * (l + 2 ^ 128 * q)) 33 = q := by
  rw [three_shift _ _ _ _ hp]
  unfold field
  rw [Nat.shiftRight_eq_div_pow, show 4 * 32 = 128 from rfl, Nat.add_mul_div_left _ _ (by decide), Nat.div_eq_of_lt hl]
  omega

theorem digitRel_spec {t : UTrie2} (ht : t.Full) {f : Nat → Nat} (hf : ∀ v, f v < 2 ^ 4) (b : Nat) (hb : b < 34816) (w : Nat)
    (hw : w = t.slice 4 (t.valueFields f 4) b) (h : digitRel t (t.valueFields f 4) b w = true) (j : Nat) (hj : j < 32) :
    DigitQ (fun c => f (t.getv c)) (32 * b + j) (field 4 w j) := by
  have hs : ∀ j < 32, 32 * b + j < 0x10FFFF → field 4 w j = f (t.getv (32 * b + j)) := by
    intro j hj hlt
    have := ht.slice_spec (by decide : 4 ≤ 32) hf hlt
    rw [show (32 * b + j) / 32 = b by omega, show (32 * b + j) % 32 = j by omega, ← hw] at this
    exact this
  have hnext : 32 * b + 32 < 0x10FFFF → (t.slice 4 (t.valueFields f 4) (b + 1)) % 16 = f (t.getv (32 * b + 32)) := by
    intro hlt
    have := ht.slice_spec (by decide : 4 ≤ 32) hf hlt
    rw [show (32 * b + 32) / 32 = b + 1 by omega, show (32 * b + 32) % 32 = 0 by omega] at this
    rw [← this]
    rfl
  have hprev : 1 ≤ b → ((t.slice 4 (t.valueFields f 4) (b - 1)) >>> 124) % 16 = f (t.getv (32 * b - 1)) := by
    intro hb1
    have := ht.slice_spec (by decide : 4 ≤ 32) hf (c := 32 * b - 1) (by omega)
    rw [show (32 * b - 1) / 32 = b - 1 by omega, show (32 * b - 1) % 32 = 31 by omega] at this
    rw [← this]
    rfl
  have hl : w &&& (2 ^ 128 - 1) = w % 2 ^ 128 := Nat.and_two_pow_sub_one_eq_mod w 128
  have em : field 4 (w % 2 ^ 128) j = field 4 w j := field_mod _ _ _ _ (by omega)
  unfold digitRel at h
  rw [Bool.or_eq_true] at h
  rcases h with h | h
  · left
    have h' : w &&& (2 ^ 128 - 1) = 0 := Nat.eq_of_beq_eq_true h
    rw [← em, ← hl, h']
    unfold field; simp
  · rw [force_eq] at h
    have hW : threeBlocks t (t.valueFields f 4) b w = ((t.slice 4 (t.valueFields f 4) (b - 1)) >>> 124) % 16 +
        16 * (w % 2 ^ 128 + 2 ^ 128 * ((t.slice 4 (t.valueFields f 4) (b + 1)) % 16)) := by rw [← hl]; rfl
    have hj' := allB_range h (lo := 0) (hi := 32) rfl rfl j (by omega) hj
    simp only [force_eq, Bool.and_eq_true, Bool.or_eq_true] at hj'
    rw [hW] at hj'
    generalize hp : ((t.slice 4 (t.valueFields f 4) (b - 1)) >>> 124) % 16 = p at hj' hprev
    generalize hq : (t.slice 4 (t.valueFields f 4) (b + 1)) % 16 = q at hj' hnext
    have hp' : p < 16 := by rw [← hp]; exact Nat.mod_lt _ (by decide)
    have hq' : q < 16 := by rw [← hq]; exact Nat.mod_lt _ (by decide)
    have hlt : w % 2 ^ 128 < 2 ^ 128 := Nat.mod_lt _ (by decide)
    have f0 := three_first p (w % 2 ^ 128) q hp'
    have f1 : ∀ j < 32, field 4 (p + 16 * (w % 2 ^ 128 + 2 ^ 128 * q)) (j + 1) = field 4 w j := fun j hj => by
      rw [three_mid p _ q j hp' hlt hj, field_mod _ _ _ _ (by omega)]
    have f2 := three_last p (w % 2 ^ 128) q hp' hlt hq'
    generalize p + 16 * (w % 2 ^ 128 + 2 ^ 128 * q) = W at *
    have hj'' : (field 4 W (j + 1)).beq 0 = true ∨ ((field 4 W (j + 1)).beq 10 = true ∨
        (field 4 W (j + 2)).beq (field 4 W (j + 1) + 1) = true) ∧ ((field 4 W (j + 1)).beq 1 = true ∨
        (field 4 W j + 1).beq (field 4 W (j + 1)) = true) := hj'
    rw [f1 j hj] at hj''
    rcases hj'' with h0 | ⟨h1, h2⟩
    · exact Or.inl (Nat.eq_of_beq_eq_true h0)
    · refine Or.inr ⟨?_, ?_⟩
      · rcases h1 with h1 | h1
        · exact Or.inl (Nat.eq_of_beq_eq_true h1)
        · refine Or.inr fun hlt => ?_
          rw [← Nat.eq_of_beq_eq_true h1]
          by_cases h31 : j = 31
          · subst h31
            rw [f2]
            exact (hnext (by omega)).symm
          · rw [f1 (j + 1) (by omega), hs (j + 1) (by omega) (by omega)]
            rfl
      · rcases h2 with h2 | h2
        · exact Or.inl (Nat.eq_of_beq_eq_true h2)
        · refine Or.inr fun hge => ?_
          rw [← Nat.eq_of_beq_eq_true h2]
          show f _ + 1 = _
          by_cases h00 : j = 0
          · subst h00
            rw [f0, hprev (by omega)]
            rfl
          · have e : field 4 W j = field 4 w (j - 1) := by rw [← f1 (j - 1) (by omega), show j - 1 + 1 = j by omega]
            rw [e, hs (j - 1) (by omega) (by omega), show 32 * b + j - 1 = 32 * b + (j - 1) by omega]

theorem digitField_lt (v : Nat) : digitField v < 2 ^ 4 := by
  unfold digitField
  rw [force_eq]
  show (bif (v >>> 6).ble 10 then v >>> 6 else 0) < 16
  cases h : (v >>> 6).ble 10
  · exact Nat.zero_lt_succ _
  · rw [Nat.ble_eq] at h
    show v >>> 6 < 16
    omega

theorem digitField_eq (v : Nat) : digitField v = if v >>> 6 ≤ 10 then v >>> 6 else 0 := by
  unfold digitField
  rw [force_eq]
  show (bif (v >>> 6).ble 10 then v >>> 6 else 0) = _
  cases h : (v >>> 6).ble 10
  · rw [if_neg]; rfl
    intro h'
    rw [Nat.ble_eq_true_of_le h'] at h
    exact absurd h (by decide)
  · rw [Nat.ble_eq] at h
    rw [if_pos h]; rfl

/-- The digit field of a code point. -/
noncomputable def digitOf (c : Nat) : Nat := digitField (propsTrie.getv c)

theorem digit_facts (c : Nat) (hc : c < 0x10FFFF) : DigitQ digitOf c (digitOf c) := by
  have hs := digit_scan
  unfold digitCheck at hs
  simp only [force_eq] at hs
  have key := bfull.forall_check1 (f := digitField) (k := 4) (by decide) digitField_lt
    (fun _ => true) (digitRel (propsTrie.withBig propsIndex.big)) _
    (digitRel_spec bfull digitField_lt) (fun c _ _ => Or.inl (by show digitField 0 = 0; rw [digitField_eq]; rfl)) hs c hc
  have e : ∀ c, (propsTrie.withBig propsIndex.big).getv c = propsTrie.getv c := fun c => agree.getv trie_ok c
  simp only [e] at key
  exact key

theorem digitOf_end : digitOf 0x10FFFE = 0 := by decide +kernel
theorem digitOf_start : digitOf 0 = 0 := by decide +kernel

theorem digit_up : ∀ k c, c < 0x10FFFF → 1 ≤ digitOf c → digitOf c + k ≤ 10 → c + k < 0x10FFFF ∧ digitOf (c + k) = digitOf c + k
  | 0, c, hc, _, _ => ⟨hc, rfl⟩
  | k + 1, c, hc, h1, h2 => by
    obtain ⟨i1, i2⟩ := digit_up k c hc h1 (by omega)
    have hne : c + k ≠ 0x10FFFE := by
      intro he
      rw [he, digitOf_end] at i2
      omega
    rcases digit_facts (c + k) i1 with h | ⟨h, _⟩
    · omega
    · rcases h with h | h
      · omega
      · exact ⟨by omega, by rw [← Nat.add_assoc, h (by omega)]; omega⟩

theorem digit_down : ∀ k c, c < 0x10FFFF → k + 1 ≤ digitOf c → k ≤ c ∧ digitOf (c - k) + k = digitOf c
  | 0, c, _, _ => ⟨Nat.zero_le _, rfl⟩
  | k + 1, c, hc, h1 => by
    obtain ⟨i1, i2⟩ := digit_down k c hc (by omega)
    have hne : c - k ≠ 0 := by
      intro he
      rw [he, digitOf_start] at i2
      omega
    rcases digit_facts (c - k) (by omega) with h | ⟨_, h⟩
    · omega
    · rcases h with h | h
      · omega
      · have h' := h (by omega)
        rw [show c - k - 1 = c - (k + 1) by omega] at h'
        exact ⟨by omega, by omega⟩

end Verif.Char

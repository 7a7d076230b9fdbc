import Verif.Lemmas.Trie2Agree
import Verif.Lemmas.Scan
/-! # The UTrie2 enumerator never raises on tries that pass a table check -/
namespace Verif
namespace UTrie2
variable {α : Type} [DecidableEq α]
set_option linter.unusedSectionVars false
set_option maxRecDepth 10000

/-- The index positions an enumeration can read hold data block numbers inside the array. The positions from 2080
up to the end of the index-1 part hold other things. -/
structure EnumOk (t : UTrie2) : Prop where
  ok : Ok t
  entries : ∀ p, p ≤ t.indexLength → ¬ (2080 ≤ p ∧ p < 2112 + (t.highStart - 0x10000) / 2048) →
    p < t.index.size ∧ 4 * t.index.at' p + 31 < t.index.size
  bmp : 0x820 ≤ t.indexLength
  groups : ∀ g, 32 ≤ g → g < t.highStart / 2048 →
    (t.index.at' (2080 + g) + 64 < 2080 ∨
      (2112 + (t.highStart - 0x10000) / 2048 ≤ t.index.at' (2080 + g) ∧ t.index.at' (2080 + g) + 64 ≤ t.indexLength))

/-- Check of index position `p`; `n1` is the number of index-1 entries and the index-2 blocks end at `top`. -/
def checkPos (t : UTrie2) (top n1 p : Nat) : Bool :=
  or (Nat.blt t.indexLength p) (or (and (Nat.ble 2080 p) (Nat.blt p (Nat.add 2112 n1)))
    (and (Nat.blt p t.index.size) (and (Nat.blt (Nat.add (Nat.mul 4 (t.index.at' p)) 31) t.index.size)
      (or (Nat.ble top p) (Nat.ble t.indexLength (Nat.mul 4 (t.index.at' p)))))))

def checkGrp (t : UTrie2) (top n1 g : Nat) : Bool :=
  or (Nat.blt g 32) (or (Nat.ble (Nat.add n1 32) g)
    (or (Nat.blt (Nat.add (t.index.at' (Nat.add 2080 g)) 64) 2080)
      (and (Nat.ble (Nat.add 2112 n1) (t.index.at' (Nat.add 2080 g)))
        (Nat.ble (Nat.add (t.index.at' (Nat.add 2080 g)) 64) top))))

/-- The scalar part of the checks. -/
structure Shape (t : UTrie2) (top n1 : Nat) : Prop where
  il : 2624 ≤ t.indexLength ∧ t.indexLength < 8192
  hs : t.highStart = 0x10000 + 2048 * n1
  hn : n1 ≤ 512
  htop : 2112 + n1 ≤ top ∧ top ≤ t.indexLength
  hvi : t.indexLength ≤ t.highValueIndex ∧ t.highValueIndex < t.index.size
  err : t.indexLength + 0x80 < t.index.size

theorem checkPos_spec {t : UTrie2} {top n1 : Nat} (hsh : Shape t top n1) (he : allB (t.checkPos top n1) 13 0 = true)
    {p : Nat} (h1 : p ≤ t.indexLength) (h2 : ¬ (2080 ≤ p ∧ p < 2112 + n1)) :
    p < t.index.size ∧ 4 * t.index.at' p + 31 < t.index.size ∧ (top ≤ p ∨ t.indexLength ≤ 4 * t.index.at' p) := by
  have hil := hsh.il
  have := allB_range he (lo := 0) (hi := 8192) rfl rfl p (by omega) (by omega)
  unfold checkPos at this
  simp only [Bool.or_eq_true, Bool.and_eq_true, Nat.blt_eq, Nat.ble_eq] at this
  rcases this with h | h | h
  · omega
  · exact absurd h h2
  · exact ⟨h.1, h.2.1, h.2.2⟩

theorem checkGrp_spec {t : UTrie2} {top n1 : Nat} (hsh : Shape t top n1) (hg : allB (t.checkGrp top n1) 10 0 = true)
    {g : Nat} (h1 : 32 ≤ g) (h2 : g < n1 + 32) :
    t.index.at' (2080 + g) + 64 < 2080 ∨ (2112 + n1 ≤ t.index.at' (2080 + g) ∧ t.index.at' (2080 + g) + 64 ≤ top) := by
  have hn := hsh.hn
  have := allB_range hg (lo := 0) (hi := 1024) rfl rfl g (by omega) (by omega)
  unfold checkGrp at this
  simp only [Bool.or_eq_true, Bool.and_eq_true, Nat.blt_eq, Nat.ble_eq] at this
  rcases this with h | h | h
  · omega
  · have h' : n1 + 32 ≤ g := h
    omega
  · exact h

theorem checkB_of {t : UTrie2} {b : Nat}
    (h : b < t.highStart / 32 → (b ≤ 0x7FF ∨ t.index.at' (2080 + b / 64) + b % 64 < t.index.size) ∧
      4 * t.blk b + 31 < t.index.size ∧ t.indexLength ≤ 4 * t.blk b) : checkB t b = true := by
  unfold checkB
  simp only [Bool.or_eq_true, Bool.and_eq_true, Nat.blt_eq, Nat.ble_eq]
  by_cases hb : b < t.highStart / 32
  · exact .inr (h hb)
  · left
    show t.highStart / 32 ≤ b
    omega

theorem enumOk_of_checks {t : UTrie2} {top n1 : Nat} (hsh : Shape t top n1)
    (he : allB (t.checkPos top n1) 13 0 = true) (hg : allB (t.checkGrp top n1) 10 0 = true) : EnumOk t := by
  obtain ⟨hil, hhs, hn, htop, hvi, herr⟩ := hsh
  have hsh : Shape t top n1 := ⟨hil, hhs, hn, htop, hvi, herr⟩
  have hok : Ok t := by
    refine ⟨by omega, by omega, by omega, by omega, hvi, herr, fun b hb => checkB_of fun hb' => ?_⟩
    by_cases h1 : b < 0x800
    · refine ⟨.inl (by omega), ?_⟩
      by_cases h2 : 0x6C0 ≤ b ∧ b < 0x6E0
      · rw [blk_lead t h2.1 h2.2]
        have := checkPos_spec hsh he (p := b + 0x140) (by omega) (by omega)
        omega
      · rw [blk_bmp t h1 h2]
        have := checkPos_spec hsh he (p := b) (by omega) (by omega)
        omega
    · rw [blk_supp t (by omega)]
      have h3 := checkGrp_spec hsh hg (g := b / 64) (by omega) (by omega)
      have := checkPos_spec hsh he (p := t.index.at' (2080 + b / 64) + b % 64) (by omega) (by omega)
      exact ⟨.inr this.1, this.2.1, by omega⟩
  refine ⟨hok, fun p hp hn' => ?_, by omega, fun g h1 h2 => ?_⟩
  · have := checkPos_spec hsh he hp (by omega)
    exact ⟨this.1, this.2.1⟩
  · have := checkGrp_spec hsh hg h1 (by omega)
    omega

theorem enumValues_ok {t : UTrie2} {f : Nat → α} {block : Nat} : ∀ (n j : Nat) (s : EState α),
    block + j + n ≤ t.index.size → ∃ s', enumValues t f block n j s = .ok s' := by
  intro n
  induction n with
  | zero => intro j s _; exact ⟨s, rfl⟩
  | succ n ih =>
    intro j s h
    obtain ⟨s', hs'⟩ := ih (j + 1) { (s.switch (f (t.index.at' (block + j)))) with c := (s.switch (f (t.index.at' (block + j)))).c + 1 } (by omega)
    refine ⟨s', ?_⟩
    simp only [enumValues]
    rw [Arr.get_ok (by omega)]
    exact hs'

theorem enumBlock_ok {t : UTrie2} {f : Nat → α} {tl i2b i2 : Nat} (s : EState α) (h1 : i2b + i2 < t.index.size)
    (h2 : 4 * t.index.at' (i2b + i2) + 31 < t.index.size) : ∃ s', enumBlock t f tl i2b i2 s = .ok s' := by
  rw [enumBlock_eq, Arr.get_ok h1]
  simp only [Except.bind]
  split
  · exact ⟨_, rfl⟩
  · split
    · exact ⟨_, rfl⟩
    · exact enumValues_ok _ _ _ (by omega)

theorem enumBlocks_ok {t : UTrie2} {f : Nat → α} {tl i2b : Nat} : ∀ (n i2 : Nat) (s : EState α),
    (∀ k < n, i2b + (i2 + k) < t.index.size ∧ 4 * t.index.at' (i2b + (i2 + k)) + 31 < t.index.size) →
    ∃ s', enumBlocks t f tl i2b n i2 s = .ok s' := by
  intro n
  induction n with
  | zero => intro i2 s _; exact ⟨s, rfl⟩
  | succ n ih =>
    intro i2 s h
    obtain ⟨s1, h1⟩ := enumBlock_ok (t := t) (f := f) (tl := tl) (i2b := i2b) (i2 := i2) s (h 0 (by omega)).1 (h 0 (by omega)).2
    obtain ⟨s2, h2⟩ := ih (i2 + 1) s1 (fun k hk => by
      have := h (k + 1) (by omega)
      rw [show i2 + 1 + k = i2 + (k + 1) by omega]; exact this)
    refine ⟨s2, ?_⟩
    simp only [enumBlocks]
    rw [h1]
    exact h2

theorem enumGroup_ok {t : UTrie2} {f : Nat → α} {tl i2b : Nat} (s : EState α)
    (h : ∀ i, i ≤ (i2Bounds s.c tl i2b).2 → i2b + i < t.index.size ∧ 4 * t.index.at' (i2b + i) + 31 < t.index.size) :
    ∃ s', enumGroup t f tl i2b s = .ok s' := by
  unfold enumGroup
  simp only
  split
  · exact ⟨_, rfl⟩
  · exact enumBlocks_ok _ _ _ (fun k hk => h _ (by omega))

theorem enumPass_ok {t : UTrie2} (h : EnumOk t) {f : Nat → α} {limit : Nat} (s : EState α) (hc : s.c < t.highStart) :
    ∃ s', enumPass t f limit s = .ok s' := by
  have hb := h.bmp
  have hlo := h.ok.hsLo
  have hhi := h.ok.hsHi
  have hal := h.ok.hs
  have hsz := h.ok.size
  rcases enumPass_cases t f limit s with ⟨a, e⟩ | ⟨a, e⟩ | ⟨a, e⟩ | ⟨a, e⟩ <;> rw [e]
  · refine enumGroup_ok s (fun i hi => h.entries _ ?_ ?_) <;>
    · rw [i2Bounds_bmp _ _ _ (by omega)] at hi; simp only at hi; omega
  · refine enumGroup_ok s (fun i hi => h.entries _ ?_ ?_) <;>
    · rw [i2Bounds_bmp _ _ _ (by omega)] at hi; simp only at hi; omega
  · refine enumGroup_ok s (fun i hi => h.entries _ ?_ ?_) <;>
    · rw [i2Bounds_bmp _ _ _ (by omega)] at hi; simp only at hi; omega
  · rw [Arr.get_ok (by omega)]
    simp only [Except.bind]
    split
    · exact ⟨_, rfl⟩
    · have hg := h.groups (s.c / 2048) (by omega) (by omega)
      refine enumGroup_ok s (fun i hi => ?_)
      have hi' : i ≤ 64 := by
        rcases i2Bounds_supp s.c (min (s.c + 2048) limit) (t.index.at' (2080 + s.c / 2048)) (by omega) with ⟨_, e⟩ | ⟨_, e⟩ <;>
          rw [e] at hi <;> simp only at hi <;> omega
      exact h.entries _ (by omega) (by omega)

theorem enumLoop_ok {t : UTrie2} (h : EnumOk t) {f : Nat → α} {limit : Nat} : ∀ (n : Nat) (s : EState α),
    limit ≤ s.c + n → ∃ s', enumLoop t f limit n s = .ok s' := by
  intro n
  induction n with
  | zero => intro s hs; simp only [enumLoop]; rw [if_neg (by omega)]; exact ⟨_, rfl⟩
  | succ n ih =>
    intro s hs
    simp only [enumLoop]
    by_cases hc : s.c < limit ∧ s.c < t.highStart
    · rw [if_pos hc]
      obtain ⟨s1, h1⟩ := enumPass_ok h (f := f) (limit := limit) s hc.2
      have := enumPass_c h1 hc.1
      obtain ⟨s2, h2⟩ := ih s1 (by omega)
      exact ⟨s2, by rw [h1]; exact h2⟩
    · rw [if_neg hc]; exact ⟨_, rfl⟩

theorem enumerator_ok {t : UTrie2} (h : EnumOk t) (f : Nat → α) (start limit : Nat) :
    ∃ out, enumerator t f start limit = .ok out := by
  obtain ⟨s, hs⟩ := enumLoop_ok h (f := f) (limit := limit) (limit - start) ⟨[], none, none, start, f 0, start⟩
    (by simp only; omega)
  unfold enumerator
  rw [hs]
  unfold enumFinish
  simp only [bind, Except.bind]
  by_cases h1 : s.c > limit
  · rw [if_pos h1]; exact ⟨_, rfl⟩
  · rw [if_neg h1]
    by_cases h2 : s.c < limit
    · rw [if_pos h2, Arr.get_ok h.ok.hvi.2]; exact ⟨_, rfl⟩
    · rw [if_neg h2]; exact ⟨_, rfl⟩

/-- A check over all groups of 2048 code points; null groups are skipped. -/
noncomputable def scanG (t : UTrie2) (quick : Nat → Bool) (p : Nat → Nat → Bool) (g : Nat) : Bool :=
  or (Nat.ble (Nat.div t.highStart 2048) g)
   (or (and (Nat.ble 32 g) (Nat.beq (t.index.at' (Nat.add 2080 g)) t.index2NullOffset))
    (allB (fun m => scanB t quick p (Nat.add (Nat.mul 64 g) m)) 6 0))

theorem val_null {t : UTrie2} (h : Ok t) (hn : NullsOk t) {c : Nat} (hc : c < t.highStart) (h1 : 0x10000 ≤ c)
    (h2 : t.index.at' (2080 + c / 2048) = t.index2NullOffset) : t.val c = t.initialValue := by
  have hal := h.hs
  have hb := h.block (b := c / 32) (by omega)
  unfold val
  rw [if_pos hc]
  rw [blk_supp t (by omega), show c / 32 / 64 = c / 2048 by omega, h2] at hb ⊢
  have e := hn.index2 (c / 32 % 64) (by omega) _ (Arr.get_ok (by omega))
  rw [e] at hb ⊢
  exact hn.data (c % 32) (by omega) _ (Arr.get_ok (by omega))

theorem Ok.forall_scanG {t : UTrie2} (h : Ok t) (hn : NullsOk t) (quick : Nat → Bool) (p : Nat → Nat → Bool)
    (hq : ∀ a, quick a = true → ∀ j < 32, ∀ c, p c (t.index.at' (4 * a + j)) = true)
    (h0 : ∀ c, p c t.initialValue = true)
    (hs : ∀ g < 544, scanG t quick p g = true)
    (hhi : ∀ c, t.highStart ≤ c → c < 0x10FFFF → p c (t.index.at' t.highValueIndex) = true)
    (c : Nat) (hc : c < 0x10FFFF) : p c (t.getv c) = true := by
  by_cases h1 : c < t.highStart
  · have hal := h.hs
    have hg := hs (c / 2048) (by have := h.hsHi; omega)
    unfold scanG at hg
    simp only [Bool.or_eq_true, Bool.and_eq_true] at hg
    rcases hg with hg | ⟨hg1, hg2⟩ | hg
    · rw [Nat.ble_eq] at hg
      have h2 : t.highStart / 2048 ≤ c / 2048 := hg
      omega
    · rw [Nat.ble_eq] at hg1
      have e := val_null h hn h1 (by omega) (Nat.eq_of_beq_eq_true hg2)
      unfold getv
      rw [if_pos hc, e]
      exact h0 c
    · have hb := allB_range hg (lo := 0) (hi := 64) rfl rfl (c / 32 % 64) (by omega) (by omega)
      have e : Nat.add (Nat.mul 64 (c / 2048)) (c / 32 % 64) = c / 32 := by
        show 64 * (c / 2048) + c / 32 % 64 = c / 32
        omega
      rw [e] at hb
      unfold getv val
      rw [if_pos hc, if_pos h1]
      unfold scanB at hb
      simp only [force_eq, Bool.or_eq_true] at hb
      rcases hb with hb | hb | hb
      · rw [Nat.ble_eq] at hb
        have h2 : t.highStart / 32 ≤ c / 32 := hb
        omega
      · exact hq _ hb _ (by omega) _
      · have := allB_range hb (lo := 0) (hi := 32) rfl rfl (c % 32) (by omega) (by omega)
        have e : Nat.add (Nat.mul 32 (c / 32)) (c % 32) = c := Nat.div_add_mod c 32
        rw [e] at this
        exact this
  · unfold getv val
    rw [if_pos hc, if_neg h1]; exact hhi c (by omega) hc

end UTrie2
end Verif

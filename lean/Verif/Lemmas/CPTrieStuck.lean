import Verif.Lemmas.CPTrieEnum
/-! # How far the UCPTrie enumerator can get -/
namespace Verif.CPTrie
open Verif.CPTrie.Spec
open UTrie2 (Run)

/-- No yielded run stops after `c`. -/
def Stops (s : EState) : Prop := ∀ r ∈ s.out, r.stop ≤ s.c

theorem Stops.switch {s : EState} (h : Stops s) (v c' : Nat) (hc : s.c ≤ c') : Stops { s.switch v with c := c' } := by
  unfold EState.switch Stops
  split
  · dsimp only
    split
    · intro r hr
      simp only [List.mem_append, List.mem_singleton] at hr
      rcases hr with hr | rfl
      · exact Nat.le_trans (h r hr) hc
      · exact hc
    · exact fun r hr => Nat.le_trans (h r hr) hc
  · exact fun r hr => Nat.le_trans (h r hr) hc

theorem enumValues_bound {t : CPTrie} {limit n b : Nat} (hb : b % n = 0) : ∀ (fuel di : Nat) (s s' : EState),
    enumValues t limit n fuel di s = .ok s' → s.c ≤ b + n → s.c ≤ s'.c ∧ s'.c ≤ b + n ∧ (Stops s → Stops s') := by
  intro fuel
  induction fuel with
  | zero =>
    intro di s s' h h1
    simp only [enumValues] at h
    split at h
    · simp at h
    · simp only [Except.ok.injEq] at h; subst h; exact ⟨by omega, h1, id⟩
  | succ fuel ih =>
    intro di s s' h h1
    simp only [enumValues] at h
    split at h
    · rename_i hc
      obtain ⟨v, _, h2⟩ := bind_ok h
      have hne : s.c ≠ b + n := by
        intro e
        rw [e, Nat.add_mod_right, hb] at hc
        exact hc.2 rfl
      obtain ⟨a1, a2, a3⟩ := ih _ _ _ h2 (by simp only [switch_c]; omega)
      simp only [switch_c] at a1 a3
      exact ⟨by omega, a2, fun hs => a3 (hs.switch v (s.c + 1) (by omega))⟩
    · simp only [Except.ok.injEq] at h; subst h; exact ⟨by omega, h1, id⟩

theorem enumBlock_bound {t : CPTrie} {start limit nv n e i3 : Nat} {s s' : EState} (hn : 0 < n)
    (h : enumBlock t start limit nv n e i3 s = .ok s') : s.c ≤ s'.c ∧ s'.c ≤ s.c / n * n + n ∧ (Stops s → Stops s') := by
  have hdm : s.c / n * n + s.c % n = s.c := by rw [Nat.mul_comm]; exact Nat.div_add_mod _ _
  have hml : s.c % n < n := Nat.mod_lt _ hn
  unfold enumBlock at h
  obtain ⟨p, _, h⟩ := bind_ok h
  split at h
  · split at h
    · rename_i h0
      simp only [pure, Except.pure, Except.ok.injEq] at h
      subst h
      exact ⟨by simp, by simp only; omega, fun hs r hr => Nat.le_trans (hs r hr) (by simp)⟩
    · simp [throw, throwThe, MonadExceptOf.throw] at h
  · dsimp only at h
    split at h
    · simp only [pure, Except.pure, Except.ok.injEq] at h
      subst h
      have ec : (s.c + n) / n * n = s.c / n * n + n := by rw [Nat.add_div_right _ hn, Nat.succ_mul]
      simp only [switch_c, ec]
      exact ⟨by omega, by omega, fun hs => Stops.switch (s := { s with prevBlock := some p }) hs nv _ (by simp only; omega)⟩
    · obtain ⟨v, _, h⟩ := bind_ok h
      obtain ⟨a1, a2, a3⟩ := enumValues_bound (b := s.c / n * n) (Nat.mul_mod_left _ _) _ _ _ _ h (by simp only [switch_c]; omega)
      simp only [switch_c] at a1 a3
      exact ⟨by omega, a2, fun hs => a3 (Stops.switch (s := { s with prevBlock := some p }) hs v _ (by simp only; omega))⟩

theorem enumBlocks_bound {t : CPTrie} {start limit nv n e : Nat} (hn : 0 < n) : ∀ (k i3 i : Nat) (s s' : EState),
    enumBlocks t start limit nv n e k i3 s = .ok s' → s.c / n ≤ i →
    s.c ≤ s'.c ∧ (k = 0 → s' = s) ∧ (0 < k → s'.c ≤ n * (i + k)) ∧ (Stops s → Stops s') := by
  intro k
  induction k with
  | zero =>
    intro i3 i s s' h _
    simp only [enumBlocks, Except.ok.injEq] at h
    subst h
    exact ⟨Nat.le_refl _, fun _ => rfl, fun h => absurd h (by omega), id⟩
  | succ k ih =>
    intro i3 i s s' h hi
    have hdm : s.c / n * n + s.c % n = s.c := by rw [Nat.mul_comm]; exact Nat.div_add_mod _ _
    have hml : s.c % n < n := Nat.mod_lt _ hn
    have hle : s.c / n * n + n ≤ n * (i + 1) := by
      rw [Nat.mul_succ, Nat.mul_comm]
      exact Nat.add_le_add_right (Nat.mul_le_mul_left n hi) n
    have hle2 : n * (i + 1) ≤ n * (i + (k + 1)) := Nat.mul_le_mul_left n (by omega)
    simp only [enumBlocks] at h
    split at h
    · simp only [Except.ok.injEq] at h
      subst h
      exact ⟨Nat.le_refl _, fun h => absurd h (by omega), fun _ => by omega, id⟩
    · obtain ⟨s1, h1, h2⟩ := bind_ok h
      obtain ⟨a1, a2, a3⟩ := enumBlock_bound hn h1
      have hi1 : s1.c / n ≤ i + 1 := by
        have : s1.c ≤ n * (i + 1) := by omega
        calc s1.c / n ≤ n * (i + 1) / n := Nat.div_le_div_right this
          _ = i + 1 := Nat.mul_div_cancel_left _ hn
      obtain ⟨b1, b2, b3, b4⟩ := ih _ (i + 1) _ _ h2 hi1
      refine ⟨by omega, fun h => absurd h (by omega), fun _ => ?_, fun hs => b4 (a3 hs)⟩
      by_cases hk : k = 0
      · rw [b2 hk]; omega
      · have := b3 (by omega)
        rw [show i + 1 + k = i + (k + 1) by omega] at this
        exact this

/-- A pass below 0x10000 of a fast type trie, or below 0x1000 of a small one. -/
theorem fast_pass_bound {t : CPTrie} {start limit nv : Nat} {s s' : EState}
    (hc : s.c ≤ 0xFFFF ∧ (t.trieType = 0 ∨ s.c < 0x1000)) (h : enumPass t start limit nv s = .ok s') :
    s.c ≤ s'.c ∧ (0x1000 ≤ s.c → s' = s) ∧ (s.c < 0x1000 → s'.c ≤ 0x1000) ∧ (Stops s → Stops s') := by
  unfold enumPass at h
  rw [if_pos ⟨hc.1, by simp only [TYPE_FAST, SMALL_MAX]; omega⟩] at h
  obtain ⟨a1, a2, a3, a4⟩ := enumBlocks_bound (by decide) _ _ (s.c / 64) _ _ h (Nat.le_refl _)
  rw [show FAST_DATA_BLOCK_LENGTH = 64 by rfl, show (2 : Nat) ^ FAST_SHIFT = 64 by rfl] at a2 a3
  refine ⟨a1, fun h => a2 (by omega), fun h => ?_, a4⟩
  have := a3 (by omega)
  omega

/-- A pass in the multi-stage part: it skips the group of 512 code points, or ends at its middle at most. -/
theorem multi_pass_bound {t : CPTrie} {start limit nv : Nat} {s s' : EState}
    (hc : ¬ (s.c ≤ 0xFFFF ∧ (t.trieType = 0 ∨ s.c < 0x1000))) (h : enumPass t start limit nv s = .ok s') :
    s.c ≤ s'.c ∧ s'.c ≤ s.c / 512 * 512 + 512 ∧ (Stops s → Stops s') ∧
    ∃ e, t.i3BlockOf s.c = .ok e ∧ (s.c - start < 512 → e ≠ t.index3NullOffset → s'.c ≤ max s.c (s.c / 512 * 512 + 256)) := by
  unfold enumPass at h
  rw [if_neg (by simp only [TYPE_FAST, SMALL_MAX]; omega)] at h
  by_cases hA : (if t.trieType = TYPE_FAST then 0xFFFF < s.c ∧ s.c < t.highStart
      else s.c < t.highStart ∧ t.highStart > SMALL_LIMIT)
  case neg => rw [if_pos hA] at h; simp at h
  rw [if_neg (not_not_intro hA)] at h
  obtain ⟨e, he, h⟩ := bind_ok h
  rw [show CP_PER_INDEX_2_ENTRY = 512 by rfl] at h
  split at h
  · rename_i h5
    split at h
    · rename_i h0
      simp only [pure, Except.pure, Except.ok.injEq] at h
      subst h
      exact ⟨by simp, by simp only; omega, fun hs r hr => Nat.le_trans (hs r hr) (by simp), e, he, fun hh => by omega⟩
    · simp [throw, throwThe, MonadExceptOf.throw] at h
  · dsimp only at h
    split at h
    · rename_i hnull
      simp only [pure, Except.pure, Except.ok.injEq] at h
      subst h
      simp only [switch_c]
      exact ⟨by omega, by omega, fun hs => Stops.switch (s := { s with prevI3Block := some e }) hs nv _ (by simp only; omega),
        e, he, fun _ hh => absurd hnull hh⟩
    · obtain ⟨a1, a2, a3, a4⟩ := enumBlocks_bound (by decide) _ _ (s.c / 16) _ _ h (Nat.le_refl _)
      rw [show SMALL_DATA_BLOCK_LENGTH = 16 by rfl, show s.c / 2 ^ SHIFT_3 % INDEX_3_BLOCK_LENGTH = s.c / 16 % 32 by rfl] at a2 a3
      simp only at a1
      have hm : s'.c ≤ max s.c (s.c / 512 * 512 + 256) := by
        by_cases hk : 16 - s.c / 16 % 32 = 0
        · rw [a2 hk]; simp only; omega
        · have := a3 (by omega)
          omega
      exact ⟨a1, by omega, a4, e, he, fun _ _ => hm⟩

/-- A fast type trie is never enumerated beyond 0x1000. -/
theorem fast_stuck {t : CPTrie} (hty : t.trieType = 0) {start limit nv : Nat} (h1 : start ≤ 0xFFFF)
    (h2 : 0x1000 < limit ∧ start < limit) (h3 : 0x1000 < t.highStart ∧ start < t.highStart) : ∀ (fuel : Nat) (s : EState),
    s.c ≤ max 0x1000 start → ∀ s', enumLoop t start limit nv fuel s ≠ .ok s' := by
  intro fuel
  induction fuel with
  | zero =>
    intro s hc s' h
    simp only [enumLoop] at h
    rw [if_pos (by omega)] at h
    simp at h
  | succ fuel ih =>
    intro s hc s' h
    rw [enumLoop_succ, if_pos (by omega)] at h
    obtain ⟨s1, e1, e2⟩ := bind_ok h
    obtain ⟨a1, a2, a3, _⟩ := fast_pass_bound ⟨by omega, .inl hty⟩ e1
    refine ih s1 ?_ s' e2
    by_cases hlt : s.c < 0x1000
    · have := a3 hlt; omega
    · rw [a2 (by omega)]; exact hc

/-- A small type trie is not enumerated beyond the middle of the first group of 512 code points, unless it is null. -/
theorem small_stuck {t : CPTrie} (hty : t.trieType = 1) {start limit nv e : Nat} (h1 : 0x1000 ≤ start)
    (he : t.i3BlockOf start = .ok e) (hne : e ≠ t.index3NullOffset)
    (h2 : max start (start / 512 * 512 + 256) < limit) (h3 : max start (start / 512 * 512 + 256) < t.highStart) :
    ∀ (fuel : Nat) (s : EState), start ≤ s.c → s.c ≤ max start (start / 512 * 512 + 256) →
    ∀ s', enumLoop t start limit nv fuel s ≠ .ok s' := by
  intro fuel
  induction fuel with
  | zero =>
    intro s _ hc s' h
    simp only [enumLoop] at h
    rw [if_pos (by omega)] at h
    simp at h
  | succ fuel ih =>
    intro s h0 hc s' h
    rw [enumLoop_succ, if_pos (by omega)] at h
    obtain ⟨s1, e1, e2⟩ := bind_ok h
    obtain ⟨a1, a2, _, e', a4, a5⟩ := multi_pass_bound (by omega) e1
    have hg : s.c / 512 = start / 512 := by omega
    have hee : e' = e := by
      unfold i3BlockOf at a4 he
      rw [index1_def, show s.c / 16384 = start / 16384 by omega, ← index1_def,
        show s.c / 2 ^ SHIFT_2 = start / 2 ^ SHIFT_2 by show s.c / 512 = start / 512; exact hg, he] at a4
      exact (Except.ok.inj a4).symm
    have := a5 (by omega) (by rw [hee]; exact hne)
    exact ih s1 (by omega) (by omega) s' e2

/-- Nothing beyond `highStart` (or 0x1000) is ever yielded. -/
theorem loop_stops {t : CPTrie} (hal : t.highStart % 512 = 0) {start limit nv : Nat} : ∀ (fuel : Nat) (s s' : EState),
    enumLoop t start limit nv fuel s = .ok s' → Stops s → s.c ≤ max 0x1000 t.highStart →
    Stops s' ∧ s'.c ≤ max 0x1000 t.highStart := by
  intro fuel
  induction fuel with
  | zero =>
    intro s s' h hs hc
    simp only [enumLoop] at h
    split at h
    · simp at h
    · simp only [Except.ok.injEq] at h; subst h; exact ⟨hs, hc⟩
  | succ fuel ih =>
    intro s s' h hs hc
    rw [enumLoop_succ] at h
    split at h
    · rename_i hlt
      obtain ⟨s1, e1, e2⟩ := bind_ok h
      by_cases hf : s.c ≤ 0xFFFF ∧ (t.trieType = 0 ∨ s.c < 0x1000)
      · obtain ⟨a1, a2, a3, a4⟩ := fast_pass_bound hf e1
        refine ih s1 s' e2 (a4 hs) ?_
        by_cases h4 : s.c < 0x1000
        · have := a3 h4; omega
        · rw [a2 (by omega)]; exact hc
      · obtain ⟨a1, a2, a3, _⟩ := multi_pass_bound hf e1
        exact ih s1 s' e2 (a3 hs) (by omega)
    · simp only [Except.ok.injEq] at h; subst h; exact ⟨hs, hc⟩

theorem enumerator_stops {t : CPTrie} (hal : t.highStart % 512 = 0) {start limit fuel : Nat} {out : List (Run Nat)}
    (h : t.enumeratorFuel start limit fuel = .ok out) : ∀ r ∈ out, r.stop ≤ max 0x1000 t.highStart := by
  unfold enumeratorFuel at h
  split at h
  · simp only [Except.ok.injEq] at h; subst h; simp
  · rename_i hst
    obtain ⟨nv, _, h⟩ := bind_ok h
    obtain ⟨s, hs, h⟩ := bind_ok h
    obtain ⟨a1, a2⟩ := loop_stops hal _ _ _ hs (fun r hr => by simp at hr) (by simp only; omega)
    have key : ∀ c (o : List (Run Nat)), c ≤ s.c → (∀ r ∈ o, r.stop ≤ s.c) →
        ∀ r ∈ (if s.prev < c then o ++ [⟨s.prev, c, s.prevValue⟩] else o), r.stop ≤ max 0x1000 t.highStart := by
      intro c o hc ho r hr
      split at hr
      · simp only [List.mem_append, List.mem_singleton] at hr
        rcases hr with hr | rfl
        · have := ho r hr; omega
        · simp only; omega
      · have := ho r hr; omega
    unfold enumFinish at h
    obtain ⟨s1, h1, h2⟩ := bind_ok h
    simp only [pure, Except.pure, Except.ok.injEq] at h2
    subst h2
    split at h1
    · simp only [Except.ok.injEq] at h1
      subst h1
      exact key limit s.out (by omega) a1
    · split at h1
      · obtain ⟨v, _, h1⟩ := bind_ok h1
        simp only [pure, Except.pure, Except.ok.injEq] at h1
        split at h1
        · subst h1
          refine key s.c _ (Nat.le_refl _) ?_
          intro r hr
          dsimp only at hr
          split at hr
          · simp only [List.mem_append, List.mem_singleton] at hr
            rcases hr with hr | rfl
            · exact a1 r hr
            · exact Nat.le_refl _
          · exact a1 r hr
        · subst h1
          exact key s.c s.out (Nat.le_refl _) a1
      · simp only [Except.ok.injEq] at h1
        subst h1
        exact key s.c s.out (Nat.le_refl _) a1

end Verif.CPTrie

import Verif.Lemmas.Trie2Enum
/-! # The UTrie2 enumerator agrees with `get` inside one index-2 block -/
namespace Verif
open Spec
namespace UTrie2
variable {α : Type} [DecidableEq α]
set_option linter.unusedSectionVars false

/-- Everything yielded, and the open range as far as it is inside the interval, carries the right value. -/
structure VInv (f : Nat → Nat) (g : Nat → α) (limit : Nat) (s : EState α) : Prop where
  out : ∀ r ∈ s.out, ∀ c, r.start ≤ c → c < r.stop → r.value = g (f c)
  opened : ∀ c, s.prev ≤ c → c < s.c → c < limit → s.prevValue = g (f c)

variable {f : Nat → Nat} {g : Nat → α} {limit : Nat}

theorem VInv.switch {s : EState α} (h : VInv f g limit s) (v : α) (k : Nat) (hc : s.c ≤ limit)
    (hv : ∀ x, s.c ≤ x → x < s.c + k → x < limit → v = g (f x)) :
    VInv f g limit { s.switch v with c := (s.switch v).c + k } := by
  unfold EState.switch
  by_cases hne : v ≠ s.prevValue
  · simp only [if_pos hne]
    refine ⟨?_, fun c h1 h2 h3 => hv c h1 h2 h3⟩
    simp only
    split
    · intro r hr c h1 h2
      rcases List.mem_append.1 hr with hr | hr
      · exact h.out r hr c h1 h2
      · simp only [List.mem_singleton] at hr
        subst hr
        exact h.opened c h1 h2 (Nat.lt_of_lt_of_le h2 hc)
    · exact h.out
  · simp only [if_neg hne]
    refine ⟨h.out, fun c h1 h2 h3 => ?_⟩
    by_cases hx : c < s.c
    · exact h.opened c h1 hx h3
    · rw [← hv c (by omega) h2 h3]
      exact (Classical.not_not.1 hne).symm

theorem VInv.skip {s : EState α} (h : VInv f g limit s) (k : Nat)
    (hv : ∀ x, s.c ≤ x → x < s.c + k → x < limit → s.prevValue = g (f x)) :
    VInv f g limit { s with c := s.c + k } := by
  refine ⟨h.out, fun c h1 h2 h3 => ?_⟩
  by_cases hx : c < s.c
  · exact h.opened c h1 hx h3
  · exact hv c (by omega) h2 h3

theorem VInv.blocks {s : EState α} (h : VInv f g limit s) (a b : Option Nat) :
    VInv f g limit { s with prevI2Block := a, prevBlock := b } := ⟨h.out, h.opened⟩

theorem enumValues_v {t : UTrie2} {block : Nat} : ∀ (n j : Nat) (s s' : EState α),
    enumValues t g block n j s = .ok s' → VInv f g limit s → s.c + n ≤ limit →
    (∀ i < n, t.index.get (block + j + i) = .ok (f (s.c + i))) → VInv f g limit s' := by
  intro n
  induction n with
  | zero => intro j s s' h hi _ _; simp only [enumValues, Except.ok.injEq] at h; exact h ▸ hi
  | succ n ih =>
    intro j s s' h hi hl hb
    obtain ⟨v, hv, h2⟩ := bind_ok (by simpa only [enumValues] using h)
    have h0 := hb 0 (by omega)
    simp only [Nat.add_zero] at h0
    rw [hv] at h0
    simp only [Except.ok.injEq] at h0
    refine ih _ _ _ h2 (hi.switch (g v) 1 (by omega) ?_) (by simp only [switch_c]; omega) ?_
    · intro x h1 h2 _
      rw [h0, show x = s.c by omega]
    · intro i hin
      have := hb (i + 1) (by omega)
      simp only [switch_c]
      rw [show block + (j + 1) + i = block + j + (i + 1) by omega, this]
      rw [show s.c + (i + 1) = s.c + 1 + i by omega]

theorem enumValues_prevBlock {t : UTrie2} {block : Nat} : ∀ (n j : Nat) (s s' : EState α),
    enumValues t g block n j s = .ok s' → s'.prevBlock = s.prevBlock := by
  intro n
  induction n with
  | zero => intro j s s' h; simp only [enumValues, Except.ok.injEq] at h; rw [h]
  | succ n ih =>
    intro j s s' h
    obtain ⟨v, hv, h2⟩ := bind_ok (by simpa only [enumValues] using h)
    rw [ih _ _ _ h2]
    simp only
    unfold EState.switch
    split <;> rfl

/-- The last data block handled is filled with the value of the open range, if that range is long enough. -/
def PB (t : UTrie2) (g : Nat → α) (s : EState α) : Prop :=
  ∀ b, s.prevBlock = some b → 32 ≤ s.c - s.prev → ∀ j < 32, ∀ v, t.index.get (b + j) = .ok v → g v = s.prevValue

theorem switch_prevBlock (s : EState α) (v : α) : (s.switch v).prevBlock = s.prevBlock := by
  unfold EState.switch; split <;> rfl

/-- The null data block holds the initial value, the null index-2 block points to null data blocks. -/
structure NullsOk (t : UTrie2) : Prop where
  data : ∀ j < 32, ∀ v, t.index.get (t.dataNullOffset + j) = .ok v → v = t.initialValue
  index2 : ∀ m < 64, ∀ e, t.index.get (t.index2NullOffset + m) = .ok e → 4 * e = t.dataNullOffset

theorem enumBlock_full {t : UTrie2} (hn : NullsOk t) {tl i2b i2 c0 : Nat} {s s' : EState α}
    (h : enumBlock t g tl i2b i2 s = .ok s') (hv : VInv f g limit s) (hp : PB t g s) (hc : s.c = c0)
    (hal : c0 % 32 = 0) (hb : BlockAt t.index (i2b + i2) f c0) (htl : tl = limit) (hl : c0 < limit) :
    VInv f g limit s' ∧ (c0 + 32 ≤ limit → s'.c = c0 + 32 ∧ PB t g s') ∧ (limit ≤ c0 + 32 → limit ≤ s'.c) := by
  obtain ⟨e, he, hj⟩ := hb
  have pb : ∀ s' : EState α, VInv f g limit s' → s'.c = c0 + 32 → c0 + 32 ≤ limit → s'.prevBlock = some (4 * e) → PB t g s' := by
    intro s' hv' hc' hl' hb' b hb h32 j hjl v hget
    rw [hb'] at hb
    simp only [Option.some.injEq] at hb
    subst hb
    have := hj j hjl
    rw [hget] at this
    simp only [Except.ok.injEq] at this
    rw [this]
    exact (hv'.opened (c0 + j) (by omega) (by omega) (by omega)).symm
  obtain ⟨e', he', h | h | h⟩ := enumBlock_cases h
  all_goals
    rw [he] at he'
    simp only [Except.ok.injEq] at he'
    subst he'
  · obtain ⟨h1, h2, rfl⟩ := h
    have hv' : VInv f g limit { s with c := s.c + 32 } := by
      refine hv.skip 32 ?_
      intro x hx1 hx2 hx3
      have := hj (x - c0) (by omega)
      rw [show c0 + (x - c0) = x by omega] at this
      exact (hp _ h1 h2 (x - c0) (by omega) _ this).symm
    exact ⟨hv', fun hle => ⟨by simp only; omega, pb _ hv' (by simp only; omega) hle h1⟩, fun _ => by simp only; omega⟩
  · obtain ⟨h1, h2, rfl⟩ := h
    have hv' : VInv f g limit
      { ({ s with prevBlock := some (4 * e) } : EState α).switch (g t.initialValue) with c := s.c + 32 } := by
      have := (hv.blocks s.prevI2Block (some (4 * e))).switch (g t.initialValue) 32 (by simp only; omega) (by
        intro x hx1 hx2 hx3
        simp only at hx1 hx2
        have := hj (x - c0) (by omega)
        rw [show c0 + (x - c0) = x by omega, h2] at this
        rw [hn.data _ (by omega) _ this])
      simpa only [switch_c] using this
    exact ⟨hv', fun hle => ⟨by simp only; omega, pb _ hv' (by simp only; omega) hle (by simp only [switch_prevBlock])⟩, fun _ => by simp only; omega⟩
  · obtain ⟨h1, h2, h3⟩ := h
    rw [show s.c % 32 = 0 by omega] at h3
    have hc' := enumValues_c _ _ _ _ h3
    simp only at hc'
    have hv' : VInv f g limit s' := by
      refine enumValues_v _ _ _ _ h3 (hv.blocks s.prevI2Block (some (4 * e))) (by simp only; omega) ?_
      intro i hi
      simp only
      rw [hc]
      exact hj i (by omega)
    have hb' := enumValues_prevBlock _ _ _ _ h3
    exact ⟨hv', fun hle => ⟨by omega, pb _ hv' (by omega) hle hb'⟩, fun _ => by omega⟩

/-- The extra iteration at `c = limit`. -/
theorem enumBlock_extra {t : UTrie2} {tl i2b i2 : Nat} {s s' : EState α}
    (h : enumBlock t g tl i2b i2 s = .ok s') (hv : VInv f g limit s) (hc : s.c = limit) (htl : tl = limit) :
    VInv f g limit s' ∧ limit ≤ s'.c := by
  obtain ⟨e, he, h | h | h⟩ := enumBlock_cases h
  · obtain ⟨h1, h2, rfl⟩ := h
    exact ⟨hv.skip 32 (by intro x _ _ _; omega), by simp only; omega⟩
  · obtain ⟨h1, h2, rfl⟩ := h
    have := (hv.blocks s.prevI2Block (some (4 * e))).switch (g t.initialValue) 32 (by simp only; omega) (by
        intro x hx1 hx2 hx3; simp only at hx1; omega)
    refine ⟨by simpa only [switch_c] using this, by simp only; omega⟩
  · obtain ⟨h1, h2, h3⟩ := h
    rw [show min 32 (s.c % 32 + tl - s.c) - s.c % 32 = 0 by omega] at h3
    simp only [enumValues, Except.ok.injEq] at h3
    subst h3
    exact ⟨hv.blocks s.prevI2Block (some (4 * e)), by simp only; omega⟩

theorem enumBlocks_window {t : UTrie2} (hn : NullsOk t) {tl i2b : Nat} (htl : tl = limit) :
    ∀ (n i2 : Nat) (s s' : EState α), enumBlocks t g tl i2b (n + 1) i2 s = .ok s' → VInv f g limit s → PB t g s →
      s.c % 32 = 0 → s.c + 32 * n ≤ limit → limit < s.c + 32 * (n + 1) →
      (∀ k, s.c + 32 * k < limit → BlockAt t.index (i2b + (i2 + k)) f (s.c + 32 * k)) →
      VInv f g limit s' ∧ limit ≤ s'.c := by
  intro n
  induction n with
  | zero =>
    intro i2 s s' h hv hp hal hlo hhi hb
    simp only [enumBlocks] at h
    obtain ⟨s1, h1, h2⟩ := bind_ok h
    simp only [Except.ok.injEq] at h2
    subst h2
    by_cases hl : s.c < limit
    · have := enumBlock_full hn h1 hv hp rfl hal (hb 0 (by omega)) htl hl
      exact ⟨this.1, this.2.2 (by omega)⟩
    · exact enumBlock_extra h1 hv (by omega) htl
  | succ n ih =>
    intro i2 s s' h hv hp hal hlo hhi hb
    rw [enumBlocks] at h
    obtain ⟨s1, h1, h2⟩ := bind_ok h
    have a := enumBlock_full hn h1 hv hp rfl hal (hb 0 (by omega)) htl (by omega)
    have b := a.2.1 (by omega)
    refine ih _ _ _ h2 a.1 b.2 (by omega) (by omega) (by omega) ?_
    intro k hk
    rw [b.1] at hk ⊢
    have := hb (k + 1) (by omega)
    rw [show i2b + (i2 + 1 + k) = i2b + (i2 + (k + 1)) by omega, show s.c + 32 + 32 * k = s.c + 32 * (k + 1) by omega]
    exact this

theorem enumGroup_window {t : UTrie2} (hn : NullsOk t) {i2b a L : Nat} {s s' : EState α}
    (h : enumGroup t g limit i2b s = .ok s') (hv : VInv f g limit s) (hs : s.prevBlock = none)
    (hal : s.c % 32 = 0) (hlt : s.c < limit) (hbd : i2Bounds s.c limit i2b = (a, L)) (haL : a ≤ L)
    (hlo : s.c + 32 * (L - a) ≤ limit) (hhi : limit < s.c + 32 * (L - a + 1))
    (ha : a + (limit - s.c + 31) / 32 ≤ 64)
    (hb : ∀ k, s.c + 32 * k < limit → BlockAt t.index (i2b + (a + k)) f (s.c + 32 * k)) :
    VInv f g limit s' ∧ limit ≤ s'.c := by
  unfold enumGroup at h
  simp only at h
  split at h
  · rename_i hnull
    have hd : CP_PER_INDEX_1_ENTRY = 2048 := rfl
    simp only [Except.ok.injEq, hd] at h
    have hval : ∀ x, s.c ≤ x → x < limit → t.initialValue = f x := by
      intro x h1 h2
      obtain ⟨e, he, hj⟩ := hb ((x - s.c) / 32) (by omega)
      have e4 := hn.index2 (a + (x - s.c) / 32) (by omega) e (by rw [← hnull]; exact he)
      have := hj ((x - s.c) % 32) (by omega)
      rw [show s.c + 32 * ((x - s.c) / 32) + (x - s.c) % 32 = x by omega, e4] at this
      exact (hn.data _ (by omega) _ this).symm
    subst h
    split
    · have := (hv.blocks (some i2b) s.prevBlock).switch (g t.initialValue) 2048 (by simp only; omega)
        (fun x h1 _ h3 => by rw [hval x h1 h3])
      exact ⟨⟨this.out, this.opened⟩, by simp only [switch_c]; omega⟩
    · rename_i heq
      simp only [ne_eq, Classical.not_not] at heq
      exact ⟨(hv.blocks (some i2b) s.prevBlock).skip 2048 (fun x h1 _ h3 => by simp only [heq]; rw [hval x h1 h3]),
        by simp only; omega⟩
  · simp only [hbd] at h
    rw [show L + 1 - a = (L - a) + 1 by omega] at h
    refine enumBlocks_window hn rfl _ _ _ _ h (hv.blocks (some i2b) s.prevBlock) ?_ hal hlo hhi hb
    intro b hb
    simp only [hs] at hb
    exact absurd hb (by simp)

theorem enumerator_window {t : UTrie2} {err start : Nat} {out : List (Run α)} (hr : Represents t f err) (hn : NullsOk t)
    (h : enumerator t g start limit = .ok out) (hal : start % 32 = 0) (hlt : start < limit)
    (hwin : limit ≤ start + 2048 ∧ (limit ≤ 0xD800 ∨ start = 0xDC00 ∧ limit ≤ 0xE000 ∨ 0xE000 ≤ start ∧ limit ≤ 0x10000) ∨
      0x10000 ≤ start ∧ start / 2048 = (limit - 1) / 2048) (hhs : limit ≤ t.highStart)
    (hmax : limit ≤ 0x110000) :
    ∀ r ∈ out, ∀ c, r.start ≤ c → c < r.stop → r.value = g (f c) := by
  obtain ⟨s, h1, h2⟩ := bind_ok h
  have key : VInv f g limit s ∧ limit ≤ s.c := by
    obtain ⟨n, hnn⟩ : ∃ n, limit - start = n + 1 := ⟨limit - start - 1, by omega⟩
    rw [hnn] at h1
    simp only [enumLoop] at h1
    rw [if_pos (by omega)] at h1
    obtain ⟨s1, hp, hl⟩ := bind_ok h1
    have hv0 : VInv f g limit (⟨[], none, none, start, g 0, start⟩ : EState α) :=
      ⟨fun r hr => by simp at hr, fun c h1 h2 => by simp only at h1 h2; omega⟩
    have done : VInv f g limit s1 ∧ limit ≤ s1.c → VInv f g limit s ∧ limit ≤ s.c := by
      intro hx
      have : enumLoop t g limit n s1 = .ok s1 := by
        cases n <;> simp only [enumLoop] <;> rw [if_neg (by omega)]
      rw [this] at hl
      simp only [Except.ok.injEq] at hl
      exact hl ▸ hx
    apply done
    rcases enumPass_cases t g limit (⟨[], none, none, start, g 0, start⟩ : EState α) with ⟨a, e⟩ | ⟨a, e⟩ | ⟨a, e⟩ | ⟨a, e⟩
    · rw [e] at hp
      simp only at a hp
      rw [show min (min (start + 2048) limit) 0x10000 = limit by omega] at hp
      refine enumGroup_window hn hp hv0 rfl hal hlt (i2Bounds_bmp _ _ _ (by simp only; omega)) (by omega) (by simp only; omega) (by simp only; omega)
        (by simp only; omega) ?_
      intro k hk
      simp only at hk ⊢
      have := hr.bmp (start / 32 + k) (by omega) (by omega)
      rw [show 0 + k = k by omega]
      rw [show start + 32 * k = 32 * (start / 32 + k) by omega]
      exact this
    · simp only at a; omega
    · rw [e] at hp
      simp only at a hp
      have hst : start = 0xDC00 := by omega
      subst hst
      rw [show min 0xE000 limit = limit by omega] at hp
      refine enumGroup_window hn hp hv0 rfl hal hlt (i2Bounds_bmp _ _ _ (by simp only; omega)) (by omega) (by simp only; omega) (by simp only; omega)
        (by simp only; omega) ?_
      intro k hk
      simp only at hk ⊢
      have := hr.bmp (0x6E0 + k) (by omega) (by omega)
      rw [show 0 + k = k by omega]
      rw [show 0xDC00 + 32 * k = 32 * (0x6E0 + k) by omega]
      exact this
    · rw [e] at hp
      obtain ⟨i2, hi2, hp⟩ := bind_ok hp
      simp only at a hp hi2
      rw [if_neg (by simp)] at hp
      rw [show min (start + 2048) limit = limit by omega] at hp
      have hal2 := hr.aligned
      obtain ⟨i2', hi2', hm⟩ := hr.supp (start / 2048) (by omega) (by omega) (by omega)
      rw [show 2112 + (start / 2048 - 32) = 2080 + start / 2048 by omega, hi2] at hi2'
      simp only [Except.ok.injEq] at hi2'
      subst hi2'
      have hb : ∀ k, start + 32 * k < limit → BlockAt t.index (i2 + (start / 32 % 64 + k)) f (start + 32 * k) := by
        intro k hk
        have := hm (start / 32 % 64 + k) (by omega)
        rw [show start + 32 * k = 2048 * (start / 2048) + 32 * (start / 32 % 64 + k) by omega]
        exact this
      rcases i2Bounds_supp start limit i2 (by omega) with ⟨x, e⟩ | ⟨x, e⟩
      · exact enumGroup_window hn hp hv0 rfl hal hlt e (by omega) (by simp only; omega) (by simp only; omega) (by simp only; omega) hb
      · exact enumGroup_window hn hp hv0 rfl hal hlt e (by omega) (by simp only; omega) (by simp only; omega) (by simp only; omega) hb
  obtain ⟨s1, h3, h4⟩ := bind_ok h2
  have hs1 : s1 = { s with c := limit } := by
    split at h3
    · simp only [Except.ok.injEq] at h3; exact h3.symm
    · rw [if_neg (by omega)] at h3
      simp only [Except.ok.injEq] at h3
      rw [← h3, show limit = s.c by omega]
  subst hs1
  simp only [pure, Except.pure, Except.ok.injEq] at h4
  subst h4
  split
  · intro r hr c hc1 hc2
    rcases List.mem_append.1 hr with hr | hr
    · exact key.1.out r hr c hc1 hc2
    · simp only [List.mem_singleton] at hr
      subst hr
      exact key.1.opened c hc1 (by simp only at hc2; omega) hc2
  · exact key.1.out

end UTrie2
end Verif

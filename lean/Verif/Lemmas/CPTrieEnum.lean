import Verif.Lemmas.CPTrieGet
/-! # The UCPTrie enumerator on the windows where it is right -/
namespace Verif.CPTrie
open Verif.CPTrie.Spec Verif.Spec
open UTrie2 (Run tiles_snoc differ_snoc)

/-- The yielded runs and the open run describe `f` up to `c`. -/
structure Inv (f : Nat → Nat) (start limit : Nat) (s : EState) : Prop where
  tiles : Tiles s.out start s.prev
  differ : NeighboursDiffer s.out
  last : ∀ r, s.out.getLast? = some r → r.value ≠ s.prevValue
  le : s.prev ≤ s.c
  grown : s.prev < s.c ∨ s.out = []
  lim : s.prev ≤ limit
  vals : ∀ r ∈ s.out, ∀ c, r.start ≤ c → c < r.stop → r.value = f c
  cur : ∀ c, s.prev ≤ c → c < s.c → c < limit → s.prevValue = f c

theorem Inv.blocks {f : Nat → Nat} {start limit : Nat} {s : EState} (h : Inv f start limit s) (a b : Option Nat) :
    Inv f start limit { s with prevI3Block := a, prevBlock := b } :=
  ⟨h.tiles, h.differ, h.last, h.le, h.grown, h.lim, h.vals, h.cur⟩

theorem switch_c (s : EState) (v : Nat) : (s.switch v).c = s.c := by unfold EState.switch; split <;> rfl
theorem switch_value (s : EState) (v : Nat) : (s.switch v).prevValue = v := by
  unfold EState.switch; split <;> simp_all
theorem switch_prev (s : EState) (v : Nat) (h : s.prev ≤ s.c) : (s.switch v).prev ≤ s.c := by
  unfold EState.switch; split <;> simp [h]
theorem switch_prevBlock (s : EState) (v : Nat) : (s.switch v).prevBlock = s.prevBlock := by
  unfold EState.switch; split <;> rfl
theorem switch_prevI3Block (s : EState) (v : Nat) : (s.switch v).prevI3Block = s.prevI3Block := by
  unfold EState.switch; split <;> rfl

theorem Inv.switch {f : Nat → Nat} {start limit : Nat} {s : EState} (h : Inv f start limit s) (v c' : Nat)
    (hc : s.c < limit) (hc' : s.c < c') (hv : ∀ c, s.c ≤ c → c < c' → c < limit → v = f c) :
    Inv f start limit { s.switch v with c := c' } := by
  unfold EState.switch
  by_cases hne : v ≠ s.prevValue
  · simp only [if_pos hne]
    by_cases hp : s.prev < s.c
    · simp only [if_pos hp]
      refine ⟨tiles_snoc _ h.tiles rfl hp rfl, differ_snoc _ h.differ h.last, ?_, by simp; omega, .inl (by simpa using hc'),
        by simp; omega, ?_, ?_⟩
      · intro r hr
        simp at hr
        subst hr
        exact fun e => hne e.symm
      · intro r hr c h1 h2
        simp only [List.mem_append, List.mem_singleton] at hr
        rcases hr with hr | rfl
        · exact h.vals r hr c h1 h2
        · exact h.cur c h1 h2 (by simp only at h2; omega)
      · intro c h1 h2 h3
        exact hv c h1 h2 h3
    · simp only [if_neg hp]
      have ho : s.out = [] := h.grown.resolve_left hp
      have he : s.prev = s.c := by have := h.le; omega
      refine ⟨he ▸ h.tiles, h.differ, ?_, by simp; omega, .inr ho, by simp; omega, ?_, fun c h1 h2 h3 => hv c h1 h2 h3⟩
      · intro r hr; simp [ho] at hr
      · intro r hr; simp [ho] at hr
  · simp only [if_neg hne]
    refine ⟨h.tiles, h.differ, h.last, by have := h.le; simp; omega, .inl (by have := h.le; simp; omega), h.lim, h.vals, ?_⟩
    intro c h1 h2 h3
    simp only at h1 h2 ⊢
    by_cases hlt : c < s.c
    · exact h.cur c h1 hlt h3
    · have : v = s.prevValue := Decidable.not_not.1 hne
      rw [← this]
      exact hv c (by omega) h2 h3

theorem Inv.extend {f : Nat → Nat} {start limit : Nat} {s : EState} (h : Inv f start limit s) (c' : Nat)
    (hc' : s.c ≤ c') (hv : ∀ c, s.c ≤ c → c < c' → c < limit → s.prevValue = f c) :
    Inv f start limit { s with c := c' } := by
  refine ⟨h.tiles, h.differ, h.last, by have := h.le; simp; omega, ?_, h.lim, h.vals, ?_⟩
  · rcases h.grown with g | g
    · exact .inl (by simp; omega)
    · exact .inr g
  · intro c h1 h2 h3
    simp only at h1 h2 ⊢
    by_cases hlt : c < s.c
    · exact h.cur c h1 hlt h3
    · exact hv c (by omega) h2 h3

theorem enumValues_spec {t : CPTrie} {f : Nat → Nat} {start limit n p b : Nat} (hb : b % n = 0)
    (hd : ∀ j < n, t.data.get (p + j) = .ok (f (b + j))) : ∀ (fuel di : Nat) (s : EState), Inv f start limit s → s.prev < s.c →
    b < s.c → s.c ≤ b + n → s.c ≤ limit → di = p + (s.c - b) → b + n ≤ s.c + fuel →
    ∃ s', enumValues t limit n fuel di s = .ok s' ∧ Inv f start limit s' ∧ s'.prev < s'.c ∧ s'.c = min limit (b + n) ∧
      s'.prevBlock = s.prevBlock ∧ s'.prevI3Block = s.prevI3Block := by
  have hmod : ∀ c, b < c → c < b + n → c % n ≠ 0 := by
    intro c h1 h2 h3
    obtain ⟨q, rfl⟩ := Nat.dvd_of_mod_eq_zero hb
    obtain ⟨r, rfl⟩ := Nat.dvd_of_mod_eq_zero h3
    have h1' := Nat.lt_of_mul_lt_mul_left h1
    have : n * r < n * (q + 1) := by rw [Nat.mul_add, Nat.mul_one]; exact h2
    have := Nat.lt_of_mul_lt_mul_left this
    omega
  intro fuel
  induction fuel with
  | zero =>
    intro di s hi hp h1 h2 h3 h4 h5
    have e : s.c = b + n := by omega
    refine ⟨s, ?_, hi, hp, by omega, rfl, rfl⟩
    simp only [enumValues]
    rw [if_neg]
    rw [e, Nat.add_mod_right, hb]
    simp
  | succ fuel ih =>
    intro di s hi hp h1 h2 h3 h4 h5
    simp only [enumValues]
    by_cases hc : s.c < limit ∧ s.c % n ≠ 0
    · rw [if_pos hc]
      have hlt : s.c < b + n := by
        rcases Nat.lt_or_ge s.c (b + n) with h | h
        · exact h
        · have : s.c = b + n := by omega
          rw [this, Nat.add_mod_right, hb] at hc
          exact absurd rfl hc.2
      have hv := hd (s.c - b) (by omega)
      rw [show b + (s.c - b) = s.c by omega, ← h4] at hv
      rw [hv]
      simp only [bind, Except.bind]
      have hsw := hi.switch (f s.c) (s.c + 1) hc.1 (by omega) (fun c a1 a2 _ => by
        have : c = s.c := by omega
        rw [this])
      obtain ⟨s', g1, g2, g3, g4, g5, g6⟩ := ih (di + 1) { s.switch (f s.c) with c := s.c + 1 } hsw
        (by have := switch_prev s (f s.c) hi.le; simp only; omega) (by simp only; omega) (by simp only; omega) (by simp only; omega)
        (by simp only; omega) (by simp only; omega)
      refine ⟨s', ?_, g2, g3, g4, ?_, ?_⟩
      · rw [switch_c]; exact g1
      · rw [g5]; exact switch_prevBlock _ _
      · rw [g6]; exact switch_prevI3Block _ _
    · rw [if_neg hc]
      refine ⟨s, rfl, hi, hp, ?_, rfl, rfl⟩
      by_cases hl : s.c < limit
      · have h0 : s.c % n = 0 := by
          rcases Nat.eq_zero_or_pos (s.c % n) with h | h
          · exact h
          · exact absurd ⟨hl, by omega⟩ hc
        have : s.c = b + n := by
          rcases Nat.lt_or_ge s.c (b + n) with h | h
          · exact absurd h0 (hmod _ h1 h)
          · omega
        omega
      · omega

/-- One data block. -/
theorem enumBlock_spec {t : CPTrie} {f : Nat → Nat} {start limit nv n e i3 p : Nat} {s : EState} (hn : 0 < n)
    (hi : Inv f start limit s) (hc : s.c < limit) (hp : t.blockAt e i3 = .ok p)
    (hd : ∀ j < n, t.data.get (p + j) = .ok (f (s.c / n * n + j)))
    (hnull : p = t.dataNullOffset → ∀ j < n, f (s.c / n * n + j) = nv)
    (hrep : s.prevBlock = some p → s.c % n = 0 ∧ s.prev < s.c ∧ ∀ j < n, f (s.c / n * n + j) = s.prevValue) :
    ∃ s', enumBlock t start limit nv n e i3 s = .ok s' ∧ Inv f start limit s' ∧ s'.prev < s'.c ∧ s'.prevBlock = some p ∧
      s'.prevI3Block = s.prevI3Block ∧ (s'.c = s.c / n * n + n ∨ (limit ≤ s'.c ∧ s'.c ≤ s.c / n * n + n)) := by
  have hdm : s.c / n * n + s.c % n = s.c := by rw [Nat.mul_comm]; exact Nat.div_add_mod _ _
  have hml : s.c % n < n := Nat.mod_lt _ hn
  unfold enumBlock
  rw [hp]
  simp only [bind, Except.bind, pure, Except.pure]
  by_cases h1 : s.prevBlock = some p ∧ s.c - start ≥ n
  · rw [if_pos h1]
    obtain ⟨r1, r2, r3⟩ := hrep h1.1
    rw [if_pos r1]
    refine ⟨_, rfl, hi.extend _ (by omega) ?_, by simp only; omega, h1.1, rfl, .inl ?_⟩
    · intro c a1 a2 _
      have := r3 (c - s.c) (by omega)
      rw [show s.c / n * n + (c - s.c) = c by omega] at this
      exact this.symm
    · show s.c + n = _; omega
  · rw [if_neg h1]
    by_cases h2 : p = t.dataNullOffset
    · rw [if_pos h2]
      simp only [switch_c]
      have ec : (s.c + n) / n * n = s.c / n * n + n := by
        rw [Nat.add_div_right _ hn, Nat.succ_mul]
      rw [ec]
      refine ⟨_, rfl, (hi.blocks _ (some p)).switch nv (s.c / n * n + n) hc (by simp only; omega) ?_, ?_, ?_, ?_, .inl rfl⟩
      · intro c a1 a2 _
        simp only at a1
        have := hnull h2 (c - s.c / n * n) (by omega)
        rw [show s.c / n * n + (c - s.c / n * n) = c by omega] at this
        exact this.symm
      · have := switch_prev ({ s with prevBlock := some p } : EState) nv hi.le
        simp only at this ⊢; omega
      · exact switch_prevBlock _ _
      · exact switch_prevI3Block _ _
    · rw [if_neg h2]
      have hv := hd (s.c % n) hml
      rw [hdm] at hv
      rw [hv]
      simp only [switch_c]
      obtain ⟨s', g1, g2, g3, g4, g5, g6⟩ := enumValues_spec (t := t) (f := f) (start := start) (limit := limit) (n := n)
        (p := p) (b := s.c / n * n) (Nat.mul_mod_left _ _) hd n (p + s.c % n + 1)
        { EState.switch { s with prevBlock := some p } (f s.c) with c := s.c + 1 }
        ((hi.blocks _ (some p)).switch (f s.c) (s.c + 1) hc (by simp only; omega) (fun c a1 a2 _ => by
          simp only at a1
          have : c = s.c := by omega
          rw [this]))
        (by have := switch_prev ({ s with prevBlock := some p } : EState) (f s.c) hi.le
            simp only at this ⊢; omega)
        (by simp only; omega) (by simp only; omega) (by simp only; omega) (by simp only; omega) (by simp only; omega)
      refine ⟨s', g1, g2, g3, ?_, ?_, ?_⟩
      · rw [g5]; exact switch_prevBlock _ _
      · rw [g6]; exact switch_prevI3Block _ _
      · rw [g4]
        rcases Nat.lt_or_ge limit (s.c / n * n + n) with h | h
        · right; omega
        · left; omega

/-- Consecutive data blocks: `pos i` is the position of the block with the values of the code points from `n * i` on, for
`lo ≤ i < hi`. -/
structure BlockSeq (t : CPTrie) (f : Nat → Nat) (nv n e off lo hi : Nat) (pos : Nat → Nat) : Prop where
  at' : ∀ i, lo ≤ i → i < hi → t.blockAt e (i - off) = .ok (pos i)
  data : ∀ i, lo ≤ i → i < hi → ∀ j < n, t.data.get (pos i + j) = .ok (f (n * i + j))
  null : ∀ i, lo ≤ i → i < hi → pos i = t.dataNullOffset → ∀ j < n, f (n * i + j) = nv
  uniform : ∀ i, lo ≤ i → i + 1 < hi → pos i = pos (i + 1) → ∀ j < n, f (n * i + j) = f (n * i)

theorem enumBlocks_spec {t : CPTrie} {f : Nat → Nat} {start limit nv n e off lo hi : Nat} {pos : Nat → Nat} (hn : 0 < n)
    (hs : BlockSeq t f nv n e off lo hi pos) : ∀ (k i : Nat) (s : EState), Inv f start limit s → lo ≤ i → off ≤ i → i + k ≤ hi →
    (s.c / n = i ∨ limit ≤ s.c) →
    (s.c < limit → ∀ q, s.prevBlock = some q → s.c % n = 0 ∧ s.prev < s.c ∧ lo < i ∧ q = pos (i - 1)) →
    ∃ s', enumBlocks t start limit nv n e k (i - off) s = .ok s' ∧ Inv f start limit s' ∧ s'.prevI3Block = s.prevI3Block ∧
      (limit ≤ s'.c ∨ k = 0 ∨ s'.c = n * (i + k)) ∧ s.c ≤ s'.c ∧ (0 < k → s.c < limit → s.c < s'.c) ∧ (k = 0 → s' = s) := by
  intro k
  induction k with
  | zero => intro i s hi' _ _ _ _ _; exact ⟨s, rfl, hi', rfl, .inr (.inl rfl), by omega, fun h => absurd h (by omega), fun _ => rfl⟩
  | succ k ih =>
    intro i s hi' h1 h2 h3 h4 h5
    simp only [enumBlocks]
    by_cases hc : s.c ≥ limit
    · rw [if_pos hc]
      exact ⟨s, rfl, hi', rfl, .inl hc, by omega, fun _ h => absurd h (by omega), fun h => absurd h (by omega)⟩
    · rw [if_neg hc]
      have hic : s.c / n = i := by omega
      have ebase : s.c / n * n = n * i := by rw [hic, Nat.mul_comm]
      have hdm : s.c / n * n + s.c % n = s.c := by rw [Nat.mul_comm]; exact Nat.div_add_mod _ _
      have hml : s.c % n < n := Nat.mod_lt _ hn
      obtain ⟨s1, g1, g2, g3, g4, g5, g6⟩ := enumBlock_spec (t := t) (f := f) (start := start) (limit := limit) (nv := nv) (n := n)
        (e := e) (i3 := i - off) (p := pos i) (s := s) hn hi' (by omega) (hs.at' i h1 (by omega))
        (by rw [ebase]; exact hs.data i h1 (by omega)) (by rw [ebase]; exact hs.null i h1 (by omega))
        (by
          intro hq
          obtain ⟨a1, a2, a3, a4⟩ := h5 (by omega) _ hq
          refine ⟨a1, a2, fun j hj => ?_⟩
          have hu := hs.uniform (i - 1) (by omega) (by omega) (by rw [show i - 1 + 1 = i by omega]; exact a4.symm)
          have hd0 := hs.data i h1 (by omega) j hj
          have hd1 := hs.data (i - 1) (by omega) (by omega) j hj
          rw [a4, hd1] at hd0
          have e0 : f (n * (i - 1) + j) = f (n * i + j) := Except.ok.inj hd0
          rw [ebase, ← e0, hu j hj, ← hu (n - 1) (by omega)]
          have e1 : n * (i - 1) + n = n * i := by
            rw [← Nat.mul_succ]; congr 1; omega
          have e2 := hu (n - 1) (by omega)
          rw [hi'.cur (s.c - 1) (by omega) (by omega) (by omega)]
          congr 1
          omega)
      rw [g1]
      simp only [bind, Except.bind]
      rw [ebase] at g6
      obtain ⟨s2, k1, k2, k3, k4, k5, k6, k7⟩ := ih (i + 1) s1 g2 (by omega) (by omega) (by omega)
        (by
          rcases g6 with g | g
          · left
            rw [g, ← Nat.mul_succ, Nat.mul_div_cancel_left _ hn]
          · exact .inr g.1)
        (by
          intro hlt q hq
          rw [g4, Option.some.injEq] at hq
          rcases g6 with g | g
          · refine ⟨?_, g3, by omega, by rw [show i + 1 - 1 = i by omega]; exact hq.symm⟩
            rw [g, ← Nat.mul_succ, Nat.mul_mod_right]
          · omega)
      have hmono : s.c < s1.c := by rcases g6 with g | g <;> omega
      rw [show i + 1 - off = i - off + 1 by omega] at k1
      refine ⟨s2, k1, k2, by rw [k3, g5], ?_, by omega, fun _ _ => by omega, fun h => absurd h (by omega)⟩
      rcases k4 with k4 | k4 | k4
      · exact .inl k4
      · have e := k7 k4
        subst k4
        rw [e]
        rcases g6 with g | g
        · right; right
          rw [g, ← Nat.mul_succ]
        · exact .inl g.1
      · right; right; rw [k4]; congr 1; omega

/-- Whenever the null data block or the null index-3 block is used, it is used for values that are all `nv`, and `nv` is the
value stored at `dataNullOffset`. -/
structure NullsOk (t : CPTrie) (f : Nat → Nat) (nv : Nat) : Prop where
  value : t.data.get t.dataNullOffset = .ok nv
  fast : ∀ b, 64 * b < fastLimit t → t.index.get b = .ok t.dataNullOffset → ∀ j < 64, f (64 * b + j) = nv
  multi : ∀ g i2, fastLimit t ≤ 512 * g → 512 * g < t.highStart → t.index.get (index1Pos t g) = .ok i2 →
    t.index.get (i2 + g % 32) = .ok t.index3NullOffset → ∀ j < 512, f (512 * g + j) = nv

theorem enumLoop_succ (t : CPTrie) (start limit nv n : Nat) (s : EState) : enumLoop t start limit nv (n + 1) s =
    if s.c < limit ∧ s.c < t.highStart then enumPass t start limit nv s >>= enumLoop t start limit nv n else .ok s := rfl

/-- The first pass: all data blocks of the code points below 0x1000. -/
theorem fast_pass {t : CPTrie} {f : Nat → Nat} {err start limit nv : Nat} {s : EState} (h : Represents t f err) (hn : NullsOk t f nv)
    (hu : ∀ b p, b < 63 → t.index.get b = .ok p → t.index.get (b + 1) = .ok p → ∀ j < 64, f (64 * b + j) = f (64 * b))
    (hi : Inv f start limit s) (hc : s.c < 0x1000) (hl : s.c < limit) (hp : s.prevBlock = none) :
    ∃ s', enumPass t start limit nv s = .ok s' ∧ Inv f start limit s' ∧ s'.prevI3Block = s.prevI3Block ∧
      (limit ≤ s'.c ∨ s'.c = 0x1000) := by
  have hfl : 0x1000 ≤ fastLimit t := by unfold fastLimit; split <;> omega
  have hb : ∀ b < 64, ∃ p, t.index.get b = .ok p ∧ ∀ j < 64, t.data.get (p + j) = .ok (f (64 * b + j)) :=
    fun b hb => h.fast b (by omega)
  let pos : Nat → Nat := fun b => t.index.at' b
  have hpos : ∀ b < 64, t.index.get b = .ok (pos b) := by
    intro b hb'
    obtain ⟨p, hp, _⟩ := hb b hb'
    unfold Arr.get at hp ⊢
    split at hp
    · rename_i h'; rw [if_pos h']
    · simp at hp
  have hseq : BlockSeq t f nv 64 0 0 0 64 pos := by
    refine ⟨?_, ?_, ?_, ?_⟩
    · intro i _ hi
      unfold blockAt
      rw [if_pos (by decide), Nat.zero_add]
      exact hpos i hi
    · intro i _ hi j hj
      obtain ⟨p, hp, hv⟩ := hb i hi
      rw [hpos i hi, Except.ok.injEq] at hp
      rw [hp]; exact hv j hj
    · intro i _ hi he j hj
      exact hn.fast i (by omega) (by rw [hpos i hi, he]) j hj
    · intro i _ hi he j hj
      exact hu i (pos i) (by omega) (hpos i (by omega)) (by rw [hpos (i + 1) hi, he]) j hj
  obtain ⟨s', g1, g2, g3, g4, g5, g6, g7⟩ := enumBlocks_spec (t := t) (start := start) (limit := limit) (by omega) hseq (64 - s.c / 64) (s.c / 64) s
    hi (by omega) (by omega) (by omega) (.inl rfl) (fun _ q hq => by rw [hp] at hq; simp at hq)
  refine ⟨s', ?_, g2, g3, ?_⟩
  · unfold enumPass
    rw [if_pos ⟨by omega, .inr (by show s.c ≤ 0xFFF; omega)⟩]
    exact g1
  · omega

/-- The passes above 0x1000 of a small type trie with null index-3 blocks only. -/
theorem null_passes {t : CPTrie} {f : Nat → Nat} {start limit nv : Nat} (hn : NullsOk t f nv)
    (hty : t.trieType = 1) (hlim : limit ≤ t.highStart)
    (hz : ∀ g, 0x1000 ≤ 512 * g → 512 * g < limit → ∃ i2, t.index.get (index1Pos t g) = .ok i2 ∧ t.index.get (i2 + g % 32) = .ok t.index3NullOffset) :
    ∀ (fuel : Nat) (s : EState), Inv f start limit s → 0x1000 ≤ s.c → limit ≤ s.c + fuel →
    (∀ e, s.prevI3Block = some e → s.c % 512 = 0 ∧ s.prevValue = nv) →
    ∃ s', enumLoop t start limit nv fuel s = .ok s' ∧ Inv f start limit s' ∧ limit ≤ s'.c := by
  have hfl : fastLimit t = 0x1000 := by unfold fastLimit; rw [if_neg (by omega)]
  intro fuel
  induction fuel with
  | zero =>
    intro s hi h1 h2 _
    refine ⟨s, ?_, hi, by omega⟩
    simp only [enumLoop]
    rw [if_neg (by omega)]
  | succ fuel ih =>
    intro s hi h1 h2 h3
    simp only [enumLoop]
    by_cases hc : s.c < limit
    · rw [if_pos ⟨hc, by omega⟩]
      obtain ⟨i2, z1, z2⟩ := hz (s.c / 512) (by omega) (by omega)
      have hb : t.i3BlockOf s.c = .ok t.index3NullOffset := by
        unfold i3BlockOf
        rw [index1_eq (.inr hty) (by omega), z1]
        exact z2
      have hval : ∀ c, s.c / 512 = c / 512 → f c = nv := by
        intro c hcc
        have := hn.multi (s.c / 512) i2 (by omega) (by omega) z1 z2 (c % 512) (by omega)
        rw [show 512 * (s.c / 512) + c % 512 = c by omega] at this
        exact this
      unfold enumPass
      rw [if_neg (by
        simp only [SMALL_MAX, TYPE_FAST]
        omega)]
      rw [if_neg (by
        rw [if_neg (by simp only [TYPE_FAST]; omega)]
        simp only [SMALL_LIMIT]
        omega), hb]
      simp only [bind, Except.bind, pure, Except.pure]
      rw [show CP_PER_INDEX_2_ENTRY = 512 by rfl]
      by_cases h4 : some t.index3NullOffset = s.prevI3Block ∧ s.c - start ≥ 512
      · obtain ⟨b1, b2⟩ := h3 _ h4.1.symm
        rw [if_pos h4, if_pos b1]
        exact ih _ (hi.extend (s.c + 512) (by omega) (fun c a1 a2 _ => by
          rw [hval c (by omega)]; exact b2)) (by simp only; omega) (by simp only; omega)
          (fun e _ => ⟨by simp only; omega, b2⟩)
      · rw [if_neg h4]
        simp only [↓reduceIte, switch_c]
        have key := (hi.blocks (some t.index3NullOffset) s.prevBlock).switch nv ((s.c + 512) / 512 * 512) hc (by simp only; omega)
          (fun c a1 a2 _ => (hval c (by simp only at a1; omega)).symm)
        refine ih _ (key.blocks _ (some t.dataNullOffset)) (by simp only; omega) (by simp only; omega)
          (fun e _ => ⟨by simp only; omega, switch_value _ _⟩)
    · rw [if_neg (by omega)]
      exact ⟨s, rfl, hi, by omega⟩

theorem enumFinish_spec {t : CPTrie} {f : Nat → Nat} {start limit : Nat} {s : EState} (hi : Inv f start limit s) (hl : limit ≤ s.c) :
    ∃ out, enumFinish t limit s = .ok out ∧ Tiles out start limit ∧ NeighboursDiffer out ∧
      ∀ r ∈ out, ∀ c, r.start ≤ c → c < r.stop → r.value = f c := by
  have key : enumFinish t limit s = .ok (if s.prev < limit then s.out ++ [⟨s.prev, limit, s.prevValue⟩] else s.out) := by
    unfold enumFinish
    by_cases h : s.c > limit
    · rw [if_pos h]; rfl
    · have : s.c = limit := by omega
      rw [if_neg h, if_neg (by omega)]
      subst this
      rfl
  rw [key]
  refine ⟨_, rfl, ?_⟩
  by_cases h : s.prev < limit
  · rw [if_pos h]
    refine ⟨tiles_snoc _ hi.tiles rfl h rfl, differ_snoc _ hi.differ hi.last, fun r hr c h1 h2 => ?_⟩
    simp only [List.mem_append, List.mem_singleton] at hr
    rcases hr with hr | rfl
    · exact hi.vals r hr c h1 h2
    · exact hi.cur c h1 (by simp only at h2; omega) h2
  · rw [if_neg h]
    have := hi.lim
    have e : s.prev = limit := by omega
    exact ⟨e ▸ hi.tiles, hi.differ, hi.vals⟩

theorem enumerator_spec {t : CPTrie} {f : Nat → Nat} {err start limit nv : Nat} (h : Represents t f err) (hn : NullsOk t f nv)
    (hu : ∀ b p, b < 63 → t.index.get b = .ok p → t.index.get (b + 1) = .ok p → ∀ j < 64, f (64 * b + j) = f (64 * b))
    (h1 : start < limit) (h2 : start < t.highStart) (h0 : limit ≤ 0x110000)
    (hw : limit ≤ 0x1000 ∨ (t.trieType = 1 ∧ limit ≤ t.highStart ∧ ∀ g, 0x1000 ≤ 512 * g → 512 * g < limit →
      ∃ i2, t.index.get (index1Pos t g) = .ok i2 ∧ t.index.get (i2 + g % 32) = .ok t.index3NullOffset)) :
    ∃ out, t.enumerator start limit = .ok out ∧ Tiles out start limit ∧ NeighboursDiffer out ∧
      ∀ r ∈ out, ∀ c, r.start ≤ c → c < r.stop → r.value = f c := by
  have hinit : Inv f start limit ⟨[], none, none, start, nv, start⟩ :=
    ⟨rfl, trivial, fun r hr => by simp at hr, Nat.le_refl _, .inr rfl, by show start ≤ limit; omega,
      fun r hr => by simp at hr, fun c a1 a2 _ => by simp only at a1 a2; omega⟩
  have hloop : ∃ s', enumLoop t start limit nv (2 * (limit - start) + 2) ⟨[], none, none, start, nv, start⟩ = .ok s' ∧
      Inv f start limit s' ∧ limit ≤ s'.c := by
    by_cases hc : start < 0x1000
    · obtain ⟨s1, g1, g2, g3, g4⟩ := fast_pass (s := ⟨[], none, none, start, nv, start⟩) h hn hu hinit hc h1 rfl
      rw [show 2 * (limit - start) + 2 = 2 * (limit - start) + 1 + 1 by omega, enumLoop_succ, if_pos ⟨h1, h2⟩]
      rw [g1]
      simp only [bind, Except.bind]
      by_cases hl : limit ≤ s1.c
      · rw [enumLoop_succ, if_neg (by omega)]
        exact ⟨s1, rfl, g2, hl⟩
      · rcases hw with hw | ⟨w1, w2, w3⟩
        · omega
        · exact null_passes hn w1 w2 w3 _ s1 g2 (by omega) (by omega) (fun e he => by rw [g3] at he; simp at he)
    · rcases hw with hw | ⟨w1, w2, w3⟩
      · omega
      · exact null_passes hn w1 w2 w3 _ _ hinit (by show 0x1000 ≤ start; omega) (by show limit ≤ start + _; omega)
          (fun e he => by simp at he)
  obtain ⟨s', l1, l2, l3⟩ := hloop
  obtain ⟨out, o1, o2⟩ := enumFinish_spec (t := t) l2 l3
  refine ⟨out, ?_, o2⟩
  unfold enumerator enumeratorFuel
  rw [if_neg (by omega), hn.value]
  simp only [bind, Except.bind]
  rw [l1]
  exact o1

end Verif.CPTrie

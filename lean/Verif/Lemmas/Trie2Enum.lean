import Verif.Lemmas.Trie2Get
import Verif.Lemmas.Bits
/-! # The UTrie2 enumerator: termination and tiling -/
namespace Verif
open Spec

theorem bind_ok {α β : Type} {x : Py α} {f : α → Py β} {b : β} (h : (x >>= f) = .ok b) :
    ∃ a, x = .ok a ∧ f a = .ok b := by
  cases x with
  | error e => simp [bind, Except.bind] at h
  | ok a => exact ⟨a, rfl, h⟩

theorem bind_err {α β : Type} {x : Py α} {f : α → Py β} {e : PyErr} (h : (x >>= f) = .error e) :
    x = .error e ∨ ∃ a, x = .ok a ∧ f a = .error e := by
  cases x with
  | error e => left; simpa [bind, Except.bind] using h
  | ok a => exact .inr ⟨a, rfl, h⟩

theorem Arr.get_err {a : Arr} {i : Nat} {e : PyErr} (h : a.get i = .error e) : e = .indexError := by
  unfold Arr.get at h; split at h <;> simp_all

namespace UTrie2
variable {α : Type} [DecidableEq α]
set_option linter.unusedSectionVars false

theorem enumBlock_eq (t : UTrie2) (f : Nat → α) (tl i2b i2 : Nat) (s : EState α) : enumBlock t f tl i2b i2 s =
    (t.index.get (i2b + i2)).bind fun e =>
      if s.prevBlock = some (e * 4) ∧ s.c - s.prev ≥ 32 then .ok { s with c := s.c + 32 }
      else if e * 4 = t.dataNullOffset then
        .ok { ({ s with prevBlock := some (e * 4) } : EState α).switch (f t.initialValue) with
              c := (({ s with prevBlock := some (e * 4) } : EState α).switch (f t.initialValue)).c + 32 }
      else enumValues t f (e * 4) (min 32 (s.c % 32 + tl - s.c) - s.c % 32) (s.c % 32)
        { s with prevBlock := some (e * 4) } := rfl

theorem i2Bounds_eq (c tl i2b : Nat) : i2Bounds c tl i2b =
    if c ≤ 0xFFFF then (0, tl / 32 - i2b)
    else (c / 32 % 64, if c / 2048 ≠ tl / 2048 then 64 else tl / 32 % 64) := rfl

theorem i2Bounds_bmp (c tl i2b : Nat) (h : c ≤ 0xFFFF) : i2Bounds c tl i2b = (0, tl / 32 - i2b) := by
  rw [i2Bounds_eq, if_pos h]

theorem i2Bounds_supp (c tl i2b : Nat) (h : 0xFFFF < c) :
    (c / 2048 = tl / 2048 ∧ i2Bounds c tl i2b = (c / 32 % 64, tl / 32 % 64)) ∨
    (c / 2048 ≠ tl / 2048 ∧ i2Bounds c tl i2b = (c / 32 % 64, 64)) := by
  rw [i2Bounds_eq, if_neg (by omega)]
  by_cases h2 : c / 2048 = tl / 2048
  · left; rw [if_neg (by simpa using h2)]; exact ⟨h2, rfl⟩
  · right; rw [if_pos h2]; exact ⟨h2, rfl⟩

theorem tiles_snoc {out : List (Run α)} {lo mid hi : Nat} (r : Run α) (h : Tiles out lo mid) (h1 : r.start = mid)
    (h2 : r.start < r.stop) (h3 : r.stop = hi) : Tiles (out ++ [r]) lo hi := by
  induction out generalizing lo with
  | nil => simp only [Tiles] at h; subst h; exact ⟨h1, h2, h3⟩
  | cons a l ih => exact ⟨h.1, h.2.1, ih h.2.2⟩

theorem differ_snoc {out : List (Run α)} (r : Run α) (h : NeighboursDiffer out)
    (hl : ∀ x, out.getLast? = some x → x.value ≠ r.value) : NeighboursDiffer (out ++ [r]) := by
  induction out with
  | nil => trivial
  | cons a l ih =>
    cases l with
    | nil => exact ⟨hl a rfl, trivial⟩
    | cons b l' => exact ⟨h.1, ih h.2 (fun x hx => hl x (by simpa [List.getLast?] using hx))⟩

/-- What the enumerator keeps true between steps: the yielded runs tile up to the open range. -/
structure TInv (start limit : Nat) (s : EState α) : Prop where
  tiles : Tiles s.out start s.prev
  differ : NeighboursDiffer s.out
  last : ∀ r, s.out.getLast? = some r → r.value ≠ s.prevValue
  le : s.prev ≤ s.c
  grown : s.prev < s.c ∨ s.out = []
  lim : s.prev ≤ limit

theorem TInv.switch {start limit : Nat} {s : EState α} (h : TInv start limit s) (v : α) (k : Nat) (hk : 0 < k)
    (hc : v ≠ s.prevValue → s.c ≤ limit) :
    TInv start limit { s.switch v with c := (s.switch v).c + k } := by
  unfold EState.switch
  by_cases hv : v ≠ s.prevValue
  · simp only [if_pos hv]
    by_cases hp : s.prev < s.c
    · simp only [if_pos hp]
      refine ⟨tiles_snoc _ h.tiles rfl hp rfl, differ_snoc _ h.differ h.last, ?_, ?_, ?_, hc hv⟩
      · intro r hr
        simp at hr
        subst hr
        exact fun e => hv e.symm
      · simp
      · left; simpa using hk
    · simp only [if_neg hp]
      have ho : s.out = [] := (h.grown.resolve_left hp)
      have he : s.prev = s.c := by have := h.le; omega
      refine ⟨he ▸ h.tiles, h.differ, ?_, ?_, .inr ho, hc hv⟩
      · intro r hr; simp [ho] at hr
      · simp
  · simp only [if_neg hv]
    exact ⟨h.tiles, h.differ, h.last, Nat.le_trans h.le (Nat.le_add_right _ _), .inl (by have := h.le; simp; omega), h.lim⟩

theorem TInv.skip {start limit : Nat} {s : EState α} (h : TInv start limit s) (k : Nat) :
    TInv start limit { s with c := s.c + k } :=
  ⟨h.tiles, h.differ, h.last, Nat.le_trans h.le (Nat.le_add_right _ _),
    h.grown.imp (fun h => Nat.lt_of_lt_of_le h (Nat.le_add_right _ _)) id, h.lim⟩

theorem TInv.blocks {start limit : Nat} {s : EState α} (h : TInv start limit s) (a b : Option Nat) :
    TInv start limit { s with prevI2Block := a, prevBlock := b } :=
  ⟨h.tiles, h.differ, h.last, h.le, h.grown, h.lim⟩

theorem switch_c (s : EState α) (v : α) : (s.switch v).c = s.c := by
  unfold EState.switch; split <;> rfl

/-! ## How far `c` moves -/

theorem enumValues_c {t : UTrie2} {f : Nat → α} {block : Nat} : ∀ (n j : Nat) (s s' : EState α),
    enumValues t f block n j s = .ok s' → s'.c = s.c + n := by
  intro n
  induction n with
  | zero => intro j s s' h; simp only [enumValues, Except.ok.injEq] at h; rw [← h]; omega
  | succ n ih =>
    intro j s s' h
    obtain ⟨v, hv, h2⟩ := bind_ok (by simpa only [enumValues] using h)
    have := ih _ _ _ h2
    simp only [switch_c] at this
    omega

theorem enumValues_err {t : UTrie2} {f : Nat → α} {block : Nat} : ∀ (n j : Nat) (s : EState α) (e : PyErr),
    enumValues t f block n j s = .error e → e = .indexError := by
  intro n
  induction n with
  | zero => intro j s e h; simp [enumValues] at h
  | succ n ih =>
    intro j s e h
    rcases bind_err (by simpa only [enumValues] using h) with h | ⟨v, _, h2⟩
    · exact Arr.get_err h
    · exact ih _ _ _ h2

theorem enumValues_tinv {t : UTrie2} {f : Nat → α} {block start limit : Nat} : ∀ (n j : Nat) (s s' : EState α),
    enumValues t f block n j s = .ok s' → TInv start limit s → s.c + n ≤ limit → TInv start limit s' := by
  intro n
  induction n with
  | zero => intro j s s' h hi _; simp only [enumValues, Except.ok.injEq] at h; exact h ▸ hi
  | succ n ih =>
    intro j s s' h hi hl
    obtain ⟨v, hv, h2⟩ := bind_ok (by simpa only [enumValues] using h)
    exact ih _ _ _ h2 (hi.switch (f v) 1 (by omega) (fun _ => by omega)) (by simp only [switch_c]; omega)

/-- The three ways a data block is handled. -/
theorem enumBlock_cases {t : UTrie2} {f : Nat → α} {tl i2b i2 : Nat} {s s' : EState α}
    (h : enumBlock t f tl i2b i2 s = .ok s') : ∃ e, t.index.get (i2b + i2) = .ok e ∧
    ((s.prevBlock = some (4 * e) ∧ 32 ≤ s.c - s.prev ∧ s' = { s with c := s.c + 32 }) ∨
     (¬ (s.prevBlock = some (4 * e) ∧ 32 ≤ s.c - s.prev) ∧ 4 * e = t.dataNullOffset ∧
       s' = { ({ s with prevBlock := some (4 * e) } : EState α).switch (f t.initialValue) with c := s.c + 32 }) ∨
     (¬ (s.prevBlock = some (4 * e) ∧ 32 ≤ s.c - s.prev) ∧ 4 * e ≠ t.dataNullOffset ∧
       enumValues t f (4 * e) (min 32 (s.c % 32 + tl - s.c) - s.c % 32) (s.c % 32)
        { s with prevBlock := some (4 * e) } = .ok s')) := by
  rw [enumBlock_eq] at h
  obtain ⟨e, he, h2⟩ := bind_ok h
  refine ⟨e, he, ?_⟩
  simp only [ge_iff_le, Nat.mul_comm e 4] at h2
  by_cases h3 : s.prevBlock = some (4 * e) ∧ 32 ≤ s.c - s.prev
  · rw [if_pos h3] at h2
    simp only [Except.ok.injEq] at h2
    exact .inl ⟨h3.1, h3.2, h2.symm⟩
  · rw [if_neg h3] at h2
    by_cases h4 : 4 * e = t.dataNullOffset
    · rw [if_pos h4] at h2
      simp only [Except.ok.injEq, switch_c] at h2
      exact .inr (.inl ⟨h3, h4, h2.symm⟩)
    · rw [if_neg h4] at h2
      exact .inr (.inr ⟨h3, h4, h2⟩)

theorem enumBlock_err {t : UTrie2} {f : Nat → α} {tl i2b i2 : Nat} {s : EState α} {e : PyErr}
    (h : enumBlock t f tl i2b i2 s = .error e) : e = .indexError := by
  rcases bind_err (by simpa only [enumBlock] using h) with h | ⟨x, _, h2⟩
  · exact Arr.get_err h
  · split at h2
    · simp [pure, Except.pure] at h2
    · split at h2
      · simp [pure, Except.pure] at h2
      · exact enumValues_err _ _ _ _ h2

theorem enumBlock_c {t : UTrie2} {f : Nat → α} {tl i2b i2 : Nat} {s s' : EState α}
    (h : enumBlock t f tl i2b i2 s = .ok s') :
    s.c ≤ s'.c ∧ s'.c ≤ s.c + 32 ∧ (s.c < tl → s.c < s'.c) ∧
      (s'.c = s.c + 32 ∨ s'.c = s.c + (min 32 (s.c % 32 + tl - s.c) - s.c % 32)) := by
  obtain ⟨e, _, h | h | h⟩ := enumBlock_cases h
  · obtain ⟨_, _, rfl⟩ := h
    refine ⟨by simp, by simp, fun _ => by simp, .inl rfl⟩
  · obtain ⟨_, _, rfl⟩ := h
    refine ⟨by simp, by simp, fun _ => by simp, .inl rfl⟩
  · have := enumValues_c _ _ _ _ h.2.2
    simp only at this
    refine ⟨by omega, by omega, fun _ => by omega, .inr this⟩

theorem enumBlocks_c {t : UTrie2} {f : Nat → α} {tl i2b : Nat} : ∀ (n i2 : Nat) (s s' : EState α),
    enumBlocks t f tl i2b n i2 s = .ok s' → s.c ≤ s'.c ∧ (0 < n → s.c < tl → s.c < s'.c) := by
  intro n
  induction n with
  | zero => intro i2 s s' h; simp only [enumBlocks, Except.ok.injEq] at h; subst h; simp
  | succ n ih =>
    intro i2 s s' h
    obtain ⟨s1, h1, h2⟩ := bind_ok (by simpa only [enumBlocks] using h)
    have a := enumBlock_c h1
    have b := ih _ _ _ h2
    refine ⟨by omega, fun _ hl => ?_⟩
    have := a.2.2.1 hl
    omega

theorem enumBlocks_err {t : UTrie2} {f : Nat → α} {tl i2b : Nat} : ∀ (n i2 : Nat) (s : EState α) (e : PyErr),
    enumBlocks t f tl i2b n i2 s = .error e → e = .indexError := by
  intro n
  induction n with
  | zero => intro i2 s s' h; simp [enumBlocks] at h
  | succ n ih =>
    intro i2 s e h
    rcases bind_err (by simpa only [enumBlocks] using h) with h | ⟨x, _, h2⟩
    · exact enumBlock_err h
    · exact ih _ _ _ h2

theorem i2Bounds_pos (c tl i2b : Nat) (hc : c ≤ 0xFFFF ∨ c < tl) : 0 < (i2Bounds c tl i2b).2 + 1 - (i2Bounds c tl i2b).1 := by
  by_cases h : c ≤ 0xFFFF
  · rw [i2Bounds_bmp _ _ _ h]; simp
  · rcases i2Bounds_supp c tl i2b (by omega) with ⟨_, e⟩ | ⟨_, e⟩ <;> rw [e] <;> simp only <;> omega

theorem enumGroup_c {t : UTrie2} {f : Nat → α} {tl i2b : Nat} {s s' : EState α}
    (h : enumGroup t f tl i2b s = .ok s') (hl : s.c < tl) : s.c < s'.c := by
  unfold enumGroup at h
  simp only at h
  split at h
  · simp only [Except.ok.injEq] at h
    subst h
    split <;> simp [switch_c, CP_PER_INDEX_1_ENTRY, SHIFT_1]
  · exact (enumBlocks_c _ _ _ _ h).2 (i2Bounds_pos _ _ _ (.inr hl)) hl

theorem enumGroup_err {t : UTrie2} {f : Nat → α} {tl i2b : Nat} {s : EState α} {e : PyErr}
    (h : enumGroup t f tl i2b s = .error e) : e = .indexError := by
  unfold enumGroup at h
  simp only at h
  split at h
  · simp at h
  · exact enumBlocks_err _ _ _ _ h

theorem pyAnd_nat (a b : Nat) : pyAnd a b = ((a &&& b : Nat) : Int) := rfl

theorem isSurrogate_nat (c : Nat) (h : c ≤ 0xFFFF) :
    Utilities.isSurrogate (c : Int) = true ↔ 0xD800 ≤ c ∧ c < 0xE000 := by
  unfold Utilities.isSurrogate Utilities.surrogateMask Utilities.firstLead
  rw [decide_eq_true_iff]
  have := and_field c 21 11
  have e : pyAnd (c : Int) 0xFFFFF800 = ((c &&& ((2 ^ 21 - 1) * 2 ^ 11) : Nat) : Int) := rfl
  rw [e, this]
  omega

theorem isSurrogateLead_nat (c : Nat) (h : 0xD800 ≤ c) (h' : c < 0xE000) :
    Utilities.isSurrogateLead (c : Int) = true ↔ c < 0xDC00 := by
  unfold Utilities.isSurrogateLead
  rw [decide_eq_true_iff]
  have := and_field c 1 10
  have e : pyAnd (c : Int) 0x400 = ((c &&& ((2 ^ 1 - 1) * 2 ^ 10) : Nat) : Int) := rfl
  rw [e, this]
  omega

/-- The ways one pass of the main loop goes, with its index-2 block and temporary limit. -/
theorem enumPass_cases (t : UTrie2) (f : Nat → α) (limit : Nat) (s : EState α) :
    ((s.c < 0xD800 ∨ 0xE000 ≤ s.c ∧ s.c ≤ 0xFFFF) ∧
      enumPass t f limit s = enumGroup t f (min (min (s.c + 2048) limit) 0x10000) (s.c / 32) s) ∨
    ((0xD800 ≤ s.c ∧ s.c < 0xDC00) ∧ enumPass t f limit s = enumGroup t f (min 0xDC00 limit) 0x800 s) ∨
    ((0xDC00 ≤ s.c ∧ s.c < 0xE000) ∧ enumPass t f limit s = enumGroup t f (min 0xE000 limit) 0x6E0 s) ∨
    (0xFFFF < s.c ∧ enumPass t f limit s =
      (t.index.get (2080 + s.c / 2048)).bind fun i2 =>
        if some i2 = s.prevI2Block ∧ s.c - s.prev ≥ 2048 then .ok { s with c := s.c + 2048 }
        else enumGroup t f (min (s.c + 2048) limit) i2 s) := by
  unfold enumPass
  by_cases h1 : s.c ≤ 0xFFFF
  · rw [if_pos h1]
    have hs := isSurrogate_nat s.c h1
    by_cases h2 : 0xD800 ≤ s.c ∧ s.c < 0xE000
    · have h3 := hs.2 h2
      have hl := isSurrogateLead_nat s.c h2.1 h2.2
      rw [h3]
      rw [if_neg (by simp)]
      by_cases h4 : s.c < 0xDC00
      · rw [hl.2 h4, if_pos rfl]
        exact .inr (.inl ⟨⟨h2.1, h4⟩, rfl⟩)
      · have : Utilities.isSurrogateLead (s.c : Int) = false := by
          cases hh : Utilities.isSurrogateLead (s.c : Int) with
          | false => rfl
          | true => exact absurd (hl.1 hh) h4
        rw [this, if_neg (by simp)]
        exact .inr (.inr (.inl ⟨⟨by omega, h2.2⟩, rfl⟩))
    · have : Utilities.isSurrogate (s.c : Int) = false := by
        cases hh : Utilities.isSurrogate (s.c : Int) with
        | false => rfl
        | true => exact absurd (hs.1 hh) h2
      rw [this, if_pos (by simp)]
      refine .inl ⟨by omega, ?_⟩
      have e1 : (if min (s.c + CP_PER_INDEX_1_ENTRY) limit > 65536 then 65536 else min (s.c + CP_PER_INDEX_1_ENTRY) limit)
        = min (min (s.c + 2048) limit) 0x10000 := by
        rw [show CP_PER_INDEX_1_ENTRY = 2048 from rfl]
        split <;> omega
      simp only [e1]
      rfl
  · rw [if_neg h1]
    refine .inr (.inr (.inr ⟨by omega, ?_⟩))
    have e1 : (INDEX_1_OFFSET - OMITTED_BMP_INDEX_1_LENGTH) + s.c / 2 ^ SHIFT_1 = 2080 + s.c / 2048 := by
      simp only [INDEX_1_OFFSET, OMITTED_BMP_INDEX_1_LENGTH, UTF8_2B_INDEX_2_OFFSET, UTF8_2B_INDEX_2_LENGTH,
        INDEX_2_BMP_LENGTH, LSCP_INDEX_2_OFFSET, LSCP_INDEX_2_LENGTH, SHIFT_1, SHIFT_2]
    rw [e1]
    rfl

theorem enumPass_c {t : UTrie2} {f : Nat → α} {limit : Nat} {s s' : EState α}
    (h : enumPass t f limit s = .ok s') (hl : s.c < limit) : s.c < s'.c := by
  rcases enumPass_cases t f limit s with ⟨a, e⟩ | ⟨a, e⟩ | ⟨a, e⟩ | ⟨a, e⟩ <;> rw [e] at h
  · exact enumGroup_c h (by omega)
  · exact enumGroup_c h (by omega)
  · exact enumGroup_c h (by omega)
  · obtain ⟨i2, _, h2⟩ := bind_ok h
    split at h2
    · simp only [Except.ok.injEq] at h2
      subst h2; simp
    · exact enumGroup_c h2 (by omega)

theorem enumPass_err {t : UTrie2} {f : Nat → α} {limit : Nat} {s : EState α} {x : PyErr}
    (h : enumPass t f limit s = .error x) : x = .indexError := by
  rcases enumPass_cases t f limit s with ⟨a, e⟩ | ⟨a, e⟩ | ⟨a, e⟩ | ⟨a, e⟩ <;> rw [e] at h
  · exact enumGroup_err h
  · exact enumGroup_err h
  · exact enumGroup_err h
  · rcases bind_err h with h | ⟨i2, _, h2⟩
    · exact Arr.get_err h
    · split at h2
      · simp at h2
      · exact enumGroup_err h2

theorem enumLoop_err {t : UTrie2} {f : Nat → α} {limit : Nat} : ∀ (n : Nat) (s : EState α) (x : PyErr),
    limit ≤ s.c + n → enumLoop t f limit n s = .error x → x = .indexError := by
  intro n
  induction n with
  | zero =>
    intro s x hn h
    simp only [enumLoop] at h
    rw [if_neg (by omega)] at h
    simp at h
  | succ n ih =>
    intro s x hn h
    simp only [enumLoop] at h
    split at h
    · rename_i hc
      rcases bind_err h with h | ⟨s1, h1, h2⟩
      · exact enumPass_err h
      · have := enumPass_c h1 hc.1
        exact ih _ _ (by omega) h2
    · simp at h

theorem enumerator_err {t : UTrie2} {f : Nat → α} {start limit : Nat} {x : PyErr}
    (h : enumerator t f start limit = .error x) : x = .indexError := by
  rcases bind_err h with h | ⟨s1, h1, h2⟩
  · exact enumLoop_err _ _ _ (by simp only; omega) h
  · rcases bind_err h2 with h | ⟨s2, _, h3⟩
    · split at h
      · simp at h
      · split at h
        · rcases bind_err h with h | ⟨v, _, h3⟩
          · exact Arr.get_err h
          · simp [pure, Except.pure] at h3
        · simp at h
    · simp [pure, Except.pure] at h3

/-! ## Tiling -/

theorem enumBlock_tinv {t : UTrie2} {f : Nat → α} {tl i2b i2 start limit : Nat} {s s' : EState α}
    (h : enumBlock t f tl i2b i2 s = .ok s') (hi : TInv start limit s) (htl : tl ≤ limit) (hc : s.c ≤ limit) :
    TInv start limit s' := by
  obtain ⟨e, _, h | h | h⟩ := enumBlock_cases h
  · obtain ⟨_, _, rfl⟩ := h
    exact hi.skip 32
  · obtain ⟨_, _, rfl⟩ := h
    have := (hi.blocks s.prevI2Block (some (4 * e))).switch (f t.initialValue) 32 (by omega) (fun _ => hc)
    simpa only [switch_c] using this
  · by_cases hx : s.c ≤ tl
    · exact enumValues_tinv _ _ _ _ h.2.2 (hi.blocks s.prevI2Block (some (4 * e))) (by simp only; omega)
    · have hz : min 32 (s.c % 32 + tl - s.c) - s.c % 32 = 0 := by omega
      have h2 := h.2.2
      rw [hz] at h2
      simp only [enumValues, Except.ok.injEq] at h2
      exact h2 ▸ hi.blocks s.prevI2Block (some (4 * e))

theorem enumBlocks_tinv {t : UTrie2} {f : Nat → α} {tl i2b start limit : Nat} (htl : tl ≤ limit) :
    ∀ (n i2 : Nat) (s s' : EState α), enumBlocks t f tl i2b n i2 s = .ok s' → TInv start limit s →
      (0 < n → s.c + 32 * (n - 1) ≤ limit) → TInv start limit s' := by
  intro n
  induction n with
  | zero => intro i2 s s' h hi _; simp only [enumBlocks, Except.ok.injEq] at h; exact h ▸ hi
  | succ n ih =>
    intro i2 s s' h hi hb
    obtain ⟨s1, h1, h2⟩ := bind_ok (by simpa only [enumBlocks] using h)
    have hb' := hb (by omega)
    have a := enumBlock_c h1
    exact ih _ _ _ h2 (enumBlock_tinv h1 hi htl (by omega)) (fun _ => by omega)

/-- `c` sits on a block boundary, or the requested interval is used up. -/
def Aligned (limit : Nat) (s : EState α) : Prop := s.c % 32 = 0 ∨ limit ≤ s.c

theorem enumBlock_aligned {t : UTrie2} {f : Nat → α} {tl i2b i2 limit : Nat} {s s' : EState α}
    (h : enumBlock t f tl i2b i2 s = .ok s') (ha : Aligned limit s) (htl : tl % 32 = 0 ∨ tl = limit) :
    Aligned limit s' := by
  have a := enumBlock_c h
  unfold Aligned at *
  omega

theorem enumBlocks_aligned {t : UTrie2} {f : Nat → α} {tl i2b limit : Nat} (htl : tl % 32 = 0 ∨ tl = limit) :
    ∀ (n i2 : Nat) (s s' : EState α), enumBlocks t f tl i2b n i2 s = .ok s' → Aligned limit s → Aligned limit s' := by
  intro n
  induction n with
  | zero => intro i2 s s' h hi; simp only [enumBlocks, Except.ok.injEq] at h; exact h ▸ hi
  | succ n ih =>
    intro i2 s s' h hi
    obtain ⟨s1, h1, h2⟩ := bind_ok (by simpa only [enumBlocks] using h)
    exact ih _ _ _ h2 (enumBlock_aligned h1 hi htl)

theorem enumGroup_inv {t : UTrie2} {f : Nat → α} {tl i2b start limit : Nat} {s s' : EState α}
    (h : enumGroup t f tl i2b s = .ok s') (hi : TInv start limit s) (ha : s.c % 32 = 0) (hc : s.c < limit)
    (hle : tl ≤ limit) (htl : tl % 32 = 0 ∨ tl = limit)
    (hb : s.c + 32 * ((i2Bounds s.c tl i2b).2 - (i2Bounds s.c tl i2b).1) ≤ limit) :
    TInv start limit s' ∧ Aligned limit s' := by
  unfold enumGroup at h
  simp only at h
  split at h
  · simp only [Except.ok.injEq] at h
    subst h
    have hd : CP_PER_INDEX_1_ENTRY = 2048 := rfl
    split
    · have := ((hi.blocks (some i2b) s.prevBlock).switch (f t.initialValue) 2048 (by omega) (fun _ => by simp only; omega))
      refine ⟨?_, ?_⟩
      · have := this.blocks (some i2b) (some t.dataNullOffset)
        have he : (({ s with prevI2Block := some i2b } : EState α).switch (f t.initialValue)).prevI2Block = some i2b := by
          unfold EState.switch; split <;> rfl
        rw [hd]
        constructor
        · exact this.tiles
        · exact this.differ
        · exact this.last
        · exact this.le
        · exact this.grown
        · exact this.lim
      · left; simp only [switch_c, hd]; omega
    · exact ⟨(hi.blocks (some i2b) s.prevBlock).skip _, by left; simp only [hd]; omega⟩
  · refine ⟨enumBlocks_tinv hle _ _ _ _ h (hi.blocks (some i2b) s.prevBlock) (fun _ => ?_),
      enumBlocks_aligned htl _ _ _ _ h (.inl ha)⟩
    simp only; omega

theorem enumPass_inv {t : UTrie2} {f : Nat → α} {start limit : Nat} {s s' : EState α}
    (h : enumPass t f limit s = .ok s') (hi : TInv start limit s) (ha : s.c % 32 = 0) (hc : s.c < limit)
    (hr : limit ≤ 0xDC00 ∨ 0xE3E0 ≤ limit ∨ 0xE000 ≤ s.c) :
    TInv start limit s' ∧ Aligned limit s' := by
  rcases enumPass_cases t f limit s with ⟨a, e⟩ | ⟨a, e⟩ | ⟨a, e⟩ | ⟨a, e⟩ <;> rw [e] at h
  · refine enumGroup_inv h hi ha hc (by omega) (by omega) ?_
    rw [i2Bounds_bmp _ _ _ (by omega)]; simp only; omega
  · refine enumGroup_inv h hi ha hc (by omega) (by omega) ?_
    rw [i2Bounds_bmp _ _ _ (by omega)]; simp only; omega
  · refine enumGroup_inv h hi ha hc (by omega) (by omega) ?_
    rw [i2Bounds_bmp _ _ _ (by omega)]; simp only; omega
  · obtain ⟨i2, _, h2⟩ := bind_ok h
    split at h2
    · simp only [Except.ok.injEq] at h2
      subst h2
      exact ⟨hi.skip _, by left; simp only; omega⟩
    · refine enumGroup_inv h2 hi ha hc (by omega) (by omega) ?_
      rcases i2Bounds_supp s.c (min (s.c + 2048) limit) i2 (by omega) with ⟨_, e⟩ | ⟨_, e⟩ <;> rw [e] <;> simp only <;> omega

theorem enumLoop_inv {t : UTrie2} {f : Nat → α} {start limit : Nat} : ∀ (n : Nat) (s s' : EState α),
    enumLoop t f limit n s = .ok s' → TInv start limit s → Aligned limit s →
    (limit ≤ 0xDC00 ∨ 0xE3E0 ≤ limit ∨ 0xE000 ≤ s.c) → TInv start limit s' := by
  intro n
  induction n with
  | zero =>
    intro s s' h hi ha hr
    simp only [enumLoop] at h
    split at h
    · simp at h
    · simp only [Except.ok.injEq] at h; exact h ▸ hi
  | succ n ih =>
    intro s s' h hi ha hr
    simp only [enumLoop] at h
    split at h
    · rename_i hc
      obtain ⟨s1, h1, h2⟩ := bind_ok h
      have hal : s.c % 32 = 0 := ha.resolve_right (by omega)
      have := enumPass_inv h1 hi hal hc.1 hr
      have hg := enumPass_c h1 hc.1
      exact ih _ _ h2 this.1 this.2 (by omega)
    · simp only [Except.ok.injEq] at h; exact h ▸ hi

theorem enumFinish_tiles {t : UTrie2} {f : Nat → α} {start limit : Nat} {s : EState α} {out : List (Run α)}
    (h : enumFinish t f limit s = .ok out) (hi : TInv start limit s) : Tiles out start limit ∧ NeighboursDiffer out := by
  have close : ∀ s : EState α, TInv start limit s → s.c = limit → ∀ out, (pure (if s.prev < s.c then
      s.out ++ [⟨s.prev, s.c, s.prevValue⟩] else s.out) : Py (List (Run α))) = .ok out →
      Tiles out start limit ∧ NeighboursDiffer out := by
    intro s hi hc out h
    simp only [pure, Except.pure, Except.ok.injEq] at h
    subst h
    split
    · rename_i hp
      exact ⟨tiles_snoc _ hi.tiles rfl hp hc, differ_snoc _ hi.differ hi.last⟩
    · rename_i hp
      have : s.prev = limit := by have := hi.le; omega
      exact ⟨this ▸ hi.tiles, hi.differ⟩
  obtain ⟨s1, h1, h2⟩ := bind_ok h
  split at h1
  · rename_i hc
    simp only [Except.ok.injEq] at h1
    subst h1
    simp only [pure, Except.pure, Except.ok.injEq] at h2
    subst h2
    split
    · rename_i hp
      exact ⟨tiles_snoc _ hi.tiles rfl hp rfl, differ_snoc _ hi.differ hi.last⟩
    · rename_i hp
      have : s.prev = limit := by have := hi.lim; omega
      exact ⟨this ▸ hi.tiles, hi.differ⟩
  · split at h1
    · rename_i hc
      obtain ⟨v, _, h3⟩ := bind_ok h1
      simp only [pure, Except.pure, Except.ok.injEq] at h3
      have := hi.switch (f v) (limit - s.c) (by omega) (fun _ => by omega)
      have e : s1 = { s.switch (f v) with c := (s.switch (f v)).c + (limit - s.c) } := by
        rw [← h3, switch_c]; congr 1; omega
      exact close s1 (e ▸ this) (by rw [← h3]) out h2
    · simp only [Except.ok.injEq] at h1
      subst h1
      exact close s hi (by omega) out h2

theorem enumerator_tiles {t : UTrie2} {f : Nat → α} {start limit : Nat} {out : List (Run α)}
    (h : enumerator t f start limit = .ok out) (hs : start % 32 = 0) (hsl : start ≤ limit)
    (hr : limit ≤ 0xDC00 ∨ 0xE3E0 ≤ limit ∨ 0xE000 ≤ start) : Tiles out start limit ∧ NeighboursDiffer out := by
  obtain ⟨s, h1, h2⟩ := bind_ok h
  refine enumFinish_tiles h2 (enumLoop_inv _ _ _ h1 ?_ (.inl hs) hr)
  refine ⟨rfl, trivial, ?_, Nat.le_refl _, .inr rfl, hsl⟩
  intro r hr; simp at hr

end UTrie2
end Verif

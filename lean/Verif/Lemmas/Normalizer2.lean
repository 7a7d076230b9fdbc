import Verif.Model.Normalizer2
import Verif.Props.Utilities
import Verif.Spec.Normalization
/-! # Hangul arithmetic, UTF-16 decoding, expansion -/
namespace Verif
open Verif.Spec

theorem chr_nat {c : Nat} (h : c ≤ 0x10FFFF) : chr c = .ok c := by
  unfold chr
  rw [if_pos ⟨by omega, by omega⟩]
  rfl

namespace Normalizer2

theorem hangul_full {l v t : Nat} (hl : l < 19) (hv : v < 21) (ht : t < 28) :
    hangulDecomposition (hangulSyllable l v t) = .ok (hangulJamos l v t) := by
  have e1 : ((hangulSyllable l v t : Nat) : Int) - HANGUL_BASE = (((l * 21 + v) * 28 + t : Nat) : Int) := by
    unfold hangulSyllable HANGUL_BASE; omega
  unfold hangulDecomposition JAMO_T_COUNT JAMO_V_COUNT JAMO_L_BASE JAMO_V_BASE JAMO_T_BASE
  dsimp only
  rw [e1]
  have e2 : (((l * 21 + v) * 28 + t : Nat) : Int) % 28 = (t : Int) := by omega
  have e3 : (((l * 21 + v) * 28 + t : Nat) : Int) / 28 = ((l * 21 + v : Nat) : Int) := by omega
  have e4 : ((l * 21 + v : Nat) : Int) / 21 = (l : Int) := by omega
  have e5 : ((l * 21 + v : Nat) : Int) % 21 = (v : Int) := by omega
  rw [e2, e3, e4, e5]
  rw [show (0x1100 : Int) + l = ((0x1100 + l : Nat) : Int) by omega, show (0x1161 : Int) + v = ((0x1161 + v : Nat) : Int) by omega,
    show (0x11a7 : Int) + t = ((0x11a7 + t : Nat) : Int) by omega, chr_nat (by omega), chr_nat (by omega), chr_nat (by omega)]
  unfold hangulJamos
  by_cases h : t = 0
  · subst h; rfl
  · rw [if_neg h]
    simp only [bind, Except.bind]
    rw [if_pos (by omega)]; rfl

theorem hangul_raw {l v t : Nat} (hl : l < 19) (hv : v < 21) (ht : t < 28) :
    rawHangulDecomposition (hangulSyllable l v t) =
      .ok (if t = 0 then hangulJamos l v 0 else [hangulSyllable l v 0, 0x11A7 + t]) := by
  have e1 : ((hangulSyllable l v t : Nat) : Int) - HANGUL_BASE = (((l * 21 + v) * 28 + t : Nat) : Int) := by
    unfold hangulSyllable HANGUL_BASE; omega
  unfold rawHangulDecomposition JAMO_T_COUNT JAMO_V_COUNT JAMO_L_BASE JAMO_V_BASE JAMO_T_BASE
  dsimp only
  rw [e1]
  have e2 : (((l * 21 + v) * 28 + t : Nat) : Int) % 28 = (t : Int) := by omega
  have e3 : (((l * 21 + v) * 28 + t : Nat) : Int) / 28 = ((l * 21 + v : Nat) : Int) := by omega
  have e4 : ((l * 21 + v : Nat) : Int) / 21 = (l : Int) := by omega
  have e5 : ((l * 21 + v : Nat) : Int) % 21 = (v : Int) := by omega
  rw [e2, e3, e4, e5]
  rw [show (0x1100 : Int) + l = ((0x1100 + l : Nat) : Int) by omega, show (0x1161 : Int) + v = ((0x1161 + v : Nat) : Int) by omega,
    show (0x11a7 : Int) + t = ((0x11a7 + t : Nat) : Int) by omega,
    show ((hangulSyllable l v t : Nat) : Int) - t = ((hangulSyllable l v 0 : Nat) : Int) by unfold hangulSyllable; omega,
    chr_nat (c := 0x1100 + l) (by omega), chr_nat (c := 0x1161 + v) (by omega), chr_nat (c := 0x11a7 + t) (by omega),
    chr_nat (c := hangulSyllable l v 0) (by unfold hangulSyllable; omega)]
  by_cases h : t = 0
  · subst h; rfl
  · rw [if_neg h]
    simp only [bind, Except.bind]
    rw [if_neg (by omega)]; rfl

/-- Every syllable code point comes from jamos. -/
theorem hangul_split {c : Nat} (h1 : 0xAC00 ≤ c) (h2 : c ≤ 0xD7A3) : ∃ l v t, l < 19 ∧ v < 21 ∧ t < 28 ∧ c = hangulSyllable l v t :=
  ⟨(c - 0xAC00) / 28 / 21, (c - 0xAC00) / 28 % 21, (c - 0xAC00) % 28, by omega, by omega, by omega, by unfold hangulSyllable; omega⟩

/-! ## UTF-16 -/

theorem isLead_nat (c : Nat) (h : c ≤ 0x10FFFF) : Utilities.isLead (c : Int) = true ↔ 0xD800 ≤ c ∧ c ≤ 0xDBFF := by
  have := (Utilities.Props.surrogate_predicates (c := (c : Int)) (by unfold IsCodePoint; omega)).2.1
  rw [this]; omega

theorem getI_nat (a : Arr) (i : Nat) : a.getI i = a.get i := by
  unfold Arr.getI
  rw [if_pos (by omega)]
  rfl

theorem stringLoop_one {data : Arr} {n i c : Nat} {s : Str} (h : data.get i = .ok c) (hl : Utilities.isLead (c : Int) = false)
    (hc : chr (c : Int) = .ok c) (hr : stringLoop data n (i + 1 : Nat) 0 = .ok s) : stringLoop data (n + 1) i 0 = .ok (c :: s) := by
  rw [stringLoop, getI_nat, h]
  dsimp only [bind, Except.bind]
  rw [if_neg (by simp), hl, if_neg (by simp), hc]
  dsimp only [bind, Except.bind]
  rw [show ((i : Nat) : Int) + 1 = ((i + 1 : Nat) : Int) by omega, hr]
  rfl

theorem stringLoop_pair {data : Arr} {n i c lead trail : Nat} {s : Str} (h : data.get i = .ok lead) (h' : data.get (i + 1) = .ok trail)
    (hl : Utilities.isLead (lead : Int) = true) (h0 : lead ≠ 0) (hc : chr (Utilities.charFromSurrogates lead trail) = .ok c)
    (hr : stringLoop data n (i + 2 : Nat) 0 = .ok s) : stringLoop data (n + 2) i 0 = .ok (c :: s) := by
  rw [stringLoop, getI_nat, h]
  dsimp only [bind, Except.bind]
  rw [if_neg (by simp), hl, if_pos rfl, stringLoop, show ((i : Nat) : Int) + 1 = ((i + 1 : Nat) : Int) by omega, getI_nat, h']
  dsimp only [bind, Except.bind]
  rw [if_pos h0, hc]
  dsimp only [bind, Except.bind]
  rw [show ((i + 1 : Nat) : Int) + 1 = ((i + 2 : Nat) : Int) by omega, hr]
  rfl

theorem pair_char {c : Nat} (h1 : 0x10000 ≤ c) (h2 : c ≤ 0x10FFFF) : ∃ lead trail : Nat, utf16Units c = [lead, trail] ∧
    Utilities.isLead (lead : Int) = true ∧ lead ≠ 0 ∧ chr (Utilities.charFromSurrogates lead trail) = .ok c := by
  obtain ⟨lead, hlead⟩ : ∃ x, x = 0xD800 + (c - 0x10000) / 0x400 := ⟨_, rfl⟩
  obtain ⟨trail, htrail⟩ : ∃ x, x = 0xDC00 + (c - 0x10000) % 0x400 := ⟨_, rfl⟩
  refine ⟨lead, trail, ?_, ?_, by omega, ?_⟩
  · unfold utf16Units; rw [if_neg (by omega), hlead, htrail]
  · rw [isLead_nat _ (by omega)]; omega
  · have hx : Utilities.charFromSurrogates (lead : Int) (trail : Int) = (c : Int) := by
      unfold Utilities.charFromSurrogates Utilities.surrogateOffset Utilities.leadShift
      simp only [Utilities.firstLead, Utilities.firstTrail, Utilities.firstNonBMP]
      omega
    rw [hx, chr_nat h2]

theorem stringLoop_utf16 (data : Arr) : ∀ (s : Str) (i : Nat), (∀ c ∈ s, Scalar c) →
    (∀ k, (h : k < (utf16 s).length) → data.get (i + k) = .ok ((utf16 s)[k])) →
    stringLoop data (utf16 s).length i 0 = .ok s := by
  intro s
  induction s with
  | nil => intro i _ _; rfl
  | cons c s ih =>
    intro i hs hd
    have hc := hs c (by simp)
    have hcm : c ≤ 0x10FFFF := by unfold Scalar at hc; omega
    have e : utf16 (c :: s) = utf16Units c ++ utf16 s := by simp [utf16]
    by_cases hb : c < 0x10000
    · rw [show utf16Units c = [c] from if_pos hb] at e
      simp only [e] at hd ⊢
      have h0 := hd 0 (by simp)
      simp only [List.cons_append, List.nil_append, List.getElem_cons_zero] at h0
      refine stringLoop_one h0 ?_ (chr_nat hcm) (ih (i + 1) (fun x hx => hs x (by simp [hx])) (fun k hk => ?_))
      · rw [← Bool.not_eq_true, isLead_nat _ hcm]
        unfold Scalar at hc; omega
      · have := hd (k + 1) (by simpa using hk)
        rw [show i + (k + 1) = i + 1 + k by omega] at this
        simpa using this
    · obtain ⟨lead, trail, e1, e2, e3, e4⟩ := pair_char (c := c) (by omega) hcm
      rw [e1] at e
      simp only [e] at hd ⊢
      have h0 := hd 0 (by simp)
      have h1 := hd 1 (by simp)
      simp only [List.cons_append, List.nil_append, List.getElem_cons_zero, List.getElem_cons_succ] at h0 h1
      refine stringLoop_pair h0 h1 e2 e3 e4 (ih (i + 2) (fun x hx => hs x (by simp [hx])) (fun k hk => ?_))
      have := hd (k + 2) (by simpa using hk)
      rw [show i + (k + 2) = i + 2 + k by omega] at this
      simpa using this

/-- A lead surrogate at the end is dropped. -/
theorem stringLoop_lone (data : Arr) {lead : Nat} : ∀ (s : Str) (i : Nat), (∀ c ∈ s, Scalar c) → (0xD800 ≤ lead ∧ lead ≤ 0xDBFF) →
    (∀ k, (h : k < (utf16 s ++ [lead]).length) → data.get (i + k) = .ok ((utf16 s ++ [lead])[k])) →
    stringLoop data (utf16 s ++ [lead]).length i 0 = .ok s := by
  intro s
  induction s with
  | nil =>
    intro i _ hl hd
    have h0 := hd 0 (by simp)
    simp only [utf16, List.flatMap_nil, List.nil_append, List.getElem_cons_zero] at h0
    show stringLoop data 1 i 0 = .ok []
    rw [stringLoop, getI_nat, show i = i + 0 from rfl, h0]
    dsimp only [bind, Except.bind]
    rw [if_neg (by simp), if_pos ((isLead_nat lead (by omega)).2 hl)]
    rfl
  | cons c s ih =>
    intro i hs hlead hd
    have hc := hs c (by simp)
    have hcm : c ≤ 0x10FFFF := by unfold Scalar at hc; omega
    have e : utf16 (c :: s) = utf16Units c ++ utf16 s := by simp [utf16]
    by_cases hb : c < 0x10000
    · rw [show utf16Units c = [c] from if_pos hb] at e
      simp only [e] at hd ⊢
      have h0 := hd 0 (by simp)
      simp only [List.cons_append, List.nil_append, List.getElem_cons_zero] at h0
      refine stringLoop_one h0 ?_ (chr_nat hcm) (ih (i + 1) (fun x hx => hs x (by simp [hx])) hlead (fun k hk => ?_))
      · rw [← Bool.not_eq_true, isLead_nat _ hcm]
        unfold Scalar at hc; omega
      · have := hd (k + 1) (by simpa using hk)
        rw [show i + (k + 1) = i + 1 + k by omega] at this
        simpa using this
    · obtain ⟨ld, trail, e1, e2, e3, e4⟩ := pair_char (c := c) (by omega) hcm
      rw [e1] at e
      simp only [e] at hd ⊢
      have h0 := hd 0 (by simp)
      have h1 := hd 1 (by simp)
      simp only [List.cons_append, List.nil_append, List.getElem_cons_zero, List.getElem_cons_succ] at h0 h1
      refine stringLoop_pair h0 h1 e2 e3 e4 (ih (i + 2) (fun x hx => hs x (by simp [hx])) hlead (fun k hk => ?_))
      have := hd (k + 2) (by simpa using hk)
      rw [show i + (k + 2) = i + 2 + k by omega] at this
      simpa using this

end Normalizer2

/-! ## Expansion -/

theorem expands_append {raw : Nat → Option Str} {s s' d d' : Str} (h : Expands raw s d) (h' : Expands raw s' d') :
    Expands raw (s ++ s') (d ++ d') := by
  induction h with
  | nil => exact h'
  | keep h1 _ ih => exact .keep h1 ih
  | replace h1 _ ih => exact .replace h1 (by rw [List.append_assoc] at ih; exact ih)

theorem expands_unique {raw : Nat → Option Str} {s d d' : Str} (h : Expands raw s d) (h' : Expands raw s d') : d = d' := by
  induction h generalizing d' with
  | nil => cases h'; rfl
  | keep h1 _ ih =>
    cases h' with
    | keep _ h2 => rw [ih h2]
    | replace h2 _ => rw [h1] at h2; simp at h2
  | replace h1 _ ih =>
    cases h' with
    | keep h2 _ => rw [h1] at h2; simp at h2
    | replace h2 h3 =>
      rw [h1] at h2
      simp only [Option.some.injEq] at h2
      subst h2
      exact ih h3

/-- Expansion with fuel. -/
def expandN (raw : Nat → Option Str) : Nat → Str → Option Str
  | _, [] => some []
  | 0, _ :: _ => none
  | n + 1, c :: s =>
    match raw c with
    | none => (expandN raw n s).map (c :: ·)
    | some r => expandN raw n (r ++ s)

theorem expandN_sound {raw : Nat → Option Str} : ∀ (n : Nat) (s d : Str), expandN raw n s = some d → Expands raw s d := by
  intro n
  induction n with
  | zero =>
    intro s d h
    cases s with
    | nil => simp only [expandN, Option.some.injEq] at h; subst h; exact .nil
    | cons c s => simp [expandN] at h
  | succ n ih =>
    intro s d h
    cases s with
    | nil => simp only [expandN, Option.some.injEq] at h; subst h; exact .nil
    | cons c s =>
      unfold expandN at h
      cases hr : raw c with
      | none =>
        simp only [hr, Option.map_eq_some_iff] at h
        obtain ⟨d', h1, rfl⟩ := h
        exact .keep hr (ih _ _ h1)
      | some r =>
        simp only [hr] at h
        exact .replace hr (ih _ _ h)

end Verif

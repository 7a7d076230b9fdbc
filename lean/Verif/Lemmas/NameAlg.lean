import Verif.Spec.CharNames
/-! # Algorithmic names -/
namespace Verif.CharNames
open Verif.CharNames.Spec

/-- The value of a hexadecimal digit. -/
def digitValue (c : Nat) : Nat := if c < 58 then c - 48 else c - 55

/-- The number written in hexadecimal. -/
def hexValue (s : Str) : Nat := s.foldl (fun a c => a * 16 + digitValue c) 0

theorem digitValue_hexChar {d : Nat} (h : d < 16) : digitValue (hexChar d) = d := by
  unfold digitValue hexChar
  split <;> split <;> omega

theorem hexValue_append_one (s : Str) (c : Nat) : hexValue (s ++ [c]) = hexValue s * 16 + digitValue c := by
  simp [hexValue, List.foldl_append]

theorem hexValue_hexLoop : ∀ (fuel n : Nat), n < fuel → hexValue (hexLoop fuel n) = n := by
  intro fuel
  induction fuel with
  | zero => intro n h; omega
  | succ fuel ih =>
    intro n h
    unfold hexLoop
    by_cases h16 : n < 16
    · rw [if_pos h16]
      simp [hexValue, digitValue_hexChar h16]
    · rw [if_neg h16, hexValue_append_one, ih _ (by omega), digitValue_hexChar (Nat.mod_lt _ (by omega))]
      omega

theorem hexValue_zeros (k : Nat) (s : Str) : hexValue (List.replicate k 48 ++ s) = hexValue s := by
  induction k with
  | zero => simp
  | succ k ih =>
    rw [← ih]
    rw [List.replicate_succ]
    show List.foldl _ _ (48 :: _) = _
    rw [List.foldl_cons]
    rfl

theorem hexValue_paddedHex (w n : Nat) : hexValue (paddedHex w n) = n := by
  unfold paddedHex upperHex
  rw [hexValue_zeros, hexValue_hexLoop _ _ (Nat.lt_succ_self n)]

theorem paddedHex_inj {w w' n n' : Nat} (h : paddedHex w n = paddedHex w' n') : n = n' := by
  have := congrArg hexValue h
  rwa [hexValue_paddedHex, hexValue_paddedHex] at this

theorem hexChar_range (d : Nat) : 48 ≤ hexChar d := by unfold hexChar; split <;> omega

theorem hexLoop_range : ∀ (fuel n : Nat), ∀ c ∈ hexLoop fuel n, 48 ≤ c := by
  intro fuel
  induction fuel with
  | zero => intro n c h; simp [hexLoop] at h
  | succ fuel ih =>
    intro n c h
    unfold hexLoop at h
    split at h
    · simp only [List.mem_singleton] at h; subst h; exact hexChar_range _
    · rcases List.mem_append.mp h with h | h
      · exact ih _ _ h
      · simp only [List.mem_singleton] at h; subst h; exact hexChar_range _

theorem paddedHex_range (w n : Nat) : ∀ c ∈ paddedHex w n, 48 ≤ c := by
  intro c h
  rcases List.mem_append.mp h with h | h
  · rw [List.eq_of_mem_replicate h]; omega
  · exact hexLoop_range _ _ c h

/-- The product of the radices. -/
abbrev prod (fs : List Nat) : Nat := fs.foldr (· * ·) 1

theorem prod_pos {fs : List Nat} (h : ∀ f ∈ fs, 0 < f) : 0 < prod fs := by
  induction fs with
  | nil => exact Nat.one_pos
  | cons f fs ih => exact Nat.mul_pos (h f (by simp)) (ih fun x hx => h x (by simp [hx]))

theorem splitCode_spec : ∀ (fs : List Nat), (∀ f ∈ fs, 0 < f) → ∀ code,
    splitCode fs code = .ok (code / prod fs, mixedRadix fs (code % prod fs)) := by
  intro fs
  induction fs with
  | nil => intro _ code; simp [splitCode, mixedRadix]
  | cons f fs ih =>
    intro h code
    have hf := h f (by simp)
    have hfs : ∀ x ∈ fs, 0 < x := fun x hx => h x (by simp [hx])
    have hp := prod_pos hfs
    unfold splitCode
    rw [ih hfs code]
    simp only [bind, Except.bind]
    rw [if_neg (by omega)]
    have e1 : prod (f :: fs) = f * prod fs := rfl
    rw [e1]
    have e2 : code % (f * prod fs) / prod fs = code / prod fs % f := by
      rw [Nat.mul_comm f, Nat.mod_mul_right_div_self]
    have e3 : code % (f * prod fs) % prod fs = code % prod fs := Nat.mod_mul_left_mod _ _ _
    rw [Nat.div_div_eq_div_mul, Nat.mul_comm (prod fs) f]
    congr 2
    show _ = code % (f * prod fs) / prod fs :: mixedRadix fs (code % (f * prod fs) % prod fs)
    rw [e2, e3]

/-- The words at the given places of the blocks. -/
def pick : List (List Str) → List Nat → List Str
  | [], _ => []
  | _, [] => []
  | b :: bs, i :: is => b.getD i [] :: pick bs is

/-- Each index is within its radix. -/
def InRadix : List Nat → List Nat → Prop
  | [], [] => True
  | f :: fs, i :: is => i < f ∧ InRadix fs is
  | _, _ => False

theorem mixedRadix_in : ∀ (fs : List Nat), (∀ f ∈ fs, 0 < f) → ∀ k, k < prod fs → InRadix fs (mixedRadix fs k) := by
  intro fs
  induction fs with
  | nil => intro _ k _; exact True.intro
  | cons f fs ih =>
    intro h k hk
    have hfs : ∀ x ∈ fs, 0 < x := fun x hx => h x (by simp [hx])
    have hp := prod_pos hfs
    refine ⟨?_, ih hfs _ (Nat.mod_lt _ hp)⟩
    apply (Nat.div_lt_iff_lt_mul hp).mpr
    exact hk

theorem mixedRadix_inj : ∀ (fs : List Nat) (k k' : Nat), k < prod fs → k' < prod fs →
    mixedRadix fs k = mixedRadix fs k' → k = k' := by
  intro fs
  induction fs with
  | nil => intro k k' h h' _; simp [prod] at h h'; omega
  | cons f fs ih =>
    intro k k' h h' e
    unfold mixedRadix at e
    injection e with e1 e2
    by_cases hp : 0 < prod fs
    · have e3 := ih _ _ (Nat.mod_lt _ hp) (Nat.mod_lt _ hp) e2
      have h1 := Nat.div_add_mod k (prod fs)
      have h2 := Nat.div_add_mod k' (prod fs)
      have e1' : k / prod fs = k' / prod fs := e1
      rw [← h1, ← h2, e1', e3]
    · have h0 : prod fs = 0 := by omega
      have : prod (f :: fs) = f * prod fs := rfl
      rw [this, h0, Nat.mul_zero] at h
      omega

theorem mixedRadix_surj : ∀ (fs is : List Nat), InRadix fs is → ∃ k, k < prod fs ∧ mixedRadix fs k = is := by
  intro fs
  induction fs with
  | nil =>
    intro is h
    cases is with
    | nil => exact ⟨0, Nat.one_pos, rfl⟩
    | cons i is => exact h.elim
  | cons f fs ih =>
    intro is h
    cases is with
    | nil => exact h.elim
    | cons i is =>
      obtain ⟨hi, h⟩ := h
      obtain ⟨k, hk, e⟩ := ih is h
      refine ⟨i * prod fs + k, ?_, ?_⟩
      · show _ < f * prod fs
        have : (i + 1) * prod fs ≤ f * prod fs := Nat.mul_le_mul_right _ hi
        rw [Nat.add_mul] at this
        omega
      · have hp : 0 < prod fs := by omega
        unfold mixedRadix
        have e1 : (i * prod fs + k) / prod fs = i := by
          rw [Nat.mul_comm, Nat.mul_add_div hp, Nat.div_eq_of_lt hk, Nat.add_zero]
        have e2 : (i * prod fs + k) % prod fs = k := by
          rw [Nat.mul_comm, Nat.mul_add_mod, Nat.mod_eq_of_lt hk]
        show (i * prod fs + k) / prod fs :: mixedRadix fs ((i * prod fs + k) % prod fs) = _
        rw [e1, e2, e]

theorem appendElements_spec : ∀ (blocks : List (List Str)) (is : List Nat) (pre post : List Str) (e : Nat) (suffix : Str),
    InRadix (blocks.map List.length) is → e = pre.length →
    appendElements (pre ++ blocks.flatten ++ post) (blocks.map List.length) is e suffix = .ok (suffix ++ (pick blocks is).flatten) := by
  intro blocks
  induction blocks with
  | nil => intro is pre post e suffix _ _; simp [appendElements, pick]
  | cons b bs ih =>
    intro is pre post e suffix h he
    cases is with
    | nil => exact h.elim
    | cons i is =>
      obtain ⟨hi, h⟩ := h
      have hi' : i < b.length := hi
      rw [List.map_cons]
      unfold appendElements
      have hget : (pre ++ (b :: bs).flatten ++ post)[e + i]? = some (b.getD i []) := by
        rw [he, List.append_assoc, List.getElem?_append_right (by omega), List.flatten_cons, List.append_assoc,
          List.getElem?_append_left (by omega), show pre.length + i - pre.length = i by omega,
          List.getD_eq_getElem?_getD, List.getElem?_eq_getElem hi']
        rfl
      rw [hget]
      simp only
      have := ih is (pre ++ b) post (e + i + b.length - i) (suffix ++ b.getD i []) h (by simp; omega)
      rw [show pre ++ (b :: bs).flatten ++ post = pre ++ b ++ bs.flatten ++ post by simp, this]
      simp [pick]

theorem pick_choice : ∀ (blocks : List (List Str)) (is : List Nat), InRadix (blocks.map List.length) is →
    Choice blocks (pick blocks is) := by
  intro blocks
  induction blocks with
  | nil => intro is _; simp [pick, Choice]
  | cons b bs ih =>
    intro is h
    cases is with
    | nil => exact h.elim
    | cons i is =>
      obtain ⟨hi, h⟩ := h
      have hi' : i < b.length := hi
      refine ⟨?_, ih is h⟩
      rw [List.getD_eq_getElem?_getD, List.getElem?_eq_getElem hi']
      exact List.getElem_mem hi'

theorem pick_surj : ∀ (blocks : List (List Str)) (ws : List Str), Choice blocks ws →
    ∃ is, InRadix (blocks.map List.length) is ∧ pick blocks is = ws := by
  intro blocks
  induction blocks with
  | nil =>
    intro ws h
    cases ws with
    | nil => exact ⟨[], True.intro, rfl⟩
    | cons w ws => exact h.elim
  | cons b bs ih =>
    intro ws h
    cases ws with
    | nil => exact h.elim
    | cons w ws =>
      obtain ⟨hw, h⟩ := h
      obtain ⟨is, hi, e⟩ := ih ws h
      obtain ⟨i, hil, hie⟩ := List.getElem_of_mem hw
      refine ⟨i :: is, ⟨hil, hi⟩, ?_⟩
      simp only [pick, e, List.getD_eq_getElem?_getD, List.getElem?_eq_getElem hil, hie, Option.getD_some]

theorem pick_inj : ∀ (blocks : List (List Str)) (is is' : List Nat), (∀ b ∈ blocks, b.Nodup) →
    InRadix (blocks.map List.length) is → InRadix (blocks.map List.length) is' → pick blocks is = pick blocks is' → is = is' := by
  intro blocks
  induction blocks with
  | nil =>
    intro is is' _ h h' _
    cases is with
    | nil => cases is' with
      | nil => rfl
      | cons _ _ => exact h'.elim
    | cons _ _ => exact h.elim
  | cons b bs ih =>
    intro is is' hb h h' e
    cases is with
    | nil => exact h.elim
    | cons i is =>
      cases is' with
      | nil => exact h'.elim
      | cons i' is' =>
        obtain ⟨hi, h⟩ := h
        obtain ⟨hi', h'⟩ := h'
        have hil : i < b.length := hi
        have hil' : i' < b.length := hi'
        simp only [pick, List.cons.injEq, List.getD_eq_getElem?_getD, List.getElem?_eq_getElem hil,
          List.getElem?_eq_getElem hil', Option.getD_some] at e
        have e1 : i = i' := by
          have hnd := List.pairwise_iff_getElem.mp (hb b (by simp))
          rcases Nat.lt_trichotomy i i' with h | h | h
          · exact absurd e.1 (hnd i i' hil hil' h)
          · exact h
          · exact absurd e.1.symm (hnd i' i hil' hil h)
        rw [e1, ih is is' (fun x hx => hb x (by simp [hx])) h h' e.2]

/-- A factorised name, for a range described by its blocks. -/
theorem factorSuffix_spec {r : AlgorithmicRange} {blocks : List (List Str)} {extra : List Str}
    (hf : r.factors = blocks.map List.length) (he : r.elements = blocks.flatten ++ extra) (hne : blocks ≠ [])
    (hb : ∀ b ∈ blocks, b ≠ []) {k : Nat} (hk : k < prod r.factors) :
    r.factorSuffix (r.start + k) = .ok (r.string ++ (pick blocks (mixedRadix r.factors k)).flatten) := by
  have hpos : ∀ f ∈ r.factors, 0 < f := by
    intro f h
    rw [hf] at h
    obtain ⟨b, hb', rfl⟩ := List.mem_map.mp h
    exact List.length_pos_iff.mpr (hb b hb')
  unfold AlgorithmicRange.factorSuffix
  have hfc : ∃ f0 fs, r.factors = f0 :: fs := by
    cases hfs : r.factors with
    | nil => rw [hf] at hfs; simp at hfs; exact absurd hfs hne
    | cons f0 fs => exact ⟨f0, fs, rfl⟩
  obtain ⟨f0, fs, hfs⟩ := hfc
  have hpos' : ∀ f ∈ fs, 0 < f := fun f h => hpos f (by rw [hfs]; simp [h])
  rw [show r.start + k - r.start = k by omega, hfs, List.drop_succ_cons, List.drop_zero]
  simp only [splitCode_spec fs hpos' k, bind, Except.bind]
  have hm : k / prod fs :: mixedRadix fs (k % prod fs) = mixedRadix (f0 :: fs) k := rfl
  rw [hm, ← hfs]
  have hin := mixedRadix_in r.factors hpos k hk
  rw [hf] at hin ⊢
  have := appendElements_spec blocks (mixedRadix (blocks.map List.length) k) [] extra 0 r.string hin rfl
  rw [List.nil_append] at this
  rw [he, this]

end Verif.CharNames

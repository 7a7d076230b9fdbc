import Verif.Spec.CharNames
import Verif.Lemmas.Bytes
/-! # Decoding the packed string lengths of a group -/
namespace Verif.CharNames
open Verif.CharNames.Spec

theorem slice_head {α : Type} (a : List α) (x : α) (b : List α) {s : Nat} (hs : s = a.length) :
    slice (a ++ x :: b) s (s + 1) = [x] := by
  subst hs; unfold slice; simp

private theorem f1 : ∀ h : Fin 4, ∀ lo : Fin 16, ((((12 + h.val) * 16 + lo.val) &&& 0x3F) + 12 = h.val * 16 + lo.val + 12 ∧
    ((12 + h.val) * 16 + lo.val) &&& 0xF0 ≠ 0 ∧ (12 + h.val) * 16 + lo.val ≥ 0xC0) := by decide
private theorem f2 : ∀ a : Fin 12, ∀ b : Fin 16, ((a.val * 16 + b.val) / 2 ^ 4 = a.val ∧ (a.val * 16 + b.val) &&& 0xF = b.val ∧
    b.val &&& 0xF0 = 0 ∧ ¬ a.val * 16 + b.val ≥ 0xC0) := by decide
private theorem f3 : ∀ h : Fin 4, ∀ lo : Fin 16, ∀ b : Fin 16,
    ((((12 + h.val) &&& 0x3) * 2 ^ 4 ||| (lo.val * 16 + b.val) / 2 ^ 4) + 12 = h.val * 16 + lo.val + 12 ∧
    (lo.val * 16 + b.val) &&& 0xF = b.val ∧ b.val &&& 0xF0 = 0) := by decide

variable {data : List Nat}

/-- One round, a two-nibble length in one byte. -/
theorem loop_double {fuel i s offset length : Nat} {offsets lengths : List Nat} {h lo : Nat} (hi : i < 32)
    (hl : length < 12) (hh : h < 4) (hlo : lo < 16) (hb : slice data s (s + 1) = [(12 + h) * 16 + lo]) :
    lengthsLoop data (fuel + 1) i s offset length offsets lengths =
      lengthsLoop data fuel (i + 1) (s + 1) (offset + (h * 16 + lo + 12)) 0 (offsets ++ [offset])
        (lengths ++ [h * 16 + lo + 12]) := by
  obtain ⟨e1, e2, e3⟩ := f1 ⟨h, hh⟩ ⟨lo, hlo⟩
  simp only at e1 e2 e3
  conv => lhs; unfold lengthsLoop
  rw [if_pos (by unfold LINES_PER_GROUP GROUP_SHIFT; omega), hb]
  simp only [if_neg (show ¬ length ≥ 12 by omega), if_pos e3, e1, if_neg e2]

/-- One round, two single-nibble lengths in a byte, or one and the beginning of another. -/
theorem loop_single {fuel i s offset length : Nat} {offsets lengths : List Nat} {a b : Nat} (hi : i < 32)
    (hl : length < 12) (ha : a < 12) (hb16 : b < 16) (hb : slice data s (s + 1) = [a * 16 + b]) :
    lengthsLoop data (fuel + 1) i s offset length offsets lengths =
      if b < 12 then
        lengthsLoop data fuel (i + 2) (s + 1) (offset + a + b) b (offsets ++ [offset] ++ [offset + a]) (lengths ++ [a] ++ [b])
      else lengthsLoop data fuel (i + 1) (s + 1) (offset + a) b (offsets ++ [offset]) (lengths ++ [a]) := by
  obtain ⟨e1, e2, e3, e4⟩ := f2 ⟨a, ha⟩ ⟨b, hb16⟩
  simp only at e1 e2 e3 e4
  conv => lhs; unfold lengthsLoop
  rw [if_pos (by unfold LINES_PER_GROUP GROUP_SHIFT; omega), hb]
  simp only [if_neg (show ¬ length ≥ 12 by omega), if_neg e4, e1, e2, e3, if_true]

/-- One round after the beginning of a two-nibble length. -/
theorem loop_carry {fuel i s offset h : Nat} {offsets lengths : List Nat} {lo b : Nat} (hi : i < 32)
    (hh : h < 4) (hlo : lo < 16) (hb16 : b < 16) (hb : slice data s (s + 1) = [lo * 16 + b]) :
    lengthsLoop data (fuel + 1) i s offset (12 + h) offsets lengths =
      if b < 12 then
        lengthsLoop data fuel (i + 2) (s + 1) (offset + (h * 16 + lo + 12) + b) b
          (offsets ++ [offset] ++ [offset + (h * 16 + lo + 12)]) (lengths ++ [h * 16 + lo + 12] ++ [b])
      else lengthsLoop data fuel (i + 1) (s + 1) (offset + (h * 16 + lo + 12)) b (offsets ++ [offset])
        (lengths ++ [h * 16 + lo + 12]) := by
  obtain ⟨e1, e2, e3⟩ := f3 ⟨h, hh⟩ ⟨lo, hlo⟩ ⟨b, hb16⟩
  simp only at e1 e2 e3
  conv => lhs; unfold lengthsLoop
  rw [if_pos (by unfold LINES_PER_GROUP GROUP_SHIFT; omega), hb]
  simp only [if_pos (show 12 + h ≥ 12 by omega), e1, e2, e3, if_true]

theorem loop_end {fuel i s offset length : Nat} {offsets lengths : List Nat} (hi : 32 ≤ i) :
    lengthsLoop data (fuel + 1) i s offset length offsets lengths = .ok (s, offsets, lengths) := by
  unfold lengthsLoop
  rw [if_neg (by unfold LINES_PER_GROUP GROUP_SHIFT; omega)]

/-- The nibbles of a length. -/
theorem nibbles_small {l : Nat} (h : l < 12) : lengthNibbles l = [l] := if_pos h
theorem nibbles_big {l : Nat} (h : ¬ l < 12) : lengthNibbles l = [12 + (l - 12) / 16, (l - 12) % 16] := if_neg h

theorem offsetsFrom_append (o : Nat) (a b : List Nat) : offsetsFrom o (a ++ b) = offsetsFrom o a ++ offsetsFrom (o + a.sum) b := by
  induction a generalizing o with
  | nil => simp [offsetsFrom]
  | cons x xs ih => simp [offsetsFrom, ih, Nat.add_assoc]

/-- What is left to read: whole lengths, or a length whose first nibble has been read. -/
def restNibbles (carry : Bool) (ls : List Nat) : List Nat :=
  if carry then (ls.flatMap lengthNibbles).drop 1 else ls.flatMap lengthNibbles

/-- The decoding loop from any point on. -/
theorem loop_correct {pad : Nat} (hpad : pad < 16) : ∀ (n : Nat) (ls : List Nat), ls.length ≤ n →
    (∀ l ∈ ls, l ≤ 75) →
    ∀ (carry : Bool) (fuel i s offset length : Nat) (offsets lengths pre post : List Nat),
    (carry = true → ∃ l rest, ls = l :: rest ∧ ¬ l < 12 ∧ length = 12 + (l - 12) / 16) →
    (carry = false → length < 12 ∨ ls = []) → i + ls.length = 32 → ls.length < fuel → s = pre.length →
    data = pre ++ packNibbles pad (restNibbles carry ls) ++ post →
    lengthsLoop data fuel i s offset length offsets lengths =
      .ok (s + (packNibbles pad (restNibbles carry ls)).length,
        offsets ++ offsetsFrom offset (ls ++ if (restNibbles carry ls).length % 2 = 1 ∧ pad < 12 then [pad] else []),
        lengths ++ (ls ++ if (restNibbles carry ls).length % 2 = 1 ∧ pad < 12 then [pad] else [])) := by
  intro n
  induction n with
  | zero =>
    intro ls hn hls carry fuel i s offset length offsets lengths pre post hc hnc hi hf hs hd
    have : ls = [] := List.length_eq_zero_iff.mp (by omega)
    subst this
    obtain ⟨f, rfl⟩ : ∃ f, fuel = f + 1 := ⟨fuel - 1, by simp at hf; omega⟩
    rw [loop_end (by simp at hi; omega)]
    cases carry <;> simp [restNibbles, packNibbles, offsetsFrom]
  | succ n ih =>
    intro ls hn hls carry fuel i s offset length offsets lengths pre post hc hnc hi hf hs hd
    match ls, hn, hls, hc, hnc, hi, hf, hd with
    | [], _, _, _, _, hi, hf, _ =>
      obtain ⟨f, rfl⟩ : ∃ f, fuel = f + 1 := ⟨fuel - 1, by simp at hf; omega⟩
      rw [loop_end (by simp at hi; omega)]
      cases carry <;> simp [restNibbles, packNibbles, offsetsFrom]
    | l :: ls, hn, hls, hc, hnc, hi, hf, hd =>
      obtain ⟨f, rfl⟩ : ∃ f, fuel = f + 1 := ⟨fuel - 1, by simp at hf; omega⟩
      simp only [List.length_cons] at hn hi hf
      have hl75 := hls l (by simp)
      have hls' : ∀ l ∈ ls, l ≤ 75 := fun x hx => hls x (by simp [hx])
      -- the nibbles after the current length, and the byte that holds the last nibble of the current one
      have tail : ∀ (x : Nat) (L : Nat) (lp : List Nat) (data' : List Nat), data' = data →
          data = pre ++ packNibbles pad (x :: ls.flatMap lengthNibbles) ++ post →
          (∀ b, b < 16 → slice data s (s + 1) = [x * 16 + b] →
            lengthsLoop data (f + 1) i s offset length offsets lengths =
              if b < 12 then
                lengthsLoop data f (i + 2) (s + 1) (offset + L + b) b (offsets ++ [offset] ++ [offset + L]) (lengths ++ [L] ++ [b])
              else lengthsLoop data f (i + 1) (s + 1) (offset + L) b (offsets ++ [offset]) (lengths ++ [L])) →
          lengthsLoop data (f + 1) i s offset length offsets lengths =
            .ok (s + (packNibbles pad (x :: ls.flatMap lengthNibbles)).length,
              offsets ++ offsetsFrom offset (L :: ls ++ if (x :: ls.flatMap lengthNibbles).length % 2 = 1 ∧ pad < 12 then [pad] else []),
              lengths ++ (L :: ls ++ if (x :: ls.flatMap lengthNibbles).length % 2 = 1 ∧ pad < 12 then [pad] else [])) := by
        intro x L _ _ _ hd step
        match ls, hn, hls', hi, hf, hd with
        | [], _, _, hi, hf, hd =>
          simp only [List.flatMap_nil, packNibbles, List.length_nil] at hd hi hf ⊢
          rw [step pad hpad (by rw [hd, List.append_assoc]; exact slice_head _ _ _ hs)]
          obtain ⟨g, rfl⟩ : ∃ g, f = g + 1 := ⟨f - 1, by omega⟩
          by_cases hp : pad < 12
          · rw [if_pos hp, loop_end (by omega)]
            simp [hp, offsetsFrom]
          · rw [if_neg hp, loop_end (by omega)]
            simp [hp, offsetsFrom]
        | m :: ls, hn, hls', hi, hf, hd =>
          simp only [List.length_cons] at hn hi hf
          have hm75 := hls' m (by simp)
          have hls'' : ∀ l ∈ ls, l ≤ 75 := fun x hx => hls' x (by simp [hx])
          by_cases hm : m < 12
          · simp only [List.flatMap_cons, nibbles_small hm, List.singleton_append, packNibbles] at hd ⊢
            rw [step m (by omega) (by rw [hd, List.append_assoc]; exact slice_head _ _ _ hs), if_pos hm]
            rw [ih ls (by omega) hls'' false f (i + 2) (s + 1) _ m _ _ (pre ++ [x * 16 + m]) post (by simp) (by simp [hm])
              (by omega) (by omega) (by simp [hs]) (by simp [restNibbles, hd])]
            simp only [restNibbles, Bool.false_eq_true, if_false, List.length_cons,
              show ∀ k, (k + 1 + 1) % 2 = k % 2 by omega]
            simp [offsetsFrom, Nat.add_assoc, Nat.add_comm]
          · simp only [List.flatMap_cons, nibbles_big hm, List.cons_append, List.nil_append, packNibbles] at hd ⊢
            rw [step (12 + (m - 12) / 16) (by omega) (by rw [hd, List.append_assoc]; exact slice_head _ _ _ hs),
              if_neg (by omega)]
            have hr : restNibbles true (m :: ls) = (m - 12) % 16 :: ls.flatMap lengthNibbles := by
              simp [restNibbles, nibbles_big hm]
            rw [ih (m :: ls) (by simp; omega) hls' true f (i + 1) (s + 1) _ _ _ _ (pre ++ [x * 16 + (12 + (m - 12) / 16)]) post
              (fun _ => ⟨m, ls, rfl, hm, rfl⟩) (by simp)
              (by simp; omega) (by simp; omega) (by simp [hs]) (by rw [hr]; simp [hd])]
            rw [hr]
            simp only [List.length_cons, show ∀ k, (k + 1 + 1 + 1) % 2 = (k + 1) % 2 by omega]
            simp [offsetsFrom, Nat.add_assoc, Nat.add_comm]
      cases carry with
      | false =>
        have hlen : length < 12 := by
          rcases hnc rfl with h | h
          · exact h
          · cases h
        by_cases hl : l < 12
        · have hr : restNibbles false (l :: ls) = l :: ls.flatMap lengthNibbles := by
            simp [restNibbles, nibbles_small hl]
          rw [hr] at hd ⊢
          exact tail l l [] data rfl hd (fun b hb16 hb => loop_single (by omega) hlen hl hb16 hb)
        · have hr : restNibbles false (l :: ls) = (12 + (l - 12) / 16) :: (l - 12) % 16 :: ls.flatMap lengthNibbles := by
            simp [restNibbles, nibbles_big hl]
          rw [hr] at hd ⊢
          simp only [packNibbles] at hd ⊢
          have el : (l - 12) / 16 * 16 + (l - 12) % 16 + 12 = l := by omega
          rw [loop_double (h := (l - 12) / 16) (lo := (l - 12) % 16) (by omega) hlen (by omega) (Nat.mod_lt _ (by omega))
            (by rw [hd, List.append_assoc]; exact slice_head _ _ _ hs), el]
          rw [ih ls (by omega) hls' false f (i + 1) (s + 1) _ 0 _ _ (pre ++ [(12 + (l - 12) / 16) * 16 + (l - 12) % 16]) post
            (by simp) (by simp) (by omega) (by omega) (by simp [hs]) (by simp [restNibbles, hd])]
          simp only [restNibbles, Bool.false_eq_true, if_false, List.length_cons,
            show ∀ k, (k + 1 + 1) % 2 = k % 2 by omega]
          simp [offsetsFrom, Nat.add_assoc, Nat.add_comm]
      | true =>
        obtain ⟨l', rest, e, hl, rfl⟩ := hc rfl
        injection e with e1 e2
        subst e1; subst e2
        have hr : restNibbles true (l :: ls) = (l - 12) % 16 :: ls.flatMap lengthNibbles := by
          simp [restNibbles, nibbles_big hl]
        rw [hr] at hd ⊢
        have el : (l - 12) / 16 * 16 + (l - 12) % 16 + 12 = l := by omega
        refine tail ((l - 12) % 16) l [] data rfl hd (fun b hb16 hb => ?_)
        have := loop_carry (fuel := f) (offset := offset) (offsets := offsets) (lengths := lengths)
          (show i < 32 by omega) (show (l - 12) / 16 < 4 by omega) (Nat.mod_lt (l - 12) (show 16 > 0 by omega)) hb16 hb
        rw [el] at this
        exact this

end Verif.CharNames

import Verif.Model.ModuleText
import Verif.Spec.ModuleText
/-!
# Lemmas about matching and formatting of texts
-/
namespace Verif.ModuleText
open Verif.Spec

theorem lit_some {p s t : Str} : lit p s = some t ↔ s = p ++ t := by
  unfold lit
  induction p generalizing s with
  | nil => simp [List.isPrefixOf?]
  | cons a p ih =>
    cases s with
    | nil => simp [List.isPrefixOf?]
    | cons b s =>
      simp only [List.isPrefixOf?, beq_iff_eq]
      by_cases h : a = b
      · subst h; simp [ih]
      · rw [if_neg h]
        constructor
        · intro h; cases h
        · intro he; injection he with h1 _; exact absurd h1.symm h

theorem lit_append (p s : Str) : lit p (p ++ s) = some s := lit_some.mpr rfl

theorem lit_none {p s : Str} (h : ¬ p <+: s) : lit p s = none := by
  cases hl : lit p s with
  | none => rfl
  | some t => exact absurd ⟨t, (lit_some.mp hl).symm⟩ h

theorem search_first {β : Type} {m : Str → Option β} {b : β} : ∀ {pre rest : Str},
    (∀ n, n < pre.length → m ((pre ++ rest).drop n) = none) → m rest = some b → search m (pre ++ rest) = some b := by
  intro pre
  induction pre with
  | nil =>
    intro rest _ h
    cases rest with
    | nil => simpa [search] using h
    | cons c t => simp only [List.nil_append]; rw [search, h]
  | cons c t ih =>
    intro rest hn h
    have h0 := hn 0 (by simp)
    simp only [List.drop_zero, List.cons_append] at h0
    rw [List.cons_append, search, h0]
    refine ih (fun n hl => ?_) h
    have := hn (n + 1) (by simp; omega)
    simpa using this

theorem lazyPlus_first {β : Type} {k : Str → Option β} {b : β} : ∀ {x y : Str}, x ≠ [] →
    (∀ n, 0 < n → n < x.length → k ((x ++ y).drop n) = none) → k y = some b → lazyPlus k (x ++ y) = some (x, b) := by
  intro x
  induction x with
  | nil => intro y h; exact absurd rfl h
  | cons c t ih =>
    intro y _ hn hk
    rw [List.cons_append, lazyPlus]
    cases t with
    | nil => simp [hk]
    | cons d t =>
      have h1 := hn 1 (by omega) (by simp)
      simp only [List.cons_append, List.drop_succ_cons, List.drop_zero] at h1
      rw [List.cons_append, h1]
      rw [← List.cons_append, ih (by simp) (fun n h0 hl => ?_) hk]
      · rfl
      · have := hn (n + 1) (by omega) (by simp at hl ⊢; omega)
        simpa using this

/-- A literal that starts with a character that is not in `x` does not match within `x`. -/
theorem lit_inside {c : Nat} {p x y : Str} (h : c ∉ x) {n : Nat} (hn : n < x.length) : lit (c :: p) ((x ++ y).drop n) = none := by
  apply lit_none
  rw [List.drop_append_of_le_length (by omega), List.drop_eq_getElem_cons hn]
  intro hp
  rw [List.cons_append, List.cons_prefix_cons] at hp
  exact h (hp.1 ▸ List.getElem_mem hn)

/-- The longest match: nothing behind the last occurrence. -/
theorem greedyPlus_last {β : Type} {k : Str → Option β} {b : β} : ∀ {x y : Str}, x ≠ [] → 10 ∉ x → k y = some b →
    greedyPlus k y = none → greedyPlus k (x ++ y) = some (x, b) := by
  intro x
  induction x with
  | nil => intro y h; exact absurd rfl h
  | cons c t ih =>
    intro y _ hx hk hg
    have hc : c ≠ 10 := fun h => hx (by simp [h])
    have ht : 10 ∉ t := fun h => hx (by simp [h])
    rw [List.cons_append, greedyPlus, if_neg hc]
    cases t with
    | nil => simp [hg, hk]
    | cons d t => rw [ih (by simp) ht hk hg]

/-- There is no match when what has to follow does not occur on the line. -/
theorem greedyPlus_none {c : Nat} : ∀ {x y : Str}, c ∉ x → (∀ n, n ≤ y.length → lit [c] (y.drop n) = none ∨ 10 ∈ y.take n) →
    greedyPlus (lit [c]) (x ++ y) = none := by
  intro x
  induction x with
  | nil =>
    intro y _ hy
    simp only [List.nil_append]
    induction y with
    | nil => rfl
    | cons d t ih =>
      rw [greedyPlus]
      by_cases hd : d = 10
      · rw [if_pos hd]
      · rw [if_neg hd, ih]
        · have := hy 1 (by simp)
          simp only [List.drop_succ_cons, List.drop_zero, List.take_succ_cons, List.take_zero, List.mem_singleton] at this
          rcases this with h | h
          · simp [h]
          · exact absurd h.symm hd
        · intro n hn
          have := hy (n + 1) (by simp; omega)
          simp only [List.drop_succ_cons, List.take_succ_cons, List.mem_cons] at this
          rcases this with h | h | h
          · exact Or.inl h
          · exact absurd h.symm hd
          · exact Or.inr h
  | cons d t ih =>
    intro y hx hy
    have ht : c ∉ t := fun h => hx (by simp [h])
    rw [List.cons_append, greedyPlus]
    by_cases hd : d = 10
    · rw [if_pos hd]
    · rw [if_neg hd, ih ht hy]
      have hn : lit [c] (t ++ y) = none := by
        cases t with
        | nil =>
          have := hy 0 (by simp)
          simpa using this
        | cons e t => exact lit_inside (n := 0) ht (by simp)
      simp [hn]

/-! ## White space -/

theorem wordsFrom_space {c : Nat} (h : isSpace c = true) (w s : Str) :
    wordsFrom w (c :: s) = if w = [] then wordsFrom [] s else w :: wordsFrom [] s := by
  rw [wordsFrom, if_pos h]

theorem wordsFrom_replace (w s : Str) : wordsFrom w (replace 10 (txt "\n    ") s) = wordsFrom w s := by
  induction s generalizing w with
  | nil => rfl
  | cons c t ih =>
    rw [replace]
    by_cases hc : c = 10
    · subst hc
      rw [if_pos rfl]
      have : txt "\n    " = [10, 32, 32, 32, 32] := by decide
      rw [this] at ih ⊢
      have h10 : isSpace 10 = true := by decide
      have h32 : isSpace 32 = true := by decide
      simp only [List.cons_append, List.nil_append, wordsFrom_space h10, wordsFrom_space h32, if_true, ih]
    · rw [if_neg hc]
      simp only [List.cons_append, List.nil_append, wordsFrom, ih]

theorem wordsFrom_snoc_space {c : Nat} (h : isSpace c = true) (w s : Str) : wordsFrom w (s ++ [c]) = wordsFrom w s := by
  induction s generalizing w with
  | nil => simp [wordsFrom, h]
  | cons d t ih => simp only [List.cons_append, wordsFrom, ih]

/-- Formatting an initialiser changes white space only. -/
theorem words_formatArray (s : Str) : words (formatArray s) = words s := by
  have h10 : isSpace 10 = true := by decide
  have hl : wordsFrom [] (if s.getLast? = some 10 then s.dropLast else s) = wordsFrom [] s := by
    split
    · rename_i h
      obtain ⟨t, rfl⟩ := List.getLast?_eq_some_iff.mp h
      rw [List.dropLast_concat, wordsFrom_snoc_space h10]
    · rfl
  unfold words formatArray
  by_cases hm : 10 ∈ s
  · have hn : txt "\n" = [10] := by decide
    simp only [hm, if_true, hn]
    rw [wordsFrom_snoc_space h10, if_pos (by simp), wordsFrom_replace, hl]
  · simp only [hm, if_false, List.append_nil]
    rw [if_neg (by simp), hl]

/-! ## Fields -/

theorem splitFields_none {s : Str} (h : ¬ [44, 10] <:+: s) : splitFields s = [s] := by
  induction s with
  | nil => rfl
  | cons c t ih =>
    cases t with
    | nil => rfl
    | cons d t =>
      rw [splitFields]
      have h1 : ¬ (c = 44 ∧ d = 10) := by
        rintro ⟨rfl, rfl⟩
        exact h ⟨[], t, rfl⟩
      rw [if_neg h1, ih (fun hi => h (hi.trans (List.suffix_cons c _).isInfix))]

theorem splitFields_append {f t : Str} (h : ¬ [44, 10] <:+: f) : splitFields (f ++ 44 :: 10 :: t) = f :: splitFields t := by
  induction f with
  | nil => simp [splitFields]
  | cons c f ih =>
    have ih := ih (fun hi => h (hi.trans (List.suffix_cons c _).isInfix))
    cases f with
    | nil =>
      simp only [List.cons_append, List.nil_append] at ih ⊢
      rw [splitFields, if_neg (by omega), ih]
    | cons d f =>
      simp only [List.cons_append] at ih ⊢
      have h1 : ¬ (c = 44 ∧ d = 10) := by
        rintro ⟨rfl, rfl⟩
        exact h ⟨[], f, rfl⟩
      rw [splitFields, if_neg h1, ih]

theorem splitFields_join : ∀ {fs : List Str}, fs ≠ [] → (∀ f ∈ fs, ¬ [44, 10] <:+: f) →
    splitFields (join (txt ",\n") fs) = fs := by
  have ht : txt ",\n" = [44, 10] := by decide
  intro fs
  induction fs with
  | nil => intro h; exact absurd rfl h
  | cons f fs ih =>
    intro _ h
    cases fs with
    | nil =>
      have : join (txt ",\n") [f] = f := by simp [join, List.intercalate, List.intersperse]
      rw [this]; exact splitFields_none (h f (by simp))
    | cons g fs =>
      have ih := ih (by simp) (fun x hx => h x (by simp [hx]))
      rw [ht] at ih ⊢
      have : join [44, 10] (f :: g :: fs) = f ++ 44 :: 10 :: join [44, 10] (g :: fs) := by
        simp [join, List.intercalate, List.intersperse]
      rw [this, splitFields_append (h f (by simp)), ih]

end Verif.ModuleText

import Verif.Model.UnicodeSet
import Verif.Spec.CodePointSet
/-! Proof support for `UnicodeSet`: membership parity, binary search. -/
namespace Verif.USet
open Verif.Spec

/-- Parity of the number of boundaries at or below `c`. -/
def mem : List Int → Int → Bool
  | [], _ => false
  | x :: xs, c => (decide (x ≤ c)) ^^ mem xs c

@[simp] theorem mem_nil (c : Int) : mem [] c = false := rfl
theorem mem_cons (x : Int) (xs : List Int) (c : Int) : mem (x :: xs) c = ((decide (x ≤ c)) ^^ mem xs c) := rfl

theorem mem_cons_le {x : Int} {xs : List Int} {c : Int} (h : x ≤ c) : mem (x :: xs) c = !mem xs c := by
  simp [mem_cons, h]

theorem mem_cons_gt {x : Int} {xs : List Int} {c : Int} (h : c < x) : mem (x :: xs) c = mem xs c := by
  simp [mem_cons, Int.not_le.mpr h]

theorem mem_append (l m : List Int) (c : Int) : mem (l ++ m) c = (mem l c ^^ mem m c) := by
  induction l with
  | nil => simp
  | cons x xs ih => simp [mem_cons, ih]

theorem mem_reverse (l : List Int) (c : Int) : mem l.reverse c = mem l c := by
  induction l with
  | nil => rfl
  | cons x xs ih => simp [mem_append, ih, mem_cons, Bool.xor_comm]

theorem mem_of_all_gt {l : List Int} {c : Int} (h : ∀ y ∈ l, c < y) : mem l c = false := by
  induction l with
  | nil => rfl
  | cons x xs ih =>
    rw [mem_cons_gt (h x (by simp)), ih (fun y hy => h y (by simp [hy]))]

theorem mem_of_all_le {l : List Int} {c : Int} (h : ∀ y ∈ l, y ≤ c) :
    mem l c = decide (l.length % 2 = 1) := by
  induction l with
  | nil => rfl
  | cons x xs ih =>
    rw [mem_cons_le (h x (by simp)), ih (fun y hy => h y (by simp [hy]))]
    by_cases hx : xs.length % 2 = 1 <;> simp [hx] <;> omega

theorem mem_eq_countP (l : List Int) (c : Int) :
    mem l c = decide (l.countP (fun x => decide (x ≤ c)) % 2 = 1) := by
  induction l with
  | nil => rfl
  | cons x xs ih =>
    by_cases h : x ≤ c
    · rw [mem_cons_le h, ih, List.countP_cons_of_pos (by simpa using h)]
      by_cases hx : xs.countP (fun x => decide (x ≤ c)) % 2 = 1 <;> simp [hx] <;> omega
    · rw [mem_cons_gt (by omega), ih, List.countP_cons_of_neg (by simpa using h)]

/-! ## Python indexing on a non-negative index -/

theorem pyGet_nat {α : Type} {l : List α} {i : Nat} (h : i < l.length) : pyGet l (i : Int) = .ok l[i] := by
  unfold pyGet
  simp [h]

theorem pyGet_nat_sub_one {α : Type} {l : List α} {i : Nat} (h : i < l.length) (hi : 0 < i) :
    pyGet l ((i : Int) - 1) = .ok l[i - 1] := by
  have : ((i : Int) - 1) = ((i - 1 : Nat) : Int) := by omega
  rw [this, pyGet_nat (by omega)]

theorem pyGet_zero {α : Type} (x : α) (xs : List α) : pyGet (x :: xs) 0 = .ok x := by
  simp [pyGet]

/-! ## Sorted lists -/

theorem sorted_get_le {l : List Int} (h : l.Pairwise (· ≤ ·)) {i j : Nat} (hij : i ≤ j) (hj : j < l.length) :
    l[i]'(by omega) ≤ l[j] := by
  rcases Nat.lt_or_eq_of_le hij with h1 | h1
  · exact (List.pairwise_iff_getElem.mp h) i j (by omega) hj h1
  · subst h1; exact Int.le_refl _

theorem countP_eq_of_split {l : List Int} {cp : Int} {k : Nat} (hk : k ≤ l.length)
    (h1 : ∀ i (hi : i < l.length), i < k → l[i] ≤ cp) (h2 : ∀ i (hi : i < l.length), k ≤ i → cp < l[i]) :
    l.countP (fun x => decide (x ≤ cp)) = k := by
  have hl : l = l.take k ++ l.drop k := (List.take_append_drop k l).symm
  rw [hl, List.countP_append]
  have a : (l.take k).countP (fun x => decide (x ≤ cp)) = (l.take k).length := by
    rw [List.countP_eq_length]
    intro x hx
    obtain ⟨i, hi, rfl⟩ := List.getElem_of_mem hx
    simp only [List.length_take] at hi
    simp only [List.getElem_take, decide_eq_true_eq]
    exact h1 i (by omega) (by omega)
  have b : (l.drop k).countP (fun x => decide (x ≤ cp)) = 0 := by
    rw [List.countP_eq_zero]
    intro x hx
    obtain ⟨i, hi, rfl⟩ := List.getElem_of_mem hx
    simp only [List.length_drop] at hi
    simp only [List.getElem_drop, decide_eq_true_eq]
    have := h2 (k + i) (by omega) (by omega)
    omega
  rw [a, b]
  simp; omega

theorem findLoop_ok {l : List Int} (hs : l.Pairwise (· ≤ ·)) {cp : Int} :
    ∀ (fuel lo hi : Nat), hi - lo ≤ fuel → 0 < fuel → (hlt : lo < hi) → (hh : hi < l.length) →
      l[lo]'(by omega) ≤ cp → cp < l[hi] →
      findLoop l cp fuel lo hi = .ok (l.countP (fun x => decide (x ≤ cp))) := by
  intro fuel
  induction fuel with
  | zero => intro lo hi h h0; omega
  | succ n ih =>
    intro lo hi hf _ hlt hh h1 h2
    unfold findLoop
    by_cases hi' : (lo + hi) / 2 = lo
    · have : hi = lo + 1 := by omega
      simp only [hi', ↓reduceIte]
      congr 1
      symm
      apply countP_eq_of_split (by omega)
      · intro i hi1 hik
        have := sorted_get_le hs (i := i) (j := lo) (by omega) (by omega)
        omega
      · intro i hi1 hik
        have := sorted_get_le hs (i := hi) (j := i) (by omega) (by omega)
        omega
    · simp only [hi', ↓reduceIte]
      have hm : (lo + hi) / 2 < l.length := by omega
      rw [pyGet_nat hm]
      simp only [bind, Except.bind]
      split
      · exact ih _ _ (by omega) (by omega) (by omega) _ h1 (by assumption)
      · exact ih _ _ (by omega) (by omega) (by omega) _ (by omega) h2

/-- `_findCodePoint` counts the boundaries at or below `cp`, provided `cp` is below the last boundary. -/
theorem findCodePoint_eq {l : List Int} (hs : l.Pairwise (· ≤ ·)) {cp : Int} {z : Int}
    (hz : l.getLast? = some z) (hcp : cp < z) :
    findCodePoint l cp = .ok (l.countP (fun x => decide (x ≤ cp))) := by
  have hne : l ≠ [] := by rintro rfl; simp at hz
  have hlen : 0 < l.length := List.length_pos_iff.mpr hne
  have hlast : l[l.length - 1]'(by omega) = z := by
    have := hz
    rw [List.getLast?_eq_getElem?] at this
    rw [List.getElem?_eq_getElem (by omega)] at this
    simpa using this
  have h0 : pyGet l 0 = .ok l[0] := by
    have := pyGet_nat (l := l) (i := 0) hlen
    simpa using this
  unfold findCodePoint
  rw [h0]
  simp only [bind, Except.bind]
  split
  · rename_i h
    simp only [pure, Except.pure]
    congr 1; symm
    apply countP_eq_of_split (by omega)
    · intro i _ hi; omega
    · intro i hi _
      have := sorted_get_le hs (i := 0) (j := i) (by omega) hi
      omega
  · rename_i h
    split
    · rename_i hge
      have h1 : l.length = 1 := by omega
      have : l[0] = z := by
        have := hlast
        simpa [h1] using this
      omega
    · rename_i hge
      rw [pyGet_nat_sub_one (by omega) (by omega)]
      simp only
      split
      · rename_i hge2
        simp only [pure, Except.pure]
        congr 1; symm
        apply countP_eq_of_split (by omega)
        · intro i hi1 hik
          have := sorted_get_le hs (i := i) (j := l.length - 1 - 1) (by omega) (by omega)
          omega
        · intro i hi1 hik
          have : i = l.length - 1 := by omega
          subst this
          omega
      · exact findLoop_ok hs _ _ _ (by omega) hlen (by omega) (by omega) (by omega) (by omega)

theorem _root_.Verif.Spec.WellFormed.sorted {l : List Int} (h : WellFormed l) : l.Pairwise (· ≤ ·) := h.1
theorem _root_.Verif.Spec.WellFormed.nonneg {l : List Int} (h : WellFormed l) {x : Int} (hx : x ∈ l) : 0 ≤ x := (h.2.1 x hx).1
theorem _root_.Verif.Spec.WellFormed.le_high {l : List Int} (h : WellFormed l) {x : Int} (hx : x ∈ l) : x ≤ HIGH := (h.2.1 x hx).2
theorem _root_.Verif.Spec.WellFormed.last {l : List Int} (h : WellFormed l) : l.getLast? = some HIGH := h.2.2

theorem contains_eq {l : List Int} (h : WellFormed l) {c : Int} (hc : c < HIGH) :
    contains l c = .ok (mem l c) := by
  unfold contains
  rw [findCodePoint_eq h.1 h.2.2 hc, mem_eq_countP]
  simp only [bind, Except.bind, pure, Except.pure]
  congr 1
  generalize l.countP _ = n
  by_cases hn : n % 2 = 1
  · simp [hn]
  · have : n % 2 = 0 := by omega
    simp [this]

end Verif.USet

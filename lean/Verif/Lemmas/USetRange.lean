import Verif.Lemmas.USetIter
/-! `contains(range)`, values outside the code space, equality of canonical lists. -/
namespace Verif.USet
open Verif.Spec

theorem containsRange_ok {l : List Int} (hl : WellFormed l) {a b : Int} (hab : a < b) (hb : b ≤ HIGH) :
    ∃ p q y, l = p ++ y :: q ∧ (∀ x ∈ p, x ≤ a) ∧ a < y ∧ (∀ z ∈ q, y ≤ z) ∧
      containsRange l a b = .ok (decide (p.length % 2 = 1 ∧ b ≤ y)) := by
  obtain ⟨p, q, rfl, h1, h2, h3⟩ := split_at l hl.1 a
  have hfind := findCodePoint_eq hl.1 hl.2.2 (show a < 0x110000 by unfold HIGH at hb; omega)
  rw [h3] at hfind
  cases q with
  | nil =>
    have := hl.2.2
    rw [List.append_nil] at this
    have := h1 _ (List.mem_of_getLast? this)
    unfold HIGH at hb; omega
  | cons y q =>
    refine ⟨p, q, y, rfl, h1, h2 y (by simp), (List.pairwise_cons.mp (List.pairwise_append.mp hl.1).2.1).1, ?_⟩
    unfold containsRange
    rw [hfind]
    simp only [bind, Except.bind, pure, Except.pure, get_mid]
    by_cases hp : p.length % 2 = 1
    · simp [hp]; omega
    · have : p.length % 2 = 0 := by omega
      simp [this]

theorem containsRange_sound {l : List Int} (hl : WellFormed l) {a b : Int} (hab : a < b) (hb : b ≤ HIGH)
    (h : containsRange l a b = .ok true) {c : Int} (h1 : a ≤ c) (h2 : c < b) : mem l c = true := by
  obtain ⟨p, q, y, rfl, hp, hy, hq, heq⟩ := containsRange_ok hl hab hb
  rw [heq] at h
  simp at h
  rw [mem_append, mem_of_all_le (fun x hx => by have := hp x hx; omega),
    mem_of_all_gt (l := y :: q) (fun x hx => by
      simp at hx; rcases hx with rfl | hx
      · omega
      · have := hq x hx; omega)]
  simp [h.1]

theorem containsRange_complete {l : List Int} (hl : WellFormed l) (hs : l.Pairwise (· < ·)) {a b : Int} (hab : a < b) (hb : b ≤ HIGH)
    (h : ∀ c, a ≤ c → c < b → mem l c = true) : containsRange l a b = .ok true := by
  obtain ⟨p, q, y, rfl, hp, hy, hq, heq⟩ := containsRange_ok hl hab hb
  rw [heq]
  have hm := h a (by omega) hab
  have hyq := (List.pairwise_cons.mp (List.pairwise_append.mp hs).2.1).1
  have hpar : p.length % 2 = 1 := by
    rw [mem_append, mem_of_all_le hp, mem_of_all_gt (l := y :: q) (fun x hx => by
      simp at hx; rcases hx with rfl | hx
      · omega
      · have := hq x hx; omega)] at hm
    simpa using hm
  congr 1
  simp only [hpar, true_and, decide_eq_true_eq]
  apply Int.not_lt.mp
  intro hlt
  have hm := h y (by omega) hlt
  rw [mem_append, mem_of_all_le (fun x hx => by have := hp x hx; omega), mem_cons_le (Int.le_refl _),
    mem_of_all_gt hyq] at hm
  simp [hpar] at hm

theorem containsRange_total {l : List Int} (hl : WellFormed l) {a b : Int} (hab : a < b) (hb : b ≤ HIGH) :
    ∃ v, containsRange l a b = .ok v := by
  obtain ⟨p, q, y, rfl, hp, hy, hq, heq⟩ := containsRange_ok hl hab hb
  exact ⟨_, heq⟩

theorem contains_neg {l : List Int} (hl : WellFormed l) {c : Int} (hc : c < 0) : contains l c = .ok false := by
  rw [contains_eq hl (by unfold HIGH; omega), mem_of_all_gt (fun y hy => by have := (hl.2.1 y hy).1; omega)]

theorem contains_high {l : List Int} (hl : WellFormed l) {c : Int} (hc : HIGH ≤ c) :
    contains l c = .ok (decide (l.length % 2 = 0)) := by
  obtain ⟨a, xs, rfl⟩ := wf_cases hl
  unfold contains findCodePoint
  rw [pyGet_zero]
  have ha := (wf_head hl).2
  simp only [bind, Except.bind, pure, Except.pure]
  rw [if_neg (by omega)]
  by_cases h : 0 ≥ (a :: xs).length - 1
  · rw [if_pos h]
    simp at h
    have : xs = [] := by simpa using h
    subst this; simp
  · rw [if_neg h]
    rw [pyGet_nat_sub_one (by simp) (by omega)]
    simp only
    have hx : (a :: xs)[(a :: xs).length - 1 - 1]'(by simp; omega) ≤ 0x110000 := (hl.2.1 _ (List.getElem_mem _)).2
    rw [if_pos (by unfold HIGH at hc; omega)]
    simp only [List.length_cons]
    congr 1
    by_cases h2 : xs.length % 2 = 0
    · have h3 : (xs.length + 1) % 2 = 1 := by omega
      simp [h2, h3]
    · have h3 : (xs.length + 1) % 2 = 0 := by omega
      have h4 : xs.length % 2 = 1 := by omega
      simp [h4, h3]

theorem canonical_ext : ∀ {l m : List Int}, Canonical l → Canonical m → (∀ c, IsCodePoint c → mem l c = mem m c) → l = m := by
  intro l m hl hm h
  apply strict_ext hl.2 hm.2
  -- x is a boundary of a canonical list iff membership changes between x-1 and x, or x = HIGH
  have key : ∀ {l : List Int}, Canonical l → ∀ x, x ∈ l ↔ x = HIGH ∨ (IsCodePoint x ∧ mem l x ≠ mem l (x - 1)) := by
    intro l hl x
    obtain ⟨p, q, rfl, h1, h2, _⟩ := split_at l hl.1.1 x
    have hstr := List.pairwise_append.mp hl.2
    constructor
    · intro hx
      have hb := hl.1.2.1 x hx
      by_cases hxH : x = HIGH
      · exact Or.inl hxH
      · right
        refine ⟨⟨hb.1, by unfold HIGH at hxH; omega⟩, ?_⟩
        have hxp : x ∈ p := by
          simp at hx; rcases hx with hx | hx
          · exact hx
          · have := h2 x hx; omega
        obtain ⟨p', z, rfl⟩ := list_snoc p (List.length_pos_of_mem hxp)
        have hz := List.pairwise_append.mp hstr.1
        have hzx : z = x := by
          have := h1 z (by simp)
          simp at hxp; rcases hxp with hxp | hxp
          · have := hz.2.2 x hxp z (by simp); omega
          · exact hxp.symm
        subst hzx
        have hp' : ∀ y ∈ p', y < z := fun y hy => hz.2.2 y hy z (by simp)
        simp only [mem_append, mem_cons, mem_nil]
        rw [mem_of_all_le (l := p') (fun y hy => by have := hp' y hy; omega),
          mem_of_all_le (l := p') (c := z - 1) (fun y hy => by have := hp' y hy; omega),
          mem_of_all_gt h2, mem_of_all_gt (l := q) (c := z - 1) (fun y hy => by have := h2 y hy; omega)]
        have hzz : ¬ z ≤ z - 1 := by omega
        simp [hzz]
    · rintro (rfl | ⟨hx, hne⟩)
      · exact List.mem_of_getLast? hl.1.2.2
      · by_cases hxp : x ∈ p
        · simp [hxp]
        · exfalso
          apply hne
          have hp' : ∀ y ∈ p, y < x := fun y hy => by
            have := h1 y hy
            have : y ≠ x := fun h => hxp (h ▸ hy)
            omega
          simp only [mem_append]
          rw [mem_of_all_le (l := p) (fun y hy => by have := hp' y hy; omega),
            mem_of_all_le (l := p) (c := x - 1) (fun y hy => by have := hp' y hy; omega),
            mem_of_all_gt h2, mem_of_all_gt (l := q) (c := x - 1) (fun y hy => by have := h2 y hy; omega)]
  intro x
  rw [key hl, key hm]
  apply or_congr Iff.rfl
  apply and_congr_right
  intro hx
  rw [h x hx]
  by_cases h0 : x = 0
  · subst h0
    rw [mem_of_all_gt (l := l) (c := 0 - 1) (fun y hy => by have := (hl.1.2.1 y hy).1; omega),
      mem_of_all_gt (l := m) (c := 0 - 1) (fun y hy => by have := (hm.1.2.1 y hy).1; omega)]
  · rw [h (x - 1) (by unfold IsCodePoint at hx ⊢; omega)]

end Verif.USet

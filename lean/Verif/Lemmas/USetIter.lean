import Verif.Lemmas.USetStrict
/-! Iteration, size, indexing. -/
namespace Verif.USet
open Verif.Spec

theorem mem_pyRange {a b c : Int} : c ∈ pyRange a b ↔ a ≤ c ∧ c < b := by
  unfold pyRange
  simp only [List.mem_map, List.mem_range]
  constructor
  · rintro ⟨k, hk, rfl⟩; omega
  · intro h; exact ⟨(c - a).toNat, by omega, by omega⟩

theorem pyRange_length (a b : Int) : (pyRange a b).length = (b - a).toNat := by simp [pyRange]

theorem pyRange_getElem? {a b : Int} {k : Nat} (h : k < (b - a).toNat) : (pyRange a b)[k]? = some (a + k) := by
  unfold pyRange
  rw [List.getElem?_map, List.getElem?_range h]; rfl

theorem pyRange_strict (a b : Int) : (pyRange a b).Pairwise (· < ·) := by
  unfold pyRange
  rw [List.pairwise_map]
  exact List.pairwise_lt_range.imp (fun h => by omega)

/-- Two-step induction over range lists. -/
theorem pairs_induction {P : List Int → Prop} (h0 : P []) (h1 : ∀ x, P [x]) (h2 : ∀ s e t, P t → P (s :: e :: t)) :
    ∀ l, P l
  | [] => h0
  | [x] => h1 x
  | s :: e :: t => h2 s e t (pairs_induction h0 h1 h2 t)

theorem iter_ge {l : List Int} {m : Int} (hm : ∀ x ∈ l, m ≤ x) : ∀ c ∈ iter l, m ≤ c := by
  induction l using pairs_induction with
  | h0 => simp [iter]
  | h1 x => simp [iter]
  | h2 s e t ih =>
    intro c hc
    simp only [iter, List.mem_append, mem_pyRange] at hc
    rcases hc with hc | hc
    · have := hm s (by simp); omega
    · exact ih (fun x hx => hm x (by simp [hx])) c hc

theorem iter_lt {l : List Int} {m : Int} (hm : ∀ x ∈ l, x ≤ m) : ∀ c ∈ iter l, c < m := by
  induction l using pairs_induction with
  | h0 => simp [iter]
  | h1 x => simp [iter]
  | h2 s e t ih =>
    intro c hc
    simp only [iter, List.mem_append, mem_pyRange] at hc
    rcases hc with hc | hc
    · have := hm e (by simp); omega
    · exact ih (fun x hx => hm x (by simp [hx])) c hc

theorem mem_iter {l : List Int} (hs : l.Pairwise (· ≤ ·)) {z : Int} (hz : l.getLast? = some z) {c : Int} (hc : c < z) :
    c ∈ iter l ↔ mem l c = true := by
  induction l using pairs_induction with
  | h0 => simp [iter]
  | h1 x =>
    simp at hz; subst hz
    simp [iter, mem_cons]; omega
  | h2 s e t ih =>
    obtain ⟨g1, g2⟩ := List.pairwise_cons.mp hs
    obtain ⟨g3, g4⟩ := List.pairwise_cons.mp g2
    have hse := g1 e (by simp)
    simp only [iter, List.mem_append, mem_pyRange, mem_cons]
    cases t with
    | nil =>
      simp at hz; subst hz
      simp [iter]; grind
    | cons x t =>
      have hz' : (x :: t).getLast? = some z := by simpa using hz
      rw [ih g4 hz']
      have hlow : c < e → mem (x :: t) c = false := fun h => mem_of_all_gt (fun y hy => by have := g3 y hy; omega)
      grind

theorem iter_strict {l : List Int} (hs : l.Pairwise (· ≤ ·)) : (iter l).Pairwise (· < ·) := by
  induction l using pairs_induction with
  | h0 => simp [iter]
  | h1 x => simp [iter]
  | h2 s e t ih =>
    obtain ⟨g1, g2⟩ := List.pairwise_cons.mp hs
    obtain ⟨g3, g4⟩ := List.pairwise_cons.mp g2
    rw [iter, List.pairwise_append]
    refine ⟨pyRange_strict _ _, ih g4, ?_⟩
    intro a ha b hb
    have := mem_pyRange.mp ha
    have := iter_ge g3 b hb
    omega

theorem strict_ext : ∀ {l m : List Int}, l.Pairwise (· < ·) → m.Pairwise (· < ·) → (∀ x, x ∈ l ↔ x ∈ m) → l = m
  | [], [], _, _, _ => rfl
  | [], y :: m, _, _, h => by have := (h y).mpr (by simp); simp at this
  | x :: l, [], _, _, h => by have := (h x).mp (by simp); simp at this
  | x :: l, y :: m, hl, hm, h => by
    obtain ⟨a1, a2⟩ := List.pairwise_cons.mp hl
    obtain ⟨b1, b2⟩ := List.pairwise_cons.mp hm
    have hx := (h x).mp (by simp)
    have hy := (h y).mpr (by simp)
    have hxy : x = y := by
      simp at hx hy
      rcases hx with hx | hx
      · exact hx
      · rcases hy with hy | hy
        · exact hy.symm
        · have := b1 x hx; have := a1 y hy; omega
    subst hxy
    congr 1
    apply strict_ext a2 b2
    intro z
    have hz := h z
    simp only [List.mem_cons] at hz
    constructor
    · intro hzl
      rcases hz.mp (Or.inr hzl) with rfl | h'
      · have := a1 z hzl; omega
      · exact h'
    · intro hzm
      rcases hz.mpr (Or.inr hzm) with rfl | h'
      · have := b1 z hzm; omega
      · exact h'

theorem mem_codePoints {c : Int} : c ∈ codePoints ↔ IsCodePoint c := by
  unfold codePoints IsCodePoint
  rw [List.mem_map]
  constructor
  · rintro ⟨k, hk, rfl⟩
    rw [List.mem_range] at hk
    simp only [Int.ofNat_eq_natCast]; omega
  · intro h
    exact ⟨c.toNat, List.mem_range.mpr (by omega), by simp only [Int.ofNat_eq_natCast]; omega⟩

theorem codePoints_strict : codePoints.Pairwise (· < ·) := by
  unfold codePoints
  rw [List.pairwise_map]
  exact List.pairwise_lt_range.imp (fun h => by simp only [Int.ofNat_eq_natCast]; omega)

theorem iter_eq_membersOf {l : List Int} (hl : WellFormed l) : iter l = membersOf (mem l) := by
  apply strict_ext (iter_strict hl.1)
  · exact codePoints_strict.sublist List.filter_sublist
  · intro c
    unfold membersOf
    rw [List.mem_filter, mem_codePoints]
    constructor
    · intro h
      have h1 := iter_ge (m := 0) (fun x hx => (hl.2.1 x hx).1) c h
      have h2 := iter_lt (fun x hx => (hl.2.1 x hx).2) c h
      exact ⟨⟨h1, by omega⟩, (mem_iter hl.1 hl.2.2 h2).mp h⟩
    · rintro ⟨⟨h1, h2⟩, h3⟩
      exact (mem_iter hl.1 hl.2.2 (by omega)).mpr h3

theorem getRanges_flatMap (l : List Int) : (getRanges l).flatMap (fun r => pyRange r.1 r.2) = iter l := by
  induction l using pairs_induction with
  | h0 => simp [getRanges, iter]
  | h1 x => simp [getRanges, iter]
  | h2 s e t ih => simp [getRanges, iter, ih]

/-! ### size -/

theorem sizeLoop_ok (p : List Int) : ∀ (t : List Int), t.Pairwise (· ≤ ·) → ∀ (k : Nat) (s : Int), p.length = 2 * k →
    sizeLoop (p ++ t) (t.length / 2) k s = .ok (s + (iter t).length) := by
  intro t
  induction t using pairs_induction generalizing p with
  | h0 => intro _ k s _; simp [sizeLoop, iter]
  | h1 x => intro _ k s _; simp [sizeLoop, iter]
  | h2 a b t ih =>
    intro hs k s hk
    obtain ⟨g1, g2⟩ := List.pairwise_cons.mp hs
    obtain ⟨g3, g4⟩ := List.pairwise_cons.mp g2
    have hab := g1 b (by simp)
    have e1 : getRangeStart (p ++ a :: b :: t) k = .ok a := by
      unfold getRangeStart
      have : ((k : Int) * 2) = ((p.length : Nat) : Int) := by omega
      rw [this, get_mid]
    have e2 : getRangeEnd (p ++ a :: b :: t) k = .ok (b - 1) := by
      unfold getRangeEnd
      have : ((k : Int) * 2 + 1) = (((p ++ [a]).length : Nat) : Int) := by simp; omega
      have e : p ++ a :: b :: t = (p ++ [a]) ++ b :: t := by simp
      rw [this, e, get_mid]; rfl
    have hlen : (a :: b :: t).length / 2 = t.length / 2 + 1 := by simp only [List.length_cons]; omega
    rw [hlen, sizeLoop, e1, e2]
    simp only [bind, Except.bind]
    have := ih (p ++ [a, b]) g4 (k + 1) (s + (b - 1 - a + 1)) (by simp; omega)
    rw [List.append_assoc] at this
    simp only [List.cons_append, List.nil_append] at this
    rw [this]
    congr 1
    simp only [iter, List.length_append, pyRange_length]
    omega

theorem size_ok {l : List Int} (hs : l.Pairwise (· ≤ ·)) : size l = .ok ((iter l).length : Int) := by
  have := sizeLoop_ok [] l hs 0 0 rfl
  simpa [size, getRangeCount] using this

/-! ### charAt, indexOf -/

theorem charAtLoop_ok {l : List Int} (hs : l.Pairwise (· ≤ ·)) : ∀ {i : Int}, 0 ≤ i → charAtLoop l i = (iter l)[i.toNat]? := by
  induction l using pairs_induction with
  | h0 => intro i _; simp [charAtLoop, iter]
  | h1 x => intro i _; simp [charAtLoop, iter]
  | h2 a b t ih =>
    intro i hi
    obtain ⟨g1, g2⟩ := List.pairwise_cons.mp hs
    obtain ⟨g3, g4⟩ := List.pairwise_cons.mp g2
    have hab := g1 b (by simp)
    simp only [charAtLoop, iter]
    split
    · rw [List.getElem?_append_left (by rw [pyRange_length]; omega), pyRange_getElem? (by omega)]
      congr 1; omega
    · rw [List.getElem?_append_right (by rw [pyRange_length]; omega), pyRange_length, ih g4 (by omega)]
      congr 1; omega

theorem indexOfLoop_some {l : List Int} (hs : l.Pairwise (· ≤ ·)) {cp : Int} : ∀ {n k : Int}, indexOfLoop cp l n = some k →
    n ≤ k ∧ (iter l)[(k - n).toNat]? = some cp := by
  induction l using pairs_induction with
  | h0 => intro n k h; simp [indexOfLoop] at h
  | h1 x => intro n k h; simp [indexOfLoop] at h
  | h2 a b t ih =>
    intro n k h
    obtain ⟨g1, g2⟩ := List.pairwise_cons.mp hs
    obtain ⟨g3, g4⟩ := List.pairwise_cons.mp g2
    have hab := g1 b (by simp)
    rw [indexOfLoop] at h
    split at h
    · simp at h
    · split at h
      · simp at h
        refine ⟨by omega, ?_⟩
        simp only [iter]
        rw [List.getElem?_append_left (by rw [pyRange_length]; omega), pyRange_getElem? (by omega)]
        congr 1; omega
      · obtain ⟨h1, h2⟩ := ih g4 h
        refine ⟨by omega, ?_⟩
        simp only [iter]
        rw [List.getElem?_append_right (by rw [pyRange_length]; omega), pyRange_length, ← h2]
        congr 1; omega

theorem indexOfLoop_none {l : List Int} (hs : l.Pairwise (· ≤ ·)) {cp : Int} : ∀ {n : Int}, indexOfLoop cp l n = none →
    cp ∉ iter l := by
  induction l using pairs_induction with
  | h0 => intro n _; simp [iter]
  | h1 x => intro n _; simp [iter]
  | h2 a b t ih =>
    intro n h
    obtain ⟨g1, g2⟩ := List.pairwise_cons.mp hs
    obtain ⟨g3, g4⟩ := List.pairwise_cons.mp g2
    have hab := g1 b (by simp)
    rw [indexOfLoop] at h
    simp only [iter, List.mem_append, mem_pyRange, not_or]
    split at h
    · refine ⟨by omega, fun hm => ?_⟩
      have := iter_ge g3 cp hm; omega
    · split at h
      · simp at h
      · exact ⟨by omega, ih g4 h⟩

theorem strict_getElem?_inj {l : List Int} (hs : l.Pairwise (· < ·)) {i j : Nat} {x : Int}
    (hi : l[i]? = some x) (hj : l[j]? = some x) : i = j := by
  rw [List.getElem?_eq_some_iff] at hi hj
  obtain ⟨hi, hxi⟩ := hi
  obtain ⟨hj, hxj⟩ := hj
  rcases Nat.lt_trichotomy i j with h | h | h
  · have := (List.pairwise_iff_getElem.mp hs) i j hi hj h; omega
  · exact h
  · have := (List.pairwise_iff_getElem.mp hs) j i hj hi h; omega

theorem indexOf_iff {l : List Int} (hl : WellFormed l) {cp i : Int} :
    indexOf l cp = some i ↔ 0 ≤ i ∧ (iter l)[i.toNat]? = some cp := by
  constructor
  · intro h
    unfold indexOf at h
    split at h
    · simp at h
    · have := indexOfLoop_some hl.1 h
      simpa using this
  · rintro ⟨h0, h⟩
    have hm : cp ∈ iter l := List.mem_of_getElem? h
    have h1 := iter_ge (m := 0) (fun x hx => (hl.2.1 x hx).1) cp hm
    have h2 := iter_lt (fun x hx => (hl.2.1 x hx).2) cp hm
    unfold indexOf
    rw [if_neg (by unfold LOW HIGH; omega)]
    cases hk : indexOfLoop cp l 0 with
    | none => exact absurd hm (indexOfLoop_none hl.1 hk)
    | some k =>
      obtain ⟨g1, g2⟩ := indexOfLoop_some hl.1 hk
      have := strict_getElem?_inj (iter_strict hl.1) g2 h
      congr 1; omega

end Verif.USet

import Verif.Lemmas.USetAdd
/-! Correctness of the single-receiver operations of `UnicodeSet`. -/
namespace Verif.USet
open Verif.Spec

theorem split_at (l : List Int) (hs : l.Pairwise (· ≤ ·)) (cp : Int) :
    ∃ p q, l = p ++ q ∧ (∀ x ∈ p, x ≤ cp) ∧ (∀ y ∈ q, cp < y) ∧
      l.countP (fun x => decide (x ≤ cp)) = p.length := by
  induction l with
  | nil => exact ⟨[], [], rfl, by simp, by simp, rfl⟩
  | cons a l ih =>
    have hp := List.pairwise_cons.mp hs
    obtain ⟨p, q, rfl, h1, h2, h3⟩ := ih hp.2
    by_cases h : a ≤ cp
    · refine ⟨a :: p, q, rfl, ?_, h2, ?_⟩
      · intro x hx; simp at hx; rcases hx with rfl | hx
        · exact h
        · exact h1 x hx
      · rw [List.countP_cons_of_pos (by simpa using h), h3]; rfl
    · have : p = [] := by
        rcases p with _ | ⟨x, p⟩
        · rfl
        · have := h1 x (by simp); have := hp.1 x (by simp); omega
      subst this
      refine ⟨[], a :: q, rfl, by simp, ?_, ?_⟩
      · intro y hy; simp at hy; rcases hy with rfl | hy
        · omega
        · exact h2 y hy
      · rw [List.countP_cons_of_neg (by simpa using h)]; simpa using h3

theorem last_append_cons {p : List Int} {y z : Int} {q : List Int}
    (h : (p ++ y :: q).getLast? = some z) : (y :: q).getLast? = some z := by
  rw [List.getLast?_append] at h
  simpa using h

theorem mem_even_le {p : List Int} {c : Int} (he : p.length % 2 = 0) (h : ∀ x ∈ p, x ≤ c) : mem p c = false := by
  rw [mem_of_all_le h]; simp [he]

theorem list_snoc (p : List Int) (h : 0 < p.length) : ∃ p' z, p = p' ++ [z] := by
  have hne : p ≠ [] := List.length_pos_iff.mp h
  exact ⟨p.dropLast, p.getLast hne, (List.dropLast_concat_getLast hne).symm⟩

theorem pin_id {cp : Int} (h : IsCodePoint cp) : pinCodePoint cp = cp := by
  unfold pinCodePoint LOW HIGH; unfold IsCodePoint at h
  rw [if_neg (by omega), if_neg (by omega)]

theorem set_mid (p : List Int) (y z : Int) (q : List Int) : (p ++ y :: q).set p.length z = p ++ z :: q := by
  rw [List.set_append_right _ _ (Nat.le_refl _)]; simp

theorem get_mid (p : List Int) (y : Int) (q : List Int) :
    pyGet (p ++ y :: q) (p.length : Int) = .ok y := by
  rw [pyGet_nat (by simp)]; simp

theorem get_mid_prev (p : List Int) (z : Int) (q : List Int) :
    pyGet ((p ++ [z]) ++ q) (((p ++ [z]).length : Nat) - 1 : Int) = .ok z := by
  have : (((p ++ [z]).length : Nat) - 1 : Int) = (p.length : Int) := by simp
  rw [this, List.append_assoc, List.singleton_append, get_mid]

theorem add_ok {l : List Int} (hl : WellFormed l) {cp : Int} (hcp : IsCodePoint cp) :
    ∃ r, add l cp = .ok r ∧ WellFormed r ∧ (∀ c, c < HIGH → mem r c = (mem l c || decide (c = cp))) ∧
      (l.Pairwise (· < ·) → r.Pairwise (· < ·)) := by
  have hcpH : cp < HIGH := by unfold IsCodePoint at hcp; unfold HIGH; omega
  have hcp0 : 0 ≤ cp := hcp.1
  obtain ⟨p, q, rfl, h1, h2, h3⟩ := split_at l hl.1 cp
  have hfind := findCodePoint_eq hl.1 hl.2.2 hcpH
  rw [h3] at hfind
  have hlast := hl.2.2
  have hqne : q ≠ [] := by
    rintro rfl
    rw [List.append_nil] at hlast
    have := List.mem_of_getLast? hlast
    have := h1 _ this
    unfold HIGH at hcpH; omega
  obtain ⟨y, q, rfl⟩ := List.exists_cons_of_ne_nil hqne
  have hql := last_append_cons hlast
  have hb := hl.2.1
  have hs := hl.1
  have hbp : ∀ x ∈ p, 0 ≤ x ∧ x ≤ cp := fun x hx => ⟨(hb x (by simp [hx])).1, h1 x hx⟩
  have hbq : ∀ x ∈ q, cp < x ∧ x ≤ HIGH := fun x hx => ⟨h2 x (by simp [hx]), (hb x (by simp [hx])).2⟩
  have hby : cp < y ∧ y ≤ HIGH := ⟨h2 y (by simp), (hb y (by simp)).2⟩
  obtain ⟨hsp, hsq, hspq⟩ := List.pairwise_append.mp hs
  obtain ⟨hyq, hsq⟩ := List.pairwise_cons.mp hsq
  unfold add
  rw [pin_id hcp, hfind]
  simp only [bind, Except.bind, pure, Except.pure, ne_eq]
  by_cases hpar : p.length % 2 = 0
  · simp only [hpar, not_true, ↓reduceIte]
    rw [get_mid]
    simp only
    have hev : ∀ c, cp ≤ c → mem p c = false := fun c hc =>
      mem_even_le hpar (fun x hx => by have := (hbp x hx).2; omega)
    have hodd : ∀ c, c < y → mem q c = false := fun c hc =>
      mem_of_all_gt (fun x hx => by have := hyq x hx; omega)
    have hlow : ∀ c, c ≤ cp → mem q c = false := fun c hc => hodd c (by omega)
    -- generic facts to conclude well-formedness
    by_cases hy : cp = y - 1
    · rw [if_pos hy, set_mid]
      -- the list after assigning list[i] = cp and possibly appending 0x110000
      obtain ⟨t, ht, htl, htb, hts, htm, htp⟩ : ∃ t, (if cp = HIGH - 1 then (p ++ cp :: q) ++ [HIGH] else p ++ cp :: q) = p ++ cp :: t ∧
          t.getLast? = some HIGH ∧ (∀ x ∈ t, cp < x ∧ x ≤ HIGH) ∧ t.Pairwise (· ≤ ·) ∧
          (∀ c, c < HIGH → mem t c = mem q c) ∧ ((y :: q).Pairwise (· < ·) → t.Pairwise (· < ·)) := by
        by_cases hh : cp = HIGH - 1
        · refine ⟨q ++ [HIGH], by simp [hh], by simp, ?_, ?_, ?_, ?_⟩
          · intro x hx
            simp at hx; rcases hx with hx | rfl
            · exact hbq x hx
            · omega
          · rw [List.pairwise_append]
            refine ⟨hsq, by simp, ?_⟩
            intro a ha b hb; simp at hb; subst hb; exact (hbq a ha).2
          · intro c hc
            rw [mem_append, mem_cons_gt hc]; simp
          · intro hst
            have : q = [] := by
              rcases q with _ | ⟨z, q⟩
              · rfl
              · have := (List.pairwise_cons.mp hst).1 z (by simp)
                have := (hbq z (by simp)).2
                omega
            subst this; simp
        · have hq : q ≠ [] := by
            rintro rfl
            simp at hql; unfold HIGH at hh; omega
          refine ⟨q, by simp [hh], ?_, hbq, hsq, fun _ _ => rfl, fun h => (List.pairwise_cons.mp h).2⟩
          obtain ⟨z, q, rfl⟩ := List.exists_cons_of_ne_nil hq
          simpa [HIGH] using hql
      rw [ht]
      have plain : WellFormed (p ++ cp :: t) ∧ (∀ c, c < HIGH → mem (p ++ cp :: t) c = (mem (p ++ y :: q) c || decide (c = cp))) := by
        refine ⟨⟨?_, ?_, ?_⟩, ?_⟩
        · rw [List.pairwise_append, List.pairwise_cons]
          refine ⟨hsp, ⟨fun x hx => by have := htb x hx; omega, hts⟩, ?_⟩
          intro a ha b hb
          have := hbp a ha
          simp at hb; rcases hb with rfl | hb
          · omega
          · have := htb b hb; omega
        · intro x hx
          simp at hx; unfold HIGH at *
          rcases hx with hx | rfl | hx
          · have := hbp x hx; omega
          · omega
          · have := htb x hx; omega
        · rw [List.getLast?_append, List.getLast?_cons]; simp [htl, HIGH]
        · intro c hc
          simp only [mem_append, mem_cons, htm c hc]
          have := hev c
          have := hlow c
          grind
      have strict : ((p ++ y :: q).Pairwise (· < ·) → (∀ x ∈ p, x < cp) → (p ++ cp :: t).Pairwise (· < ·)) := by
        intro h hlt
        obtain ⟨g1, g2, g3⟩ := List.pairwise_append.mp h
        rw [List.pairwise_append, List.pairwise_cons]
        refine ⟨g1, ⟨fun x hx => (htb x hx).1, htp g2⟩, ?_⟩
        intro a ha b hb
        have := hlt a ha
        simp at hb; rcases hb with rfl | hb
        · omega
        · have := htb b hb; omega
      by_cases hp0 : 0 < p.length
      · rw [if_pos hp0]
        obtain ⟨p', z, rfl⟩ := list_snoc p hp0
        rw [get_mid_prev]
        simp only
        by_cases hz : cp = z
        · rw [if_pos hz]
          subst hz
          have e1 : ((p' ++ [cp]) ++ cp :: t).take ((p' ++ [cp]).length - 1) = p' := by simp
          have e2 : ((p' ++ [cp]) ++ cp :: t).drop ((p' ++ [cp]).length + 1) = t := by
            rw [List.drop_append]; simp
          rw [e1, e2]
          obtain ⟨⟨w1, w2, w3⟩, wm⟩ := plain
          refine ⟨p' ++ t, rfl, ⟨?_, ?_, ?_⟩, ?_, ?_⟩
          · refine w1.sublist ?_
            simp
          · intro x hx; exact w2 x (by simp at hx ⊢; grind)
          · rw [List.getLast?_append]; simp [htl, HIGH]
          · intro c hc
            rw [← wm c hc]
            simp only [mem_append, mem_cons]
            simp
          · intro h
            obtain ⟨g1, g2, g3⟩ := List.pairwise_append.mp h
            rw [List.pairwise_append]
            refine ⟨(List.pairwise_append.mp g1).1, htp g2, ?_⟩
            intro a ha b hb
            have := hbp a (by simp [ha])
            have := htb b hb
            omega
        · rw [if_neg hz]
          refine ⟨_, rfl, plain.1, plain.2, fun h => strict h ?_⟩
          intro x hx
          have := hbp x hx
          have hzl := (hbp z (by simp)).2
          obtain ⟨g1, g2, g3⟩ := List.pairwise_append.mp h
          obtain ⟨g4, g5, g6⟩ := List.pairwise_append.mp g1
          simp at hx; rcases hx with hx | rfl
          · have := g6 x hx z (by simp); omega
          · omega
      · rw [if_neg hp0]
        refine ⟨_, rfl, plain.1, plain.2, fun h => strict h ?_⟩
        intro x hx
        have : p = [] := by rcases p with _ | ⟨_, _⟩ <;> simp_all
        simp [this] at hx
    · rw [if_neg hy]
      have ins : WellFormed (p ++ [cp, cp + 1] ++ y :: q) ∧
          (∀ c, c < HIGH → mem (p ++ [cp, cp + 1] ++ y :: q) c = (mem (p ++ y :: q) c || decide (c = cp))) := by
        refine ⟨⟨?_, ?_, ?_⟩, ?_⟩
        · rw [List.pairwise_append, List.pairwise_append]
          refine ⟨⟨hsp, by simp; omega, ?_⟩, List.pairwise_cons.mpr ⟨hyq, hsq⟩, ?_⟩
          · intro a ha b hb
            have := hbp a ha
            simp at hb; omega
          · intro a ha b hb
            have : a ≤ cp + 1 := by
              simp at ha; rcases ha with ha | rfl | rfl
              · have := hbp a ha; omega
              · omega
              · omega
            have : cp + 1 ≤ b := by
              simp at hb; rcases hb with rfl | hb
              · omega
              · have := hbq b hb; omega
            omega
        · intro x hx
          simp at hx; unfold HIGH at *
          rcases hx with hx | rfl | rfl | rfl | hx
          · have := hbp x hx; omega
          · omega
          · omega
          · omega
          · have := hbq x hx; omega
        · rw [List.getLast?_append, hql]; simp
        · intro c hc
          simp only [mem_append, mem_cons, mem_nil]
          have := hev c
          have := hlow c
          grind
      have strict : ((p ++ y :: q).Pairwise (· < ·) → (∀ x ∈ p, x < cp) → (p ++ [cp, cp + 1] ++ y :: q).Pairwise (· < ·)) := by
        intro h hlt
        obtain ⟨g1, g2, g3⟩ := List.pairwise_append.mp h
        rw [List.pairwise_append, List.pairwise_append]
        refine ⟨⟨g1, by simp; omega, ?_⟩, g2, ?_⟩
        · intro a ha b hb
          have := hlt a ha
          simp at hb; omega
        · intro a ha b hb
          have : a ≤ cp + 1 := by
            simp at ha; rcases ha with ha | rfl | rfl
            · have := hlt a ha; omega
            · omega
            · omega
          have : cp + 1 < b := by
            simp at hb; rcases hb with rfl | hb
            · omega
            · have := (List.pairwise_cons.mp g2).1 b hb; omega
          omega
      have etake : (p ++ y :: q).take p.length = p := by simp
      have edrop : (p ++ y :: q).drop p.length = y :: q := by simp
      by_cases hp0 : 0 < p.length
      · rw [if_pos hp0]
        obtain ⟨p', z, rfl⟩ := list_snoc p hp0
        rw [get_mid_prev]
        simp only
        by_cases hz : cp = z
        · rw [if_pos hz]
          subst hz
          have e1 : ((p' ++ [cp]) ++ y :: q).set ((p' ++ [cp]).length - 1) (cp + 1) = p' ++ (cp + 1) :: y :: q := by
            simp
          rw [e1]
          refine ⟨_, rfl, ⟨?_, ?_, ?_⟩, ?_, ?_⟩
          · rw [List.pairwise_append, List.pairwise_cons]
            refine ⟨(List.pairwise_append.mp hsp).1, ⟨?_, List.pairwise_cons.mpr ⟨hyq, hsq⟩⟩, ?_⟩
            · intro b hb
              simp at hb; rcases hb with rfl | hb
              · omega
              · have := hbq b hb; omega
            · intro a ha b hb
              have := hbp a (by simp [ha])
              simp at hb; rcases hb with rfl | rfl | hb
              · omega
              · omega
              · have := hbq b hb; omega
          · intro x hx
            simp at hx; unfold HIGH at *
            rcases hx with hx | rfl | rfl | hx
            · have := hbp x (by simp [hx]); omega
            · omega
            · omega
            · have := hbq x hx; omega
          · rw [List.getLast?_append, List.getLast?_cons, hql]; simp
          · intro c hc
            have := hev c
            have := hlow c
            simp only [mem_append, mem_cons, mem_nil] at *
            grind
          · intro h
            obtain ⟨g1, g2, g3⟩ := List.pairwise_append.mp h
            obtain ⟨g4, g5, g6⟩ := List.pairwise_append.mp g1
            rw [List.pairwise_append, List.pairwise_cons]
            refine ⟨g4, ⟨?_, g2⟩, ?_⟩
            · intro b hb
              simp at hb; rcases hb with rfl | hb
              · omega
              · have := (List.pairwise_cons.mp g2).1 b hb; omega
            · intro a ha b hb
              have := g6 a ha cp (by simp)
              simp at hb; rcases hb with rfl | rfl | hb
              · omega
              · omega
              · have := hbq b hb; omega
        · rw [if_neg hz, etake, edrop]
          refine ⟨_, rfl, ins.1, ins.2, fun h => strict h ?_⟩
          intro x hx
          have hzl := (hbp z (by simp)).2
          obtain ⟨g1, g2, g3⟩ := List.pairwise_append.mp h
          obtain ⟨g4, g5, g6⟩ := List.pairwise_append.mp g1
          simp at hx; rcases hx with hx | rfl
          · have := g6 x hx z (by simp); omega
          · omega
      · rw [if_neg hp0, etake, edrop]
        refine ⟨_, rfl, ins.1, ins.2, fun h => strict h ?_⟩
        intro x hx
        have : p = [] := by rcases p with _ | ⟨_, _⟩ <;> simp_all
        simp [this] at hx
  · rw [if_pos hpar]
    refine ⟨_, rfl, hl, ?_, id⟩
    intro c hc
    by_cases h : c = cp
    · subst h
      have e1 : mem (y :: q) c = false := mem_of_all_gt h2
      rw [mem_append, mem_of_all_le h1, e1]
      have : p.length % 2 = 1 := by omega
      simp [this]
    · simp [h]

/-! ## The range argument `[start, end + 1, 0x110000]` -/

theorem wf_range {s e : Int} (h0 : 0 ≤ s) (hse : s ≤ e) (he : e ≤ HIGH) : WellFormed [s, e, HIGH] := by
  refine ⟨?_, ?_, by simp [HIGH]⟩
  · simp; omega
  · intro x hx; simp at hx; unfold HIGH at *; omega

theorem mem_range {s e c : Int} (hse : s ≤ e) (hc : c < HIGH) : mem [s, e, HIGH] c = decide (s ≤ c ∧ c < e) := by
  simp only [mem_cons, mem_nil]; grind

theorem pin_lt {s e : Int} (hs : IsCodePoint s) (he : IsCodePoint e) :
    (pinCodePoint s < pinCodePoint e) ↔ s < e := by rw [pin_id hs, pin_id he]

theorem cp_high {e : Int} (he : IsCodePoint e) : 0 ≤ e ∧ e < HIGH := by
  unfold IsCodePoint at he; unfold HIGH; omega

/-! ## `addRange` -/

theorem two_last {l : List Int} (hl : WellFormed l) (hn : l.length ≠ 1) : ∃ p x, l = p ++ [x, HIGH] := by
  obtain ⟨a, xs, rfl⟩ := wf_cases hl
  obtain ⟨p1, z, h1⟩ := list_snoc (a :: xs) (by simp)
  have hz : z = HIGH := by
    have := hl.2.2
    rw [h1] at this
    simp at this; simp [HIGH, this]
  have h2 : 0 < p1.length := by
    have h3 := congrArg List.length h1
    simp only [List.length_cons, List.length_append, List.length_nil] at h3 hn
    omega
  obtain ⟨p, x, rfl⟩ := list_snoc p1 h2
  exact ⟨p, x, by rw [h1, hz]; simp⟩

theorem addRangeRet_ok {l : List Int} (hl : WellFormed l) {s e : Int} (hs : IsCodePoint s) (he : IsCodePoint e) (hse : s ≤ e) :
    ∃ r b, addRangeRet l s e = .ok (r, b) ∧ WellFormed r ∧
      (∀ c, c < HIGH → mem r c = (mem l c || decide (s ≤ c ∧ c ≤ e))) := by
  have hs' := cp_high hs
  have he' := cp_high he
  unfold addRangeRet
  simp only [pin_lt hs he]
  by_cases hlt : s < e
  · simp only [hlt, ↓reduceIte]
    have slow : ∃ r, addList l [s, e + 1, HIGH] = .ok r ∧ WellFormed r ∧
        (∀ c, c < HIGH → mem r c = (mem l c || decide (s ≤ c ∧ c ≤ e))) := by
      obtain ⟨r, h1, h2, h3⟩ := addList_ok hl (wf_range hs'.1 (by omega : s ≤ e + 1) (by omega))
      refine ⟨r, h1, h2, fun c hc => ?_⟩
      rw [h3 c hc, mem_range (by omega) hc]
      congr 1
      rw [decide_eq_decide]; omega
    obtain ⟨rs, hr1, hr2, hr3⟩ := slow
    have slow' : (do let l' ← addList l [s, e + 1, HIGH]; return (l', true) : Py (List Int × Bool)) = .ok (rs, true) := by
      rw [hr1]; rfl
    rw [slow']
    by_cases hpar : l.length % 2 = 0
    · simp only [hpar, ne_eq, not_true, ↓reduceIte]
      exact ⟨rs, true, rfl, hr2, hr3⟩
    · simp only [hpar, ne_eq, not_false_eq_true, ↓reduceIte]
      by_cases h1 : l.length = 1
      · have hlist : l = [HIGH] := by
          obtain ⟨a, xs, rfl⟩ := wf_cases hl
          have hx : xs = [] := by simpa using h1
          subst hx
          have := hl.2.2
          simp at this; simp [HIGH, this]
        subst hlist
        simp only [List.length_singleton, ↓reduceIte, pure_bind, show (-2 : Int) ≤ s by omega, show (-2 : Int) ≠ s by omega]
        refine ⟨_, _, rfl, ?_⟩
        by_cases hh : e + 1 < HIGH
        · simp only [hh, ↓reduceIte]
          refine ⟨wf_range hs'.1 (by omega) (by omega), fun c hc => ?_⟩
          show mem [s, e + 1, HIGH] c = _
          rw [mem_range (by omega) hc, mem_cons_gt hc, mem_nil, Bool.false_or, decide_eq_decide]
          omega
        · simp only [hh, ↓reduceIte]
          refine ⟨⟨by simp; omega, ?_, by simp [HIGH]⟩, fun c hc => ?_⟩
          · intro x hx; simp at hx; unfold HIGH at *; omega
          · show mem [s, HIGH] c = _
            simp only [mem_cons, mem_nil]; grind
      · obtain ⟨p, x, rfl⟩ := two_last hl h1
        have hget : pyGet (p ++ [x, HIGH]) (-2) = .ok x := by
          unfold pyGet
          simp only [List.length_append, List.length_cons, List.length_nil]
          rw [if_neg (by omega), if_pos (by omega)]
          have : (((p.length + (0 + 1 + 1) : Nat) : Int) + -2).toNat = p.length := by omega
          rw [this]
          simp
        have hsorted := List.pairwise_append.mp hl.1
        have hpx : ∀ y ∈ p, 0 ≤ y ∧ y ≤ x := fun y hy => ⟨(hl.2.1 y (by simp [hy])).1, hsorted.2.2 y hy x (by simp)⟩
        have hx0 : 0 ≤ x ∧ x ≤ HIGH := hl.2.1 x (by simp)
        have hodd : ∀ c, x ≤ c → mem p c = true := fun c hc => by
          rw [mem_of_all_le (fun y hy => by have := (hpx y hy).2; omega)]
          have : p.length % 2 = 1 := by
            have hh := hpar
            simp at hh; omega
          simp [this]
        rw [hget]
        simp only [h1, ↓reduceIte, bind, Except.bind, pure, Except.pure]
        by_cases hle : x ≤ s
        · simp only [hle, ↓reduceIte]
          by_cases heq : x = s
          · subst heq
            have hlen : ¬ (p ++ [x, HIGH]).length < 2 := by simp
            simp only [hlen, ↓reduceIte]
            have e1 : (p ++ [x, HIGH]).set ((p ++ [x, HIGH]).length - 2) (e + 1) = p ++ [e + 1, HIGH] := by
              simp
            rw [e1]
            refine ⟨_, _, rfl, ?_⟩
            have hp := hsorted.1
            have hmem : ∀ c, c < HIGH → (mem p c ^^ decide (e + 1 ≤ c)) = (mem (p ++ [x, HIGH]) c || decide (x ≤ c ∧ c ≤ e)) := by
              intro c hc
              have := hodd c
              simp only [mem_append, mem_cons, mem_nil]; grind
            by_cases hh : e + 1 = HIGH
            · simp only [hh, ↓reduceIte]
              have e2 : (p ++ [HIGH, HIGH]).dropLast = p ++ [HIGH] := by
                rw [show p ++ [HIGH, HIGH] = (p ++ [HIGH]) ++ [HIGH] by simp, List.dropLast_concat]
              rw [e2]
              refine ⟨⟨?_, ?_, by simp [HIGH]⟩, fun c hc => ?_⟩
              · rw [List.pairwise_append]
                refine ⟨hp, by simp, fun a ha b hb => ?_⟩
                have := hpx a ha
                simp at hb; omega
              · intro y hy
                simp at hy; rcases hy with hy | rfl
                · exact hl.2.1 y (by simp [hy])
                · simp [HIGH]
              · rw [← hmem c hc, mem_append, mem_cons_gt hc, hh]
                simp [Int.not_le.mpr hc]
            · simp only [hh, ↓reduceIte]
              refine ⟨⟨?_, ?_, by simp [HIGH]⟩, fun c hc => ?_⟩
              · rw [List.pairwise_append]
                refine ⟨hp, by simp; omega, fun a ha b hb => ?_⟩
                have := hpx a ha
                simp at hb; omega
              · intro y hy
                simp at hy; rcases hy with hy | rfl | rfl
                · exact hl.2.1 y (by simp [hy])
                · unfold HIGH at *; omega
                · simp [HIGH]
              · rw [← hmem c hc, mem_append, mem_cons, mem_cons_gt hc]
                simp
          · simp only [heq, ↓reduceIte]
            have e1 : (p ++ [x, HIGH]).set ((p ++ [x, HIGH]).length - 1) s = p ++ [x, s] := by
              simp
            rw [e1]
            refine ⟨_, _, rfl, ?_⟩
            have hp := hsorted.1
            by_cases hh : e + 1 < HIGH
            · simp only [hh, ↓reduceIte]
              refine ⟨⟨?_, ?_, by simp [HIGH]⟩, fun c hc => ?_⟩
              · rw [List.append_assoc, List.pairwise_append]
                refine ⟨hp, by simp; omega, fun a ha b hb => ?_⟩
                have := hpx a ha
                simp at hb; omega
              · intro y hy
                simp at hy; unfold HIGH at *
                rcases hy with hy | hy
                · exact hl.2.1 y (by simp [hy])
                · omega
              · have := hodd c
                simp only [mem_append, mem_cons, mem_nil]; grind
            · simp only [hh, ↓reduceIte]
              refine ⟨⟨?_, ?_, by simp [HIGH]⟩, fun c hc => ?_⟩
              · rw [List.append_assoc, List.pairwise_append]
                refine ⟨hp, by simp; omega, fun a ha b hb => ?_⟩
                have := hpx a ha
                simp at hb; omega
              · intro y hy
                simp at hy; unfold HIGH at *
                rcases hy with hy | hy
                · exact hl.2.1 y (by simp [hy])
                · omega
              · have := hodd c
                simp only [mem_append, mem_cons, mem_nil]; grind
        · simp only [hle, ↓reduceIte]
          exact ⟨rs, true, rfl, hr2, hr3⟩
  · have : s = e := by omega
    subst this
    simp only [Int.lt_irrefl, ↓reduceIte]
    obtain ⟨r, h1, h2, h3, _⟩ := add_ok hl hs
    rw [h1]
    refine ⟨r, true, rfl, h2, fun c hc => ?_⟩
    rw [h3 c hc]
    congr 1
    rw [decide_eq_decide]; omega

theorem addRange_ok {l : List Int} (hl : WellFormed l) {s e : Int} (hs : IsCodePoint s) (he : IsCodePoint e) (hse : s ≤ e) :
    ∃ r, addRange l s e = .ok r ∧ WellFormed r ∧
      (∀ c, c < HIGH → mem r c = (mem l c || decide (s ≤ c ∧ c ≤ e))) := by
  obtain ⟨r, b, h1, h2, h3⟩ := addRangeRet_ok hl hs he hse
  refine ⟨r, ?_, h2, h3⟩
  unfold addRange; rw [h1]; rfl

theorem complement_ok {l : List Int} (hl : WellFormed l) :
    ∃ r, complement l = .ok r ∧ WellFormed r ∧ (∀ c, 0 ≤ c → mem r c = !mem l c) ∧
      (l.Pairwise (· < ·) → r.Pairwise (· < ·)) := by
  obtain ⟨a, xs, rfl⟩ := wf_cases hl
  unfold complement
  rw [pyGet_zero]
  simp only [bind, Except.bind, pure, Except.pure, List.drop_succ_cons, List.drop_zero, LOW]
  have ha := wf_head hl
  by_cases h : a = 0
  · subst h
    obtain ⟨x, xs', rfl, hx, _⟩ := wf_pop hl (by simp [HIGH])
    refine ⟨_, rfl, hx, ?_, fun h => (List.pairwise_cons.mp h).2⟩
    intro c hc
    rw [mem_cons_le hc]; simp
  · simp only [h, ↓reduceIte]
    refine ⟨_, rfl, ⟨?_, ?_, ?_⟩, ?_, ?_⟩
    · rw [List.pairwise_cons]
      exact ⟨fun x hx => (hl.2.1 x hx).1, hl.1⟩
    · intro x hx
      rw [List.mem_cons] at hx; rcases hx with rfl | hx
      · omega
      · exact hl.2.1 x hx
    · rw [List.getLast?_cons, hl.2.2]; rfl
    · intro c hc
      rw [mem_cons_le hc]
    · intro hst
      rw [List.pairwise_cons]
      refine ⟨fun x hx => ?_, hst⟩
      simp at hx; rcases hx with rfl | hx
      · omega
      · have := (List.pairwise_cons.mp hst).1 x hx; omega

end Verif.USet

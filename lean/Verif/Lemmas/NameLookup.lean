import Verif.Spec.CharNames
/-! # Group lookup and name iteration -/
namespace Verif.CharNames
open Verif.CharNames.Spec

section lookup
variable {groups : List Group}

theorem msb_lt (hs : groups.Pairwise fun a b => a.msb < b.msb) {i j : Nat} {a b : Group} (ha : groups[i]? = some a)
    (hb : groups[j]? = some b) (hij : i < j) : a.msb < b.msb := by
  obtain ⟨h1, rfl⟩ := List.getElem?_eq_some_iff.mp ha
  obtain ⟨h2, rfl⟩ := List.getElem?_eq_some_iff.mp hb
  exact List.pairwise_iff_getElem.mp hs i j h1 h2 hij

theorem getGroupLoop_spec (hs : groups.Pairwise fun a b => a.msb < b.msb) (m : Nat) :
    ∀ (fuel start limit : Nat), start < limit → limit ≤ groups.length → limit - start < fuel →
    (∀ i g, groups[i]? = some g → limit ≤ i → m < g.msb) → (start = 0 ∨ ∀ g, groups[start]? = some g → g.msb ≤ m) →
    ∃ k, getGroupLoop groups m fuel start limit = .ok k ∧ k < groups.length ∧
      (∀ i g, groups[i]? = some g → k < i → m < g.msb) ∧ (k = 0 ∨ ∀ g, groups[k]? = some g → g.msb ≤ m) := by
  intro fuel
  induction fuel with
  | zero => intro start limit _ _ h; omega
  | succ fuel ih =>
    intro start limit h1 h2 h3 hhi hlo
    unfold getGroupLoop
    by_cases hc : start + 1 < limit
    · rw [if_pos hc]
      have hm : (start + limit) / 2 < groups.length := by omega
      simp only [List.getElem?_eq_getElem hm]
      by_cases hlt : m < (groups[(start + limit) / 2]).msb
      · rw [if_pos hlt]
        refine ih start ((start + limit) / 2) (by omega) (by omega) (by omega) (fun i g hg hi => ?_) hlo
        by_cases e : i = (start + limit) / 2
        · subst e
          rw [List.getElem?_eq_getElem hm] at hg
          injection hg with hg
          rw [← hg]; exact hlt
        · exact Nat.lt_trans hlt (msb_lt hs (List.getElem?_eq_getElem hm) hg (by omega))
      · rw [if_neg hlt]
        refine ih ((start + limit) / 2) limit (by omega) h2 (by omega) hhi (.inr fun g hg => ?_)
        rw [List.getElem?_eq_getElem hm] at hg
        injection hg with hg
        rw [← hg]; omega
    · rw [if_neg hc]
      exact ⟨start, rfl, by omega, fun i g hg hi => hhi i g hg (by omega), hlo⟩

theorem has_iff {g : Group} {code : Nat} : Group.Has g code ↔ g.msb = code / 32 := by
  unfold Group.Has
  omega

/-- `getGroup` finds the group of a code. -/
theorem getGroup_spec (hne : groups ≠ []) (hs : groups.Pairwise fun a b => a.msb < b.msb) (code : Nat) :
    ∃ r, getGroup groups code = .ok r ∧ ∀ g, r = some g ↔ g ∈ groups ∧ Group.Has g code := by
  have hlen : 0 < groups.length := List.length_pos_iff.mpr hne
  obtain ⟨k, hk, hkl, hhi, hlo⟩ := getGroupLoop_spec hs (code / 2 ^ GROUP_SHIFT) (groups.length + 1) 0 groups.length hlen
    (Nat.le_refl _) (by omega)
    (fun i g hg hi => by have := (List.getElem?_eq_some_iff.mp hg).1; omega) (.inl rfl)
  have hk' := List.getElem?_eq_getElem hkl
  refine ⟨if groups[k].msb = code / 2 ^ GROUP_SHIFT then some groups[k] else none, ?_, fun g => ?_⟩
  · unfold getGroup
    simp only [hk, bind, Except.bind, hk']
  · rw [has_iff]
    have e32 : code / 2 ^ GROUP_SHIFT = code / 32 := rfl
    rw [e32] at hhi hlo ⊢
    constructor
    · intro h
      by_cases hc : groups[k].msb = code / 32
      · rw [if_pos hc] at h
        injection h with h
        exact ⟨h ▸ List.getElem_mem hkl, h ▸ hc⟩
      · rw [if_neg hc] at h; cases h
    · rintro ⟨hmem, hmsb⟩
      obtain ⟨i, hi⟩ := List.getElem?_of_mem hmem
      have : i = k := by
        rcases Nat.lt_trichotomy i k with h | h | h
        · rcases hlo with h0 | h0
          · omega
          · have h1 := msb_lt hs hi hk' h
            have h2 := h0 _ hk'
            omega
        · exact h
        · have := hhi i g hi h
          omega
      subst this
      rw [hk'] at hi
      injection hi with hi
      rw [if_pos (by rw [hi]; exact hmsb), hi]

theorem getGroup_empty (code : Nat) : getGroup [] code = .error .indexError := by
  unfold getGroup getGroupLoop
  simp [bind, Except.bind]

end lookup

section iteration
variable {N : Names} {nc : Nat}

theorem stop_eq (g : Group) : g.stop = g.msb * 32 + 32 := rfl
theorem start_eq (g : Group) : g.start = g.msb * 32 := rfl

/-- The items of a generator over codes that all have a name. -/
theorem namesOver_ok {f : Nat → Py Str} : ∀ {cs : List Nat}, (∀ c ∈ cs, ∃ n, f c = .ok n) →
    (namesOver f cs).err = none ∧ (∀ c n, (c, n) ∈ (namesOver f cs).items ↔ c ∈ cs ∧ f c = .ok n ∧ n ≠ []) ∧
    (cs.Pairwise (· < ·) → (namesOver f cs).items.Pairwise fun a b => a.1 < b.1) := by
  intro cs
  induction cs with
  | nil => intro _; simp [namesOver]
  | cons c cs ih =>
    intro h
    obtain ⟨n, hn⟩ := h c (by simp)
    obtain ⟨e, m, s⟩ := ih (fun x hx => h x (by simp [hx]))
    have hu : namesOver f (c :: cs) = ⟨if n ≠ [] then (c, n) :: (namesOver f cs).items else (namesOver f cs).items,
        (namesOver f cs).err⟩ := by
      conv => lhs; unfold namesOver
      rw [hn]
    rw [hu]
    refine ⟨e, fun c' n' => ?_, fun hp => ?_⟩
    · by_cases hne : n = []
      · simp only [hne, ne_eq, not_true_eq_false, if_false, m, List.mem_cons]
        constructor
        · rintro ⟨h1, h2, h3⟩; exact ⟨.inr h1, h2, h3⟩
        · rintro ⟨h1 | h1, h2, h3⟩
          · subst h1; rw [hn] at h2; injection h2 with h2; exact absurd (h2.symm.trans hne) h3
          · exact ⟨h1, h2, h3⟩
      · simp only [ne_eq, hne, not_false_eq_true, if_true, List.mem_cons, m, Prod.mk.injEq]
        constructor
        · rintro (⟨rfl, rfl⟩ | ⟨h1, h2, h3⟩)
          · exact ⟨.inl rfl, hn, hne⟩
          · exact ⟨.inr h1, h2, h3⟩
        · rintro ⟨h1 | h1, h2, h3⟩
          · subst h1; rw [hn] at h2; injection h2 with h2; exact .inl ⟨rfl, h2.symm⟩
          · exact .inr ⟨h1, h2, h3⟩
    · rw [List.pairwise_cons] at hp
      by_cases hne : n = []
      · simp only [hne, ne_eq, not_true_eq_false, if_false]; exact s hp.2
      · simp only [ne_eq, hne, not_false_eq_true, if_true, List.pairwise_cons]
        refine ⟨fun p hp' => ?_, s hp.2⟩
        exact hp.1 p.1 ((m p.1 p.2).mp hp').1

theorem pairwise_range' (a n : Nat) : (List.range' a n).Pairwise (· < ·) := List.pairwise_lt_range' (s := a) (n := n)

theorem range_unique (h : N.ranges.Pairwise fun a b => a.stop ≤ b.start)
    {i j : Nat} {a b : AlgorithmicRange} (ha : N.ranges[i]? = some a) (hb : N.ranges[j]? = some b) {c : Nat}
    (hac : Range.Has a c) (hbc : Range.Has b c) : i = j := by
  have lt : ∀ {i j : Nat} {a b : AlgorithmicRange}, N.ranges[i]? = some a → N.ranges[j]? = some b → i < j → a.stop ≤ b.start := by
    intro i j a b ha hb hij
    obtain ⟨h1, rfl⟩ := List.getElem?_eq_some_iff.mp ha
    obtain ⟨h2, rfl⟩ := List.getElem?_eq_some_iff.mp hb
    exact List.pairwise_iff_getElem.mp h i j h1 h2 hij
  unfold Range.Has at hac hbc
  rcases Nat.lt_trichotomy i j with hij | hij | hij
  · have := lt ha hb hij; omega
  · exact hij
  · have := lt hb ha hij; omega

theorem stop_le_start (h : N.ranges.Pairwise fun a b => a.stop ≤ b.start) {i j : Nat} {a b : AlgorithmicRange}
    (ha : N.ranges[i]? = some a) (hb : N.ranges[j]? = some b) (hij : i < j) : a.stop ≤ b.start := by
  obtain ⟨h1, rfl⟩ := List.getElem?_eq_some_iff.mp ha
  obtain ⟨h2, rfl⟩ := List.getElem?_eq_some_iff.mp hb
  exact List.pairwise_iff_getElem.mp h i j h1 h2 hij

theorem charInRange_iff {r : AlgorithmicRange} {c : Nat} : r.charInRange c = true ↔ Range.Has r c := by
  unfold AlgorithmicRange.charInRange Range.Has; simp

/-- The name of a code in a range. -/
theorem name_in_range (W : WellFormed N nc) {i : Nat} {r : AlgorithmicRange} (hr : N.ranges[i]? = some r) {c : Nat}
    (hc : Range.Has r c) : N.getCharName c nc = r.getName c nc := by
  unfold Names.getCharName
  have : N.ranges.find? (·.charInRange c) = some r := by
    cases hf : N.ranges.find? (·.charInRange c) with
    | none =>
      have := List.find?_eq_none.mp hf r (List.mem_of_getElem? hr)
      rw [charInRange_iff] at this
      exact absurd hc this
    | some r' =>
      have h1 := List.find?_some hf
      have h2 := List.mem_of_find?_eq_some hf
      rw [charInRange_iff] at h1
      obtain ⟨j, hj⟩ := List.getElem?_of_mem h2
      have e := range_unique W.ranges_sorted hr hj hc h1
      subst e
      rw [hr] at hj
      exact hj.symm
  rw [this]

theorem and_mask31 (c : Nat) : c &&& GROUP_MASK = c % 32 := by
  have : GROUP_MASK = 2 ^ 5 - 1 := rfl
  rw [this, Nat.and_two_pow_sub_one_eq_mod]

/-- The name of a code in a group and in no range. -/
theorem name_in_group (W : WellFormed N nc) (hn : nc ≠ 2) {g : Group} (hg : g ∈ N.groups) {c : Nat} (hc : Group.Has g c)
    (hr : ∀ r ∈ N.ranges, ¬ Range.Has r c) : N.getCharName c nc = g.expandName N.tokens (c % 32) nc := by
  unfold Names.getCharName
  have : N.ranges.find? (·.charInRange c) = none := by
    apply List.find?_eq_none.mpr
    intro r hr'
    rw [charInRange_iff]
    exact hr r hr'
  rw [this]
  simp only [show ¬ nc = U_EXTENDED_CHAR_NAME from hn, if_false]
  unfold Names.groupName
  obtain ⟨r, h1, h2⟩ := getGroup_spec W.groups_ne W.groups_sorted c
  rw [(h2 g).mpr ⟨hg, hc⟩] at h1
  simp only [h1, bind, Except.bind, and_mask31]

/-- A code in no group and no range has no name. -/
theorem name_nowhere (W : WellFormed N nc) (hn : nc ≠ 2) {c : Nat} (hg : ∀ g ∈ N.groups, ¬ Group.Has g c)
    (hr : ∀ r ∈ N.ranges, ¬ Range.Has r c) : N.getCharName c nc = .ok [] := by
  unfold Names.getCharName
  have : N.ranges.find? (·.charInRange c) = none := by
    apply List.find?_eq_none.mpr
    intro r hr'
    rw [charInRange_iff]
    exact hr r hr'
  rw [this]
  simp only [show ¬ nc = U_EXTENDED_CHAR_NAME from hn, if_false]
  unfold Names.groupName
  obtain ⟨r, h1, h2⟩ := getGroup_spec W.groups_ne W.groups_sorted c
  have : r = none := by
    cases r with
    | none => rfl
    | some g => have := (h2 g).mp rfl; exact absurd this.2 (hg g this.1)
  subst this
  simp only [h1, bind, Except.bind]

/-- What is still to be delivered at a point of the iteration: the codes of the ranges from `a` on, and the codes outside
ranges of the groups that end after `char`. -/
def Remaining (N : Names) (char a c : Nat) : Prop :=
  (∃ i r, a ≤ i ∧ N.ranges[i]? = some r ∧ Range.Has r c) ∨
  ((∀ r ∈ N.ranges, ¬ Range.Has r c) ∧ ∃ g ∈ N.groups, Group.Has g c ∧ char < g.msb * 32 + 32)

/-- The state of the iteration between rounds. -/
structure IterInv (N : Names) (char a : Nat) : Prop where
  next : ∀ r, N.ranges[a]? = some r → char < r.start ∨ Range.Has r char ∧ ∀ g ∈ N.groups, ¬ Group.Has g char
  align : char % 32 = 0 ∨ ∃ k p, a = k + 1 ∧ N.ranges[k]? = some p ∧ char % 32 = p.stop % 32 ∧ p.stop ≤ char ∧
    ∀ g ∈ N.groups, p.stop < g.msb * 32 + 32 → char < g.msb * 32 + 32

theorem no_group_at_start (W : WellFormed N nc) {r : AlgorithmicRange} (hr : r ∈ N.ranges) :
    ∀ g ∈ N.groups, ¬ Group.Has g r.start := by
  intro g hg hh
  have := W.shared g hg r hr ⟨r.start, hh, Nat.le_refl _, W.ranges_valid r hr⟩
  unfold Group.Has at hh
  omega

theorem next_at (W : WellFormed N nc) {r : AlgorithmicRange} (hr : r ∈ N.ranges) {char : Nat} (h : char ≤ r.start) :
    char < r.start ∨ Range.Has r char ∧ ∀ g ∈ N.groups, ¬ Group.Has g char := by
  by_cases h' : char < r.start
  · exact .inl h'
  · have e : char = r.start := by omega
    subst e
    exact .inr ⟨⟨Nat.le_refl _, W.ranges_valid r hr⟩, no_group_at_start W hr⟩

/-- The limit is after all groups and ranges. -/
theorem limit_ge (W : WellFormed N nc) {g : Group} {r : AlgorithmicRange} (hg : N.groups.getLast? = some g)
    (hr : N.ranges.getLast? = some r) :
    (∀ g' ∈ N.groups, g'.stop ≤ max g.stop r.stop) ∧ (∀ r' ∈ N.ranges, r'.stop ≤ max g.stop r.stop) := by
  constructor
  · intro g' hg'
    obtain ⟨i, hi⟩ := List.getElem?_of_mem hg'
    rw [List.getLast?_eq_getElem?] at hg
    have hlt := (List.getElem?_eq_some_iff.mp hi).1
    by_cases e : i = N.groups.length - 1
    · subst e; rw [hi] at hg; injection hg with hg; subst hg; exact Nat.le_max_left _ _
    · have := msb_lt W.groups_sorted hi hg (by omega)
      rw [stop_eq, stop_eq]
      omega
  · intro r' hr'
    obtain ⟨i, hi⟩ := List.getElem?_of_mem hr'
    rw [List.getLast?_eq_getElem?] at hr
    have hlt := (List.getElem?_eq_some_iff.mp hi).1
    by_cases e : i = N.ranges.length - 1
    · subst e; rw [hi] at hr; injection hr with hr; subst hr; exact Nat.le_max_right _ _
    · have := stop_le_start W.ranges_sorted hi hr (by omega)
      have := W.ranges_valid r (List.mem_of_getElem? hr)
      omega

theorem append_none {α : Type} {g h : Gen α} (hg : g.err = none) : g.append h = ⟨g.items ++ h.items, h.err⟩ := by
  unfold Gen.append; rw [hg]

/-- Two generators after each other, the first with all that comes before `m`. -/
theorem append_spec {g h : Gen (Nat × Str)} {A B : Nat → Str → Prop} {m : Nat} (hg : g.err = none) (hh : h.err = none)
    (hgs : g.items.Pairwise fun x y => x.1 < y.1) (hhs : h.items.Pairwise fun x y => x.1 < y.1)
    (hA : ∀ c n, (c, n) ∈ g.items ↔ A c n) (hB : ∀ c n, (c, n) ∈ h.items ↔ B c n)
    (hlt : ∀ c n, A c n → c < m) (hge : ∀ c n, B c n → m ≤ c) :
    (g.append h).err = none ∧ (g.append h).items.Pairwise (fun x y => x.1 < y.1) ∧
      ∀ c n, (c, n) ∈ (g.append h).items ↔ A c n ∨ B c n := by
  rw [append_none hg]
  refine ⟨hh, ?_, fun c n => ?_⟩
  · refine List.pairwise_append.mpr ⟨hgs, hhs, fun x hx y hy => ?_⟩
    have h1 := hlt x.1 x.2 ((hA _ _).mp hx)
    have h2 := hge y.1 y.2 ((hB _ _).mp hy)
    omega
  · simp only [List.mem_append, hA, hB]

theorem has_ge_start {W : WellFormed N nc} {i a : Nat} {r r' : AlgorithmicRange} (hr : N.ranges[a]? = some r)
    (hi : a ≤ i) (hr' : N.ranges[i]? = some r') {c : Nat} (hc : Range.Has r' c) : r.start ≤ c := by
  unfold Range.Has at hc
  by_cases e : a = i
  · subst e; rw [hr] at hr'; injection hr' with hr'; subst hr'; omega
  · have := stop_le_start W.ranges_sorted hr hr' (by omega)
    have := W.ranges_valid r (List.mem_of_getElem? hr)
    omega

/-- The iteration from any point on. -/
theorem iterLoop_spec (W : WellFormed N nc) (hn : nc ≠ 2) {limit : Nat}
    (hgl : ∀ g ∈ N.groups, g.stop ≤ limit) (hrl : ∀ r ∈ N.ranges, r.stop ≤ limit) :
    ∀ (fuel char a : Nat), limit - char < fuel → IterInv N char a →
    (iterLoop N nc limit fuel char a).err = none ∧
    (iterLoop N nc limit fuel char a).items.Pairwise (fun x y => x.1 < y.1) ∧
    ∀ c n, (c, n) ∈ (iterLoop N nc limit fuel char a).items ↔
      Remaining N char a c ∧ N.getCharName c nc = .ok n ∧ n ≠ [] := by
  intro fuel
  induction fuel with
  | zero => intro char a hf; omega
  | succ fuel ih =>
    intro char a hf inv
    unfold iterLoop
    by_cases hlim : char < limit
    · rw [if_pos hlim]
      obtain ⟨gr, hgr, hspec⟩ := getGroup_spec W.groups_ne W.groups_sorted char
      rw [hgr]
      simp only
      have hfil : gr.filter (fun g => decide (g.start ≤ char ∧ char < g.stop)) = gr := by
        cases gr with
        | none => rfl
        | some g =>
          have := ((hspec g).mp rfl).2
          unfold Group.Has at this
          simp only [Option.filter, start_eq, stop_eq, this, and_self, decide_true, if_true]
      rw [hfil]
      cases hgc : gr with
      | some g =>
        obtain ⟨hgm, hgh⟩ := (hspec g).mp hgc
        simp only
        have hgh' := hgh
        unfold Group.Has at hgh'
        have hst := stop_eq g
        -- the next range begins after the group
        have hnext : ∀ r, N.ranges[a]? = some r → g.stop ≤ r.start := by
          intro r hr
          rcases inv.next r hr with h | ⟨_, h⟩
          · apply Nat.le_of_not_lt
            intro hlt
            have hv := W.ranges_valid r (List.mem_of_getElem? hr)
            have := W.shared g hgm r (List.mem_of_getElem? hr) ⟨r.start, ⟨by omega, by omega⟩, Nat.le_refl _, hv⟩
            omega
          · exact absurd hgh (h g hgm)
        have inv' : IterInv N g.stop a := ⟨fun r hr => next_at W (List.mem_of_getElem? hr) (hnext r hr), .inl (by omega)⟩
        obtain ⟨e1, e2, e3⟩ := ih g.stop a (by omega) inv'
        obtain ⟨n1, n2, n3⟩ := namesOver_ok (f := fun code => g.expandName N.tokens (code &&& GROUP_MASK) nc)
          (cs := List.range' g.start LINES_PER_GROUP) (fun c _ => by
            simp only [and_mask31]
            exact W.group_names g hgm (c % 32) (Nat.mod_lt _ (by omega)))
        have hmem : ∀ c, c ∈ List.range' g.start LINES_PER_GROUP ↔ Group.Has g c := by
          intro c
          rw [List.mem_range'_1]
          exact Iff.rfl
        obtain ⟨r1, r2, r3⟩ := append_spec (m := g.stop) n1 e1 (n3 (pairwise_range' _ _)) e2 n2 e3
          (fun c n h => by have := (hmem c).mp h.1; unfold Group.Has at this; omega)
          (fun c n h => by
            rcases h.1 with ⟨i, r, hi, hr, hc⟩ | ⟨_, g', hg', hc, hlt⟩
            · obtain ⟨r0, hr0⟩ : ∃ r0, N.ranges[a]? = some r0 :=
                ⟨_, List.getElem?_eq_getElem (by have := (List.getElem?_eq_some_iff.mp hr).1; omega)⟩
              exact Nat.le_trans (hnext r0 hr0) (has_ge_start (W := W) hr0 hi hr hc)
            · unfold Group.Has at hc; omega)
        refine ⟨r1, r2, fun c n => ?_⟩
        rw [show (g.names N.tokens nc) = namesOver (fun code => g.expandName N.tokens (code &&& GROUP_MASK) nc)
          (List.range' g.start LINES_PER_GROUP) from rfl, r3 c n, hmem]
        simp only [and_mask31]
        constructor
        · rintro (⟨hc, hname, hne⟩ | ⟨hrem, hname, hne⟩)
          · have hnr : ∀ r ∈ N.ranges, ¬ Range.Has r c := by
              intro r hr hrc
              have := (W.shared g hgm r hr ⟨c, hc, hrc⟩).2.2 c hc hrc
              rw [this] at hname
              injection hname with hname
              exact hne hname.symm
            exact ⟨.inr ⟨hnr, g, hgm, hc, by omega⟩, by rw [name_in_group W hn hgm hc hnr, hname], hne⟩
          · refine ⟨?_, hname, hne⟩
            rcases hrem with h | ⟨h1, g', hg', hc, hlt⟩
            · exact .inl h
            · exact .inr ⟨h1, g', hg', hc, by omega⟩
        · rintro ⟨hrem, hname, hne⟩
          rcases hrem with h | ⟨h1, g', hg', hc, hlt⟩
          · exact .inr ⟨.inl h, hname, hne⟩
          · by_cases hgg : g.stop < g'.msb * 32 + 32
            · exact .inr ⟨.inr ⟨h1, g', hg', hc, hgg⟩, hname, hne⟩
            · have hm : g'.msb = g.msb := by omega
              have hc' : Group.Has g c := by unfold Group.Has at hc ⊢; omega
              refine .inl ⟨hc', ?_, hne⟩
              rw [← name_in_group W hn hgm hc' h1, hname]
      | none =>
        have hnog : ∀ g ∈ N.groups, ¬ Group.Has g char := by
          intro g hg hh
          have := (hspec g).mpr ⟨hg, hh⟩
          rw [hgc] at this; cases this
        -- no group ends in the 32 codes after `char`
        have hgap : ∀ g ∈ N.groups, char < g.msb * 32 + 32 → char + 32 < g.msb * 32 + 32 := by
          intro g hg h
          have := hnog g hg
          unfold Group.Has at this
          omega
        simp only
        cases hf' : N.ranges[a]?.filter (·.charInRange char) with
        | some r =>
          simp only
          obtain ⟨hr, hrc⟩ := Option.filter_eq_some_iff.mp hf'
          rw [charInRange_iff] at hrc
          have hrm := List.mem_of_getElem? hr
          have hrc' := hrc
          unfold Range.Has at hrc'
          have inv' : IterInv N r.stop (a + 1) :=
            ⟨fun r' hr' => next_at W (List.mem_of_getElem? hr') (stop_le_start W.ranges_sorted hr hr' (by omega)),
              .inr ⟨a, r, rfl, hr, rfl, Nat.le_refl _, fun g _ h => h⟩⟩
          obtain ⟨e1, e2, e3⟩ := ih r.stop (a + 1) (by omega) inv'
          have hmem : ∀ c, c ∈ List.range' r.start (r.stop - r.start) ↔ Range.Has r c := by
            intro c
            rw [List.mem_range'_1]
            unfold Range.Has
            omega
          obtain ⟨n1, n2, n3⟩ := namesOver_ok (f := fun code => r.getName code nc)
            (cs := List.range' r.start (r.stop - r.start)) (fun c hc => W.range_names r hrm c ((hmem c).mp hc))
          obtain ⟨r1, r2, r3⟩ := append_spec (m := r.stop) n1 e1 (n3 (pairwise_range' _ _)) e2 n2 e3
            (fun c n h => by have := (hmem c).mp h.1; unfold Range.Has at this; omega)
            (fun c n h => by
              rcases h.1 with ⟨i, r', hi, hr', hc⟩ | ⟨hno, g', hg', hc, hlt⟩
              · have := stop_le_start W.ranges_sorted hr hr' (by omega)
                unfold Range.Has at hc; omega
              · apply Nat.le_of_not_lt
                intro hcl
                have hnr := hno r hrm
                unfold Range.Has at hnr
                have hc' := hc
                unfold Group.Has at hc'
                have := W.shared g' hg' r hrm ⟨r.stop - 1, ⟨by omega, by omega⟩, by omega, by omega⟩
                omega)
          refine ⟨r1, r2, fun c n => ?_⟩
          rw [show r.names nc = namesOver (fun code => r.getName code nc) (List.range' r.start (r.stop - r.start)) from rfl,
            r3 c n, hmem]
          constructor
          · rintro (⟨hc, hname, hne⟩ | ⟨hrem, hname, hne⟩)
            · exact ⟨.inl ⟨a, r, Nat.le_refl _, hr, hc⟩, by rw [name_in_range W hr hc, hname], hne⟩
            · refine ⟨?_, hname, hne⟩
              rcases hrem with ⟨i, r', hi, h⟩ | ⟨h1, g', hg', hc, hlt⟩
              · exact .inl ⟨i, r', by omega, h⟩
              · exact .inr ⟨h1, g', hg', hc, by omega⟩
          · rintro ⟨hrem, hname, hne⟩
            rcases hrem with ⟨i, r', hi, hr', hc⟩ | ⟨h1, g', hg', hc, hlt⟩
            · by_cases e : i = a
              · subst e
                rw [hr] at hr'; injection hr' with hr'; subst hr'
                exact .inl ⟨hc, by rw [← name_in_range W hr hc, hname], hne⟩
              · exact .inr ⟨.inl ⟨i, r', by omega, hr', hc⟩, hname, hne⟩
            · refine .inr ⟨.inr ⟨h1, g', hg', hc, ?_⟩, hname, hne⟩
              apply Nat.lt_of_not_le
              intro hle
              have := W.shared g' hg' r hrm ⟨g'.msb * 32 + 31, ⟨by omega, by omega⟩, by omega, by omega⟩
              omega
        | none =>
          simp only
          have hbefore : ∀ r, N.ranges[a]? = some r → char < r.start := by
            intro r hr
            rcases inv.next r hr with h | ⟨h, _⟩
            · exact h
            · rw [hr] at hf'
              simp only [Option.filter, charInRange_iff.mpr h, if_true] at hf'
              cases hf'
          have inv' : IterInv N (char + LINES_PER_GROUP) a := by
            have e32 : char + LINES_PER_GROUP = char + 32 := rfl
            rw [e32]
            constructor
            · intro r hr
              have hb := hbefore r hr
              have hrm := List.mem_of_getElem? hr
              have hv := W.ranges_valid r hrm
              by_cases hle : char + 32 ≤ r.start
              · exact next_at W hrm hle
              · right
                rcases W.reach a r hr with hlong | ⟨hal, hprev⟩
                · refine ⟨⟨by omega, by omega⟩, fun g hg hh => ?_⟩
                  have := W.shared g hg r hrm ⟨char + 32, hh, by omega, by omega⟩
                  unfold Group.Has at hh
                  omega
                · exfalso
                  rcases inv.align with h0 | ⟨k, p, hk, hp, hmod, hps, hgs⟩
                  · omega
                  · rcases hprev k p hk hp with h0 | ⟨g, hg, hg1, hg2⟩
                    · omega
                    · have h1 := hgs g hg hg1
                      have h2 := hgap g hg h1
                      omega
            · rcases inv.align with h0 | ⟨k, p, hk, hp, hmod, hps, hgs⟩
              · left; omega
              · exact .inr ⟨k, p, hk, hp, by omega, by omega, fun g hg h => hgap g hg (hgs g hg h)⟩
          obtain ⟨e1, e2, e3⟩ := ih (char + LINES_PER_GROUP) a
            (by have : char + LINES_PER_GROUP = char + 32 := rfl
                omega) inv'
          refine ⟨e1, e2, fun c n => ?_⟩
          rw [e3 c n]
          have : Remaining N (char + LINES_PER_GROUP) a c ↔ Remaining N char a c := by
            unfold Remaining
            have e32 : char + LINES_PER_GROUP = char + 32 := rfl
            rw [e32]
            constructor
            · rintro (h | ⟨h, g, hg, hc, hlt⟩)
              · exact .inl h
              · exact .inr ⟨h, g, hg, hc, by omega⟩
            · rintro (h | ⟨h, g, hg, hc, hlt⟩)
              · exact .inl h
              · exact .inr ⟨h, g, hg, hc, hgap g hg hlt⟩
          rw [this]
    · rw [if_neg hlim]
      refine ⟨rfl, by simp, fun c n => ?_⟩
      simp only [List.not_mem_nil, false_iff]
      rintro ⟨hrem, -, -⟩
      rcases hrem with ⟨i, r, hi, hr, hc⟩ | ⟨_, g, hg, hc, hlt⟩
      · obtain ⟨r0, hr0⟩ : ∃ r0, N.ranges[a]? = some r0 :=
          ⟨_, List.getElem?_eq_getElem (by have := (List.getElem?_eq_some_iff.mp hr).1; omega)⟩
        have h1 := hrl r0 (List.mem_of_getElem? hr0)
        have h2 := W.ranges_valid r0 (List.mem_of_getElem? hr0)
        rcases inv.next r0 hr0 with h | ⟨h, _⟩
        · omega
        · unfold Range.Has at h; omega
      · have := hgl g hg
        rw [stop_eq] at this
        omega

/-- The whole iteration. -/
theorem nameIterator_spec (W : WellFormed N nc) (hn : nc ≠ 2) :
    (N.nameIterator nc).err = none ∧ (N.nameIterator nc).items.Pairwise (fun x y => x.1 < y.1) ∧
    ∀ c n, (c, n) ∈ (N.nameIterator nc).items ↔ N.getCharName c nc = .ok n ∧ n ≠ [] := by
  obtain ⟨g, hg⟩ : ∃ g, N.groups.getLast? = some g := ⟨_, List.getLast?_eq_some_getLast W.groups_ne⟩
  obtain ⟨r, hr⟩ : ∃ r, N.ranges.getLast? = some r := ⟨_, List.getLast?_eq_some_getLast W.ranges_ne⟩
  obtain ⟨hgl, hrl⟩ := limit_ge W hg hr
  have hu : N.nameIterator nc = iterLoop N nc (max g.stop r.stop) (max g.stop r.stop + 1) 0 0 := by
    unfold Names.nameIterator; rw [hg, hr]
  have inv : IterInv N 0 0 := ⟨fun r hr => next_at W (List.mem_of_getElem? hr) (Nat.zero_le _), .inl rfl⟩
  obtain ⟨h1, h2, h3⟩ := iterLoop_spec W hn hgl hrl (max g.stop r.stop + 1) 0 0 (by omega) inv
  rw [hu]
  refine ⟨h1, h2, fun c n => ?_⟩
  rw [h3 c n]
  constructor
  · rintro ⟨_, h⟩; exact h
  · rintro ⟨hname, hne⟩
    refine ⟨?_, hname, hne⟩
    by_cases hrc : ∃ r ∈ N.ranges, Range.Has r c
    · obtain ⟨r, hr, hc⟩ := hrc
      obtain ⟨i, hi⟩ := List.getElem?_of_mem hr
      exact .inl ⟨i, r, Nat.zero_le _, hi, hc⟩
    · have hrc' : ∀ r ∈ N.ranges, ¬ Range.Has r c := fun r hr hc => hrc ⟨r, hr, hc⟩
      by_cases hgc : ∃ g ∈ N.groups, Group.Has g c
      · obtain ⟨g, hg, hc⟩ := hgc
        exact .inr ⟨hrc', g, hg, hc, by unfold Group.Has at hc; omega⟩
      · exfalso
        rw [name_nowhere W hn (fun g hg hc => hgc ⟨g, hg, hc⟩) hrc'] at hname
        injection hname with hname
        exact hne hname.symm

/-- The search takes the first match. -/
theorem searchName_spec {theName : Str} : ∀ {l : List (Nat × Str)}, l.Pairwise (fun x y => x.1 < y.1) →
    (∀ c, (c, theName) ∈ l → (∀ c', (c', theName) ∈ l → c ≤ c') → searchName theName none l = .ok c) ∧
    ((∀ c, (c, theName) ∉ l) → searchName theName none l = .ok 0xFFFFFFFF) := by
  intro l
  induction l with
  | nil => intro _; simp [searchName]
  | cons p l ih =>
    intro hp
    obtain ⟨c0, n0⟩ := p
    rw [List.pairwise_cons] at hp
    obtain ⟨i1, i2⟩ := ih hp.2
    unfold searchName
    by_cases hn : n0 = theName
    · subst hn
      rw [if_pos rfl]
      constructor
      · intro c hc hmin
        have h1 := hmin c0 (by simp)
        rcases List.mem_cons.mp hc with h | h
        · injection h with h; rw [h]
        · have := hp.1 _ h; simp only at this; omega
      · intro h; exact absurd (List.mem_cons_self) (h c0)
    · rw [if_neg hn]
      constructor
      · intro c hc hmin
        refine i1 c ?_ (fun c' hc' => hmin c' (List.mem_cons_of_mem _ hc'))
        rcases List.mem_cons.mp hc with h | h
        · injection h with _ h; exact absurd h.symm hn
        · exact h
      · intro h
        exact i2 (fun c hc => h c (List.mem_cons_of_mem _ hc))

end iteration

end Verif.CharNames

import Verif.Lemmas.USetOps
/-! Which operations keep the range list strictly ascending. -/
namespace Verif.USet
open Verif.Spec

/-- Strictly ascending up to the first `0x110000`. -/
def StrictBelow (l : List Int) : Prop := l.Pairwise (fun x y => x < HIGH → x < y)

theorem strictBelow_of_strict {l : List Int} (h : l.Pairwise (· < ·)) : StrictBelow l :=
  List.Pairwise.imp (S := fun x y => x < HIGH → x < y) (fun hxy _ => hxy) h

theorem strictBelow_range {s e : Int} (h : s < e) : StrictBelow [s, e, HIGH] := by
  simp [StrictBelow]; omega

/-- The buffer is strictly descending and below both read boundaries. -/
def Below (buf : List Int) (a b : Int) : Prop := buf.Pairwise (· > ·) ∧ ∀ z ∈ buf, z < a ∧ z < b

theorem Below.keep {buf : List Int} {a b a' b' : Int} (h : Below buf a b) (ha : a ≤ a') (hb : b ≤ b') : Below buf a' b' :=
  ⟨h.1, fun z hz => by have := h.2 z hz; omega⟩

theorem Below.push {buf : List Int} {a b a' b' v : Int} (h : Below buf a b) (hv : v = a ∨ v = b) (ha : v < a') (hb : v < b') :
    Below (v :: buf) a' b' := by
  refine ⟨List.pairwise_cons.mpr ⟨fun z hz => by have := h.2 z hz; omega, h.1⟩, fun z hz => ?_⟩
  simp at hz; rcases hz with rfl | hz
  · omega
  · have := h.2 z hz; omega

theorem pop_ok {xs : List Int} {r : Int × List Int} (h : pop xs = .ok r) : xs = r.1 :: r.2 := by
  cases xs with
  | nil => simp [pop] at h
  | cons x xs => simp [pop] at h; subst h; rfl

theorem sb_next {a x : Int} {xs : List Int} (h : StrictBelow (a :: x :: xs)) (ha : a < HIGH) : a < x ∧ StrictBelow (x :: xs) := by
  have := List.pairwise_cons.mp h
  exact ⟨this.1 x (by simp) ha, this.2⟩

theorem retainLoop_strict : ∀ (fuel : Nat) (pa pb : Bool) (a b : Int) (xs ys buf r : List Int),
    a ≤ HIGH → b ≤ HIGH → (∀ x ∈ xs, x ≤ HIGH) → (∀ y ∈ ys, y ≤ HIGH) →
    StrictBelow (a :: xs) → StrictBelow (b :: ys) → Below buf a b →
    retainLoop fuel pa pb a b xs ys buf = .ok r → r.Pairwise (· > ·) := by
  intro fuel
  induction fuel with
  | zero => intro pa pb a b xs ys buf r _ _ _ _ _ _ _ h; cases pa <;> cases pb <;> simp [retainLoop] at h
  | succ n ih =>
    intro pa pb a b xs ys buf r ha hb hxs hys hsa hsb hbuf h
    have popa : ∀ {p}, pop xs = .ok p → a < HIGH → a < p.1 ∧ p.1 ≤ HIGH ∧ (∀ x ∈ p.2, x ≤ HIGH) ∧ StrictBelow (p.1 :: p.2) := by
      intro p hp hlt
      have := pop_ok hp; subst this
      have hn := sb_next hsa hlt
      exact ⟨hn.1, hxs _ (by simp), fun x hx => hxs x (by simp [hx]), hn.2⟩
    have popb : ∀ {p}, pop ys = .ok p → b < HIGH → b < p.1 ∧ p.1 ≤ HIGH ∧ (∀ x ∈ p.2, x ≤ HIGH) ∧ StrictBelow (p.1 :: p.2) := by
      intro p hp hlt
      have := pop_ok hp; subst this
      have hn := sb_next hsb hlt
      exact ⟨hn.1, hys _ (by simp), fun x hx => hys x (by simp [hx]), hn.2⟩
    have stepa : ∀ (qa qb : Bool) (buf' : List Int), a < b → (∀ a', a < a' → Below buf' a' b) →
        (do let (a', xs') ← pop xs; retainLoop n qa qb a' b xs' ys buf' : Py (List Int)) = .ok r → r.Pairwise (· > ·) := by
      intro qa qb buf' hlt hbf heq
      cases hp : pop xs with
      | error e => rw [hp] at heq; simp [bind, Except.bind] at heq
      | ok p =>
        rw [hp] at heq; simp only [bind, Except.bind] at heq
        obtain ⟨h1, h2, h3, h4⟩ := popa hp (by omega)
        exact ih qa qb p.1 b p.2 ys buf' r h2 hb h3 hys h4 hsb (hbf _ h1) heq
    have stepb : ∀ (qa qb : Bool) (buf' : List Int), b < a → (∀ b', b < b' → Below buf' a b') →
        (do let (b', ys') ← pop ys; retainLoop n qa qb a b' xs ys' buf' : Py (List Int)) = .ok r → r.Pairwise (· > ·) := by
      intro qa qb buf' hlt hbf heq
      cases hp : pop ys with
      | error e => rw [hp] at heq; simp [bind, Except.bind] at heq
      | ok p =>
        rw [hp] at heq; simp only [bind, Except.bind] at heq
        obtain ⟨h1, h2, h3, h4⟩ := popb hp (by omega)
        exact ih qa qb a p.1 xs p.2 buf' r ha h2 hxs h3 hsa h4 (hbf _ h1) heq
    have stepab : ∀ (qa qb : Bool) (buf' : List Int), a = b → a ≠ HIGH → (∀ a' b', a < a' → b < b' → Below buf' a' b') →
        (do let (a', xs') ← pop xs; let (b', ys') ← pop ys; retainLoop n qa qb a' b' xs' ys' buf' : Py (List Int)) = .ok r → r.Pairwise (· > ·) := by
      intro qa qb buf' hlt hne hbf heq
      cases hp : pop xs with
      | error e => rw [hp] at heq; simp [bind, Except.bind] at heq
      | ok p =>
        rw [hp] at heq; simp only [bind, Except.bind] at heq
        cases hq : pop ys with
        | error e => rw [hq] at heq; simp at heq
        | ok q =>
          rw [hq] at heq; simp only at heq
          obtain ⟨h1, h2, h3, h4⟩ := popa hp (by omega)
          obtain ⟨g1, g2, g3, g4⟩ := popb hq (by omega)
          exact ih qa qb p.1 q.1 p.2 q.2 buf' r h2 g2 h3 g3 h4 g4 (hbf _ _ h1 g1) heq
    have keepa : ∀ a', a < a' → Below buf a' b := fun a' h => hbuf.keep (by omega) (by omega)
    have keepb : ∀ b', b < b' → Below buf a b' := fun b' h => hbuf.keep (by omega) (by omega)
    have keepab : ∀ a' b', a < a' → b < b' → Below buf a' b' := fun a' b' _ _ => hbuf.keep (by omega) (by omega)
    have pusha : a < b → ∀ a', a < a' → Below (a :: buf) a' b := fun hab a' h => hbuf.push (Or.inl rfl) h hab
    have pushb : b < a → ∀ b', b < b' → Below (b :: buf) a b' := fun hab b' h => hbuf.push (Or.inr rfl) hab h
    have pushab : a = b → ∀ a' b', a < a' → b < b' → Below (a :: buf) a' b' := fun hab a' b' h h' => hbuf.push (Or.inl rfl) h (by omega)
    cases pa <;> cases pb <;> unfold retainLoop at h <;> dsimp only at h <;> split at h
    · exact stepa _ _ _ ‹_› keepa h
    · split at h
      · exact stepb _ _ _ ‹_› keepb h
      · split at h
        · cases h; exact hbuf.1
        · exact stepab _ _ _ (by omega) ‹_› (pushab (by omega)) h
    · exact stepb _ _ _ ‹_› keepb h
    · split at h
      · exact stepa _ _ _ ‹_› (pusha ‹_›) h
      · split at h
        · cases h; exact hbuf.1
        · exact stepab _ _ _ (by omega) ‹_› keepab h
    · exact stepa _ _ _ ‹_› keepa h
    · split at h
      · exact stepb _ _ _ ‹_› (pushb ‹_›) h
      · split at h
        · cases h; exact hbuf.1
        · exact stepab _ _ _ (by omega) ‹_› keepab h
    · exact stepa _ _ _ ‹_› (pusha ‹_›) h
    · split at h
      · exact stepb _ _ _ ‹_› (pushb ‹_›) h
      · split at h
        · cases h; exact hbuf.1
        · exact stepab _ _ _ (by omega) ‹_› (pushab (by omega)) h

theorem strict_finish {r : List Int} (hlt : ∀ z ∈ r, z < HIGH) (h : r.Pairwise (· > ·)) :
    (r.reverse ++ [HIGH]).Pairwise (· < ·) := by
  rw [List.pairwise_append]
  refine ⟨List.pairwise_reverse.mpr h, by simp, ?_⟩
  intro a ha b hb
  simp at ha hb; subst hb
  exact hlt a ha

theorem retainList_strict {l m : List Int} (hl : WellFormed l) (hm : WellFormed m) (sl : StrictBelow l) (sm : StrictBelow m)
    {pa pb : Bool} {r : List Int} (h : retainList l m pa pb = .ok r) : r.Pairwise (· < ·) := by
  obtain ⟨a, xs, rfl⟩ := wf_cases hl
  obtain ⟨b, ys, rfl⟩ := wf_cases hm
  obtain ⟨buf, h1, h2, _⟩ := retainLoop_ok (xs.length + ys.length + 1) pa pb a b xs ys [] (by omega) hl hm (bufOk_nil _)
  have h3 := retainLoop_strict _ pa pb a b xs ys [] buf (wf_head hl).2 (wf_head hm).2
    (fun x hx => (hl.2.1 x (by simp [hx])).2) (fun x hx => (hm.2.1 x (by simp [hx])).2) sl sm
    ⟨List.Pairwise.nil, by simp⟩ h1
  unfold retainList at h
  simp only [pop_cons, bind, Except.bind, h1, pure, Except.pure] at h
  cases h
  exact strict_finish (fun z hz => by have := h2.2 z hz; omega) h3

theorem xorLoop_strict : ∀ (fuel : Nat) (a b : Int) (xs ys buf r : List Int),
    a ≤ HIGH → b ≤ HIGH → (∀ x ∈ xs, x ≤ HIGH) → (∀ y ∈ ys, y ≤ HIGH) →
    StrictBelow (a :: xs) → StrictBelow (b :: ys) → Below buf a b →
    xorLoop fuel a b xs ys buf = .ok r → r.Pairwise (· > ·) := by
  intro fuel
  induction fuel with
  | zero => intro a b xs ys buf r _ _ _ _ _ _ _ h; simp [xorLoop] at h
  | succ n ih =>
    intro a b xs ys buf r ha hb hxs hys hsa hsb hbuf h
    have popa : ∀ {p}, pop xs = .ok p → a < HIGH → a < p.1 ∧ p.1 ≤ HIGH ∧ (∀ x ∈ p.2, x ≤ HIGH) ∧ StrictBelow (p.1 :: p.2) := by
      intro p hp hlt
      have := pop_ok hp; subst this
      have hn := sb_next hsa hlt
      exact ⟨hn.1, hxs _ (by simp), fun x hx => hxs x (by simp [hx]), hn.2⟩
    have popb : ∀ {p}, pop ys = .ok p → b < HIGH → b < p.1 ∧ p.1 ≤ HIGH ∧ (∀ x ∈ p.2, x ≤ HIGH) ∧ StrictBelow (p.1 :: p.2) := by
      intro p hp hlt
      have := pop_ok hp; subst this
      have hn := sb_next hsb hlt
      exact ⟨hn.1, hys _ (by simp), fun x hx => hys x (by simp [hx]), hn.2⟩
    unfold xorLoop at h
    split at h
    · cases hp : pop xs with
      | error e => rw [hp] at h; simp [bind, Except.bind] at h
      | ok p =>
        rw [hp] at h; simp only [bind, Except.bind] at h
        obtain ⟨h1, h2, h3, h4⟩ := popa hp (by omega)
        exact ih p.1 b p.2 ys _ r h2 hb h3 hys h4 hsb (hbuf.push (Or.inl rfl) h1 ‹_›) h
    · split at h
      · cases hp : pop ys with
        | error e => rw [hp] at h; simp [bind, Except.bind] at h
        | ok p =>
          rw [hp] at h; simp only [bind, Except.bind] at h
          obtain ⟨h1, h2, h3, h4⟩ := popb hp (by omega)
          exact ih a p.1 xs p.2 _ r ha h2 hxs h3 hsa h4 (hbuf.push (Or.inr rfl) ‹_› h1) h
      · split at h
        · cases hp : pop xs with
          | error e => rw [hp] at h; simp [bind, Except.bind] at h
          | ok p =>
            rw [hp] at h; simp only [bind, Except.bind] at h
            cases hq : pop ys with
            | error e => rw [hq] at h; simp at h
            | ok q =>
              rw [hq] at h; simp only at h
              obtain ⟨h1, h2, h3, h4⟩ := popa hp (by omega)
              obtain ⟨g1, g2, g3, g4⟩ := popb hq (by omega)
              exact ih p.1 q.1 p.2 q.2 _ r h2 g2 h3 g3 h4 g4 (hbuf.keep (by omega) (by omega)) h
        · cases h
          refine List.pairwise_cons.mpr ⟨fun z hz => ?_, hbuf.1⟩
          have := hbuf.2 z hz
          omega

theorem exclusiveOrList_strict {l m : List Int} (hl : WellFormed l) (hm : WellFormed m) (sl : StrictBelow l) (sm : StrictBelow m)
    {r : List Int} (h : exclusiveOrList l m = .ok r) : r.Pairwise (· < ·) := by
  obtain ⟨a, xs, rfl⟩ := wf_cases hl
  obtain ⟨b, ys, rfl⟩ := wf_cases hm
  unfold exclusiveOrList at h
  simp only [pop_cons, bind, Except.bind, pure, Except.pure] at h
  cases hx : xorLoop (xs.length + ys.length + 1) a b xs ys [] with
  | error e => rw [hx] at h; simp at h
  | ok buf =>
    rw [hx] at h
    cases h
    have := xorLoop_strict _ a b xs ys [] buf (wf_head hl).2 (wf_head hm).2
      (fun x hx => (hl.2.1 x (by simp [hx])).2) (fun x hx => (hm.2.1 x (by simp [hx])).2) sl sm
      ⟨List.Pairwise.nil, by simp⟩ hx
    exact List.pairwise_reverse.mpr this

/-! ## Adding a single range -/

/-- Loop invariant of `_addList` when `other` is one range `[start, limit, 0x110000]`. -/
structure OneInv (pa pb : Bool) (a b : Int) (xs ys buf : List Int) : Prop where
  par : buf.length % 2 = if (pa || pb) then 1 else 0
  desc : buf.Pairwise (· > ·)
  sa : match pa with | false => StrictBelow (a :: xs) | true => StrictBelow xs
  sb : match pb with
    | false => b = HIGH ∨ ∃ lim zs, ys = lim :: HIGH :: zs ∧ b < lim ∧ ∀ z ∈ buf, z < b
    | true => ∃ zs, ys = HIGH :: zs
  opened : match pa, pb with
    | false, false => ∀ e s t, buf = e :: s :: t → s ≤ a
    | true, false => ∃ s t, buf = s :: t ∧ s < a ∧ ∀ x ∈ xs, s ≤ x
    | false, true => ∃ s t, buf = s :: t ∧ s < b ∧ s ≤ a
    | true, true => ∃ s t, buf = s :: t ∧ s < max a b ∧ ∀ x ∈ xs, s ≤ x

theorem desc_tail {s : Int} {t : List Int} (h : (s :: t).Pairwise (· > ·)) : t.Pairwise (· > ·) := (List.pairwise_cons.mp h).2

theorem desc_push {s v : Int} {t : List Int} (h : (s :: t).Pairwise (· > ·)) (hv : s < v) : (v :: s :: t).Pairwise (· > ·) := by
  rw [List.pairwise_cons]
  refine ⟨fun z hz => ?_, h⟩
  simp at hz; rcases hz with rfl | hz
  · exact hv
  · have := (List.pairwise_cons.mp h).1 z hz; omega

theorem sb_tail {xs : List Int} {a : Int} (h : StrictBelow (a :: xs)) : StrictBelow xs := (List.pairwise_cons.mp h).2

theorem addLoop_one_strict : ∀ (fuel : Nat) (pa pb : Bool) (a b : Int) (xs ys buf r : List Int),
    a ≤ HIGH → b ≤ HIGH → (∀ x ∈ xs, x ≤ HIGH) → (∀ y ∈ ys, y ≤ HIGH) → (∀ z ∈ buf, z < HIGH) →
    OneInv pa pb a b xs ys buf →
    addLoop fuel pa pb a b xs ys buf = .ok r → r.Pairwise (· > ·) := by
  intro fuel
  induction fuel with
  | zero => intro pa pb a b xs ys buf r _ _ _ _ _ _ h; cases pa <;> cases pb <;> simp [addLoop] at h
  | succ n ih =>
    intro pa pb a b xs ys buf r ha hb hxs hys hbf inv h
    cases pa <;> cases pb
    · -- polarity 0
      obtain ⟨par, desc, sa, sb, lo⟩ := inv
      simp only at sa sb lo
      simp only [Bool.or_self, Bool.false_eq_true, ↓reduceIte] at par
      have par1 : ∀ {v : Int}, (v :: buf).length % 2 = 1 := by intro v; simp; omega
      have sge : ∀ x ∈ xs, a < HIGH → a ≤ x := fun x hx hlt => by
        have := (List.pairwise_cons.mp sa).1 x hx hlt; omega
      have fresh : a < HIGH → (∀ z ∈ buf, z < a) → ∀ p, pop xs = .ok p → a < b →
          addLoop n true false p.1 b p.2 ys (a :: buf) = .ok r → r.Pairwise (· > ·) := by
        intro haH hlt p hp hab heq
        have := pop_ok hp; subst this
        have hn := sb_next sa haH
        refine ih _ _ _ _ _ _ _ _ (hxs _ (by simp)) hb (fun x hx => hxs x (by simp [hx])) hys ?_ ?_ heq
        · intro z hz; simp at hz; rcases hz with rfl | hz
          · exact haH
          · exact hbf z hz
        · refine ⟨par1, List.pairwise_cons.mpr ⟨fun z hz => hlt z hz, desc⟩, sb_tail hn.2, ?_, ⟨a, buf, rfl, hn.1, fun x hx => sge x (by simp [hx]) haH⟩⟩
          rcases sb with h1 | ⟨lim, zs, h1, h2, h3⟩
          · exact Or.inl h1
          · refine Or.inr ⟨lim, zs, h1, h2, fun z hz => ?_⟩
            simp at hz; rcases hz with rfl | hz
            · exact hab
            · exact h3 z hz
      have freshb : b < a → ∀ p, pop ys = .ok p →
          addLoop n false true a p.1 xs p.2 (b :: buf) = .ok r → r.Pairwise (· > ·) := by
        intro hba p hp heq
        rcases sb with h1 | ⟨lim, zs, rfl, h2, h3⟩
        · omega
        · have := pop_ok hp; simp at this; obtain ⟨e1, e2⟩ := this
          refine ih _ _ _ _ _ _ _ _ ha (by rw [← e1]; exact hys _ (by simp)) hxs (fun x hx => hys x (by rw [← e2] at hx; exact List.mem_cons_of_mem _ hx)) ?_ ?_ heq
          · intro z hz; simp at hz; rcases hz with rfl | hz
            · omega
            · exact hbf z hz
          · exact ⟨par1, List.pairwise_cons.mpr ⟨fun z hz => h3 z hz, desc⟩, sa, ⟨zs, e2.symm⟩, ⟨b, buf, rfl, by omega, by omega⟩⟩
      have freshab : a = b → a ≠ HIGH → ∀ p, pop xs = .ok p → ∀ q, pop ys = .ok q →
          addLoop n true true p.1 q.1 p.2 q.2 (a :: buf) = .ok r → r.Pairwise (· > ·) := by
        intro hab hne p hp q hq heq
        rcases sb with h1 | ⟨lim, zs, rfl, h2, h3⟩
        · omega
        · have := pop_ok hp; subst this
          have := pop_ok hq; simp at this; obtain ⟨e1, e2⟩ := this
          have hn := sb_next sa (by omega)
          refine ih _ _ _ _ _ _ _ _ (hxs _ (by simp)) (by rw [← e1]; exact hys _ (by simp)) (fun x hx => hxs x (by simp [hx])) (fun x hx => hys x (by rw [← e2] at hx; exact List.mem_cons_of_mem _ hx)) ?_ ?_ heq
          · intro z hz; simp at hz; rcases hz with rfl | hz
            · omega
            · exact hbf z hz
          · exact ⟨par1, List.pairwise_cons.mpr ⟨fun z hz => by have := h3 z hz; omega, desc⟩, sb_tail hn.2, ⟨zs, e2.symm⟩, ⟨a, buf, rfl, by omega, fun x hx => sge x (by simp [hx]) (by omega)⟩⟩
      unfold addLoop at h; dsimp only at h
      split at h
      · rename_i hab
        cases buf with
        | nil =>
          simp only at h
          cases hp : pop xs with
          | error e => rw [hp] at h; simp [bind, Except.bind] at h
          | ok p => rw [hp] at h; exact fresh (by omega) (by simp) p hp hab h
        | cons last buf' =>
          simp only at h
          split at h
          · cases hp : pop xs with
            | error e => rw [hp] at h; simp [bind, Except.bind] at h
            | ok p =>
              rw [hp] at h; simp only [bind, Except.bind] at h
              have := pop_ok hp; subst this
              have hn := sb_next sa (by omega)
              have hp1 := hxs p.1 (by simp)
              have hlast := hbf last (by simp)
              cases buf' with
              | nil => simp at par
              | cons s t =>
                refine ih _ _ _ _ _ _ _ _ (by omega) hb (fun x hx => hxs x (by simp [hx])) hys (fun z hz => hbf z (List.mem_cons_of_mem _ hz)) ?_ h
                refine ⟨by simp at par ⊢; omega, desc_tail desc, sb_tail hn.2, ?_, ⟨s, t, rfl, ?_, fun x hx => by have := sge x (by simp [hx]) (by omega); have := lo last s t rfl; omega⟩⟩
                · rcases sb with h1 | ⟨lim, zs, h1, h2, h3⟩
                  · exact Or.inl h1
                  · exact Or.inr ⟨lim, zs, h1, h2, fun z hz => h3 z (List.mem_cons_of_mem _ hz)⟩
                · have := (List.pairwise_cons.mp desc).1 s (by simp)
                  omega
          · cases hp : pop xs with
            | error e => rw [hp] at h; simp [bind, Except.bind] at h
            | ok p =>
              rw [hp] at h
              refine fresh (by omega) ?_ p hp hab h
              intro z hz; simp at hz; rcases hz with rfl | hz
              · omega
              · have := (List.pairwise_cons.mp desc).1 z hz; omega
      · split at h
        · rename_i hba
          cases buf with
          | nil =>
            simp only at h
            cases hp : pop ys with
            | error e => rw [hp] at h; simp [bind, Except.bind] at h
            | ok p => rw [hp] at h; exact freshb hba p hp h
          | cons last buf' =>
            simp only at h
            split at h
            · rcases sb with h1 | ⟨lim, zs, h1, h2, h3⟩
              · omega
              · have := h3 last (by simp); omega
            · cases hp : pop ys with
              | error e => rw [hp] at h; simp [bind, Except.bind] at h
              | ok p => rw [hp] at h; exact freshb hba p hp h
        · split at h
          · cases h; exact desc
          · have key : (do let (x, xs') ← pop xs; let (y, ys') ← pop ys; addLoop n true true x y xs' ys' (a :: buf) : Py (List Int)) = .ok r → r.Pairwise (· > ·) := by
              intro heq
              cases hp : pop xs with
              | error e => rw [hp] at heq; simp [bind, Except.bind] at heq
              | ok p =>
                rw [hp] at heq; simp only [bind, Except.bind] at heq
                cases hq : pop ys with
                | error e => rw [hq] at heq; simp at heq
                | ok q =>
                  rw [hq] at heq
                  exact freshab (by omega) ‹_› p hp q hq heq
            cases buf with
            | nil => exact key h
            | cons last buf' =>
              simp only at h
              split at h
              · rcases sb with h1 | ⟨lim, zs, h1, h2, h3⟩
                · omega
                · have := h3 last (by simp); omega
              · exact key h
    · -- polarity 2
      obtain ⟨par, desc, sa, ⟨zs, rfl⟩, ⟨s, t, rfl, hsb, hsa⟩⟩ := inv
      simp only at sa
      simp only [Bool.false_or, ↓reduceIte] at par
      unfold addLoop at h; dsimp only at h
      split at h
      · -- b < a: the open range ends at b
        simp only [pop_cons, bind, Except.bind] at h
        refine ih _ _ _ _ _ _ _ _ ha (by omega) hxs (fun y hy => hys y (List.mem_cons_of_mem _ hy)) ?_ ?_ h
        · intro z hz
          rw [List.mem_cons] at hz; rcases hz with rfl | hz
          · omega
          · exact hbf z hz
        · exact ⟨by simp at par ⊢; omega, desc_push desc hsb, sa, Or.inl rfl, fun e s' t' he => by simp at he; omega⟩
      · split at h
        · cases hp : pop xs with
          | error e => rw [hp] at h; simp [bind, Except.bind] at h
          | ok p =>
            rw [hp] at h; simp only [bind, Except.bind] at h
            have := pop_ok hp; subst this
            have hn := sb_next sa (by omega)
            refine ih _ _ _ _ _ _ _ _ (hxs _ (by simp)) hb (fun x hx => hxs x (by simp [hx])) hys hbf ?_ h
            exact ⟨by simpa using par, desc, sb_tail hn.2, ⟨zs, rfl⟩, ⟨s, t, rfl, by omega, fun x hx => by
              have := (List.pairwise_cons.mp sa).1 x (by simp [hx]) (by omega); omega⟩⟩
        · split at h
          · cases h; exact desc
          · cases hp : pop xs with
            | error e => rw [hp] at h; simp [bind, Except.bind] at h
            | ok p =>
              rw [hp] at h; simp only [bind, Except.bind, pop_cons] at h
              have := pop_ok hp; subst this
              have hn := sb_next sa (by omega)
              refine ih _ _ _ _ _ _ _ _ (hxs _ (by simp)) (Int.le_refl _) (fun x hx => hxs x (by simp [hx])) (fun y hy => hys y (List.mem_cons_of_mem _ hy)) hbf ?_ h
              exact ⟨by simpa using par, desc, sb_tail hn.2, Or.inl rfl, ⟨s, t, rfl, by omega, fun x hx => by
                have := (List.pairwise_cons.mp sa).1 x (by simp [hx]) (by omega); omega⟩⟩
    · -- polarity 1
      obtain ⟨par, desc, sa, sb, ⟨s, t, rfl, hsa, hsx⟩⟩ := inv
      simp only at sa sb
      simp only [Bool.or_false, ↓reduceIte] at par
      unfold addLoop at h; dsimp only at h
      split at h
      · -- a < b: the open range ends at a
        rename_i hab
        cases hp : pop xs with
        | error e => rw [hp] at h; simp [bind, Except.bind] at h
        | ok p =>
          rw [hp] at h; simp only [bind, Except.bind] at h
          have := pop_ok hp; subst this
          refine ih _ _ _ _ _ _ _ _ (hxs _ (by simp)) hb (fun x hx => hxs x (by simp [hx])) hys ?_ ?_ h
          · intro z hz
            rw [List.mem_cons] at hz; rcases hz with rfl | hz
            · omega
            · exact hbf z hz
          · refine ⟨by simp at par ⊢; omega, desc_push desc hsa, sa, ?_, fun e s' t' he => by
            have := hsx p.1 (by simp); simp at he; omega⟩
            rcases sb with h1 | ⟨lim, zs, h1, h2, h3⟩
            · exact Or.inl h1
            · refine Or.inr ⟨lim, zs, h1, h2, fun z hz => ?_⟩
              rw [List.mem_cons] at hz; rcases hz with rfl | hz
              · exact hab
              · exact h3 z hz
      · split at h
        · rcases sb with h1 | ⟨lim, zs, rfl, h2, h3⟩
          · omega
          · simp only [pop_cons, bind, Except.bind] at h
            refine ih _ _ _ _ _ _ _ _ ha (hys _ (by simp)) hxs (fun y hy => hys y (List.mem_cons_of_mem _ hy)) hbf ?_ h
            exact ⟨by simpa using par, desc, sa, ⟨zs, rfl⟩, ⟨s, t, rfl, by omega, hsx⟩⟩
        · split at h
          · cases h; exact desc
          · rcases sb with h1 | ⟨lim, zs, rfl, h2, h3⟩
            · omega
            · cases hp : pop xs with
              | error e => rw [hp] at h; simp [bind, Except.bind] at h
              | ok p =>
                rw [hp] at h; simp only [bind, Except.bind, pop_cons] at h
                have := pop_ok hp; subst this
                have hs3 := h3 s (by simp)
                refine ih _ _ _ _ _ _ _ _ (hxs _ (by simp)) (hys _ (by simp)) (fun x hx => hxs x (by simp [hx])) (fun y hy => hys y (List.mem_cons_of_mem _ hy)) hbf ?_ h
                exact ⟨by simpa using par, desc, sa, ⟨zs, rfl⟩, ⟨s, t, rfl, by omega, hsx p.1 (by simp)⟩⟩
    · -- polarity 3
      obtain ⟨par, desc, sa, ⟨zs, rfl⟩, ⟨s, t, rfl, hsa, hsx⟩⟩ := inv
      simp only at sa
      simp only [Bool.or_self, ↓reduceIte] at par
      have fin : ∀ v, s < v → v < HIGH → (do let (a', xs') ← pop xs; let (b', ys') ← pop (HIGH :: zs); addLoop n false false a' b' xs' ys' (v :: s :: t) : Py (List Int)) = .ok r → r.Pairwise (· > ·) := by
        clear h
        intro v hv hvh h
        cases hp : pop xs with
        | error e => rw [hp] at h; simp [bind, Except.bind] at h
        | ok p =>
          rw [hp] at h; simp only [bind, Except.bind, pop_cons] at h
          have := pop_ok hp; subst this
          refine ih _ _ _ _ _ _ _ _ (hxs _ (by simp)) (Int.le_refl _) (fun x hx => hxs x (by simp [hx])) (fun y hy => hys y (List.mem_cons_of_mem _ hy)) ?_ ?_ h
          · intro z hz
            rw [List.mem_cons] at hz; rcases hz with rfl | hz
            · omega
            · exact hbf z hz
          · exact ⟨by simp at par ⊢; omega, desc_push desc hv, sa, Or.inl rfl, fun e s' t' he => by
            have := hsx p.1 (by simp); simp at he; omega⟩
      unfold addLoop at h; dsimp only at h
      split at h
      · split at h
        · cases h; exact desc
        · exact fin a (by omega) (by omega) h
      · split at h
        · cases h; exact desc
        · exact fin b (by omega) (by omega) h

theorem addList_one_strict {l : List Int} (hl : WellFormed l) (sl : StrictBelow l) {s e : Int} (hs : 0 ≤ s) (hse : s < e) (he : e ≤ HIGH)
    {r : List Int} (h : addList l [s, e, HIGH] = .ok r) : r.Pairwise (· < ·) := by
  obtain ⟨a, xs, rfl⟩ := wf_cases hl
  have hm := wf_range hs (by omega : s ≤ e) he
  obtain ⟨buf, h1, h2, _⟩ := addLoop_ok (xs.length + [e, HIGH].length + 1) false false a s xs [e, HIGH] [] 0 (by omega)
    (tailOk_init hl) (tailOk_init hm) (Or.inl ⟨rfl, rfl⟩)
  have h3 := addLoop_one_strict _ false false a s xs [e, HIGH] [] buf (wf_head hl).2 (wf_head hm).2
    (fun x hx => (hl.2.1 x (by simp [hx])).2) (fun x hx => (hm.2.1 x (by simp at hx ⊢; omega)).2) (by simp)
    ⟨rfl, List.Pairwise.nil, sl, Or.inr ⟨e, [], rfl, hse, by simp⟩, fun _ _ _ h => by simp at h⟩ h1
  unfold addList at h
  simp only [pop_cons, bind, Except.bind, h1, pure, Except.pure] at h
  cases h
  exact strict_finish (fun z hz => by have := h2.2 z hz; omega) h3

theorem addRangeRet_strict {l : List Int} (hl : WellFormed l) (sl : l.Pairwise (· < ·)) {s e : Int} (hs : IsCodePoint s) (he : IsCodePoint e) (hse : s ≤ e)
    {r : List Int} {b : Bool} (h : addRangeRet l s e = .ok (r, b)) : r.Pairwise (· < ·) := by
  have hs' := cp_high hs
  have he' := cp_high he
  unfold addRangeRet at h
  simp only [pin_lt hs he] at h
  by_cases hlt : s < e
  · simp only [hlt, ↓reduceIte] at h
    have slow : ∀ r, (do let l' ← addList l [s, e + 1, HIGH]; return (l', true) : Py (List Int × Bool)) = .ok r → r.1.Pairwise (· < ·) := by
      intro r hr
      cases hq : addList l [s, e + 1, HIGH] with
      | error e => rw [hq] at hr; simp [bind, Except.bind] at hr
      | ok q =>
        rw [hq] at hr; simp only [bind, Except.bind, pure, Except.pure] at hr
        cases hr
        exact addList_one_strict hl (strictBelow_of_strict sl) hs'.1 (by omega) (by omega) hq
    by_cases hpar : l.length % 2 = 0
    · simp only [hpar, ne_eq, not_true, ↓reduceIte] at h
      exact slow _ h
    · simp only [hpar, ne_eq, not_false_eq_true, ↓reduceIte] at h
      by_cases h1 : l.length = 1
      · have hlist : l = [HIGH] := by
          obtain ⟨a, xs, rfl⟩ := wf_cases hl
          have hx : xs = [] := by simpa using h1
          subst hx
          have := hl.2.2
          simp at this; simp [HIGH, this]
        subst hlist
        simp only [List.length_singleton, ↓reduceIte, pure_bind, show (-2 : Int) ≤ s by omega, show (-2 : Int) ≠ s by omega] at h
        cases h
        by_cases hh : e + 1 < HIGH
        · simp [hh]; omega
        · simp [hh]; omega
      · obtain ⟨p, x, rfl⟩ := two_last hl h1
        have hget : pyGet (p ++ [x, HIGH]) (-2) = .ok x := by
          unfold pyGet
          simp only [List.length_append, List.length_cons, List.length_nil]
          rw [if_neg (by omega), if_pos (by omega)]
          have : (((p.length + (0 + 1 + 1) : Nat) : Int) + -2).toNat = p.length := by omega
          rw [this]
          simp
        obtain ⟨g1, g2, g3⟩ := List.pairwise_append.mp sl
        have hpx : ∀ y ∈ p, y < x := fun y hy => g3 y hy x (by simp)
        rw [hget] at h
        simp only [h1, ↓reduceIte, bind, Except.bind] at h
        by_cases hle : x ≤ s
        · simp only [hle, ↓reduceIte] at h
          by_cases heq : x = s
          · subst heq
            have hlen : ¬ (p ++ [x, HIGH]).length < 2 := by simp
            simp only [hlen, ↓reduceIte] at h
            have e1 : (p ++ [x, HIGH]).set ((p ++ [x, HIGH]).length - 2) (e + 1) = p ++ [e + 1, HIGH] := by
              simp
            rw [e1] at h
            cases h
            by_cases hh : e + 1 = HIGH
            · simp only [hh, ↓reduceIte]
              rw [show p ++ [HIGH, HIGH] = (p ++ [HIGH]) ++ [HIGH] by simp, List.dropLast_concat, List.pairwise_append]
              refine ⟨g1, by simp, fun a ha b hb => ?_⟩
              have := hpx a ha
              simp at hb; omega
            · simp only [hh, ↓reduceIte]
              rw [List.pairwise_append]
              refine ⟨g1, by simp; omega, fun a ha b hb => ?_⟩
              have := hpx a ha
              simp at hb; omega
          · simp only [heq, ↓reduceIte] at h
            have e1 : (p ++ [x, HIGH]).set ((p ++ [x, HIGH]).length - 1) s = p ++ [x, s] := by
              simp
            rw [e1] at h
            cases h
            by_cases hh : e + 1 < HIGH
            · simp only [hh, ↓reduceIte]
              rw [List.append_assoc, List.pairwise_append]
              refine ⟨g1, by simp; omega, fun a ha b hb => ?_⟩
              have := hpx a ha
              simp at hb; omega
            · simp only [hh, ↓reduceIte]
              rw [List.append_assoc, List.pairwise_append]
              refine ⟨g1, by simp; omega, fun a ha b hb => ?_⟩
              have := hpx a ha
              simp at hb; omega
        · simp only [hle, ↓reduceIte] at h
          exact slow _ h
  · have : s = e := by omega
    subst this
    simp only [Int.lt_irrefl, ↓reduceIte] at h
    obtain ⟨r', h1, _, _, h4⟩ := add_ok hl hs
    rw [h1] at h
    cases h
    exact h4 sl

end Verif.USet

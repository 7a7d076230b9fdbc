import Verif.Lemmas.USetBasic
/-! Correctness of the merge loops `_retainList`, `_exclusiveOrList`. -/
namespace Verif.USet
open Verif.Spec

theorem wf_pop {a : Int} {xs : List Int} (h : WellFormed (a :: xs)) (ha : a < HIGH) :
    ∃ x xs', xs = x :: xs' ∧ WellFormed (x :: xs') ∧ a ≤ x ∧ x ≤ HIGH := by
  cases xs with
  | nil =>
    have := h.2.2
    simp [HIGH] at *
    omega
  | cons x xs' =>
    refine ⟨x, xs', rfl, ⟨(List.pairwise_cons.mp h.1).2, fun y hy => h.2.1 y (by simp [hy]), ?_⟩, ?_, ?_⟩
    · have := h.2.2
      simpa using this
    · exact (List.pairwise_cons.mp h.1).1 x (by simp)
    · exact (h.2.1 x (by simp)).2

theorem wf_head {a : Int} {xs : List Int} (h : WellFormed (a :: xs)) : 0 ≤ a ∧ a ≤ HIGH := h.2.1 a (by simp)

theorem mem_tail_false {a : Int} {xs : List Int} (h : WellFormed (a :: xs)) {c : Int} (hc : c < a) :
    mem xs c = false := by
  apply mem_of_all_gt
  intro y hy
  have := (List.pairwise_cons.mp h.1).1 y hy
  omega

/-- All that the proofs need to know about the accumulated buffer (stored last element first): descending, bounded by `m`, below 0x110000. -/
def BufOk (buf : List Int) (m : Int) : Prop :=
  buf.Pairwise (· ≥ ·) ∧ (∀ x ∈ buf, 0 ≤ x ∧ x ≤ m ∧ x < HIGH)

theorem BufOk.mono {buf : List Int} {m m' : Int} (h : BufOk buf m) (hm : m ≤ m') : BufOk buf m' :=
  ⟨h.1, fun x hx => ⟨(h.2 x hx).1, by have := (h.2 x hx).2.1; omega, (h.2 x hx).2.2⟩⟩

theorem BufOk.push {buf : List Int} {m v : Int} (h : BufOk buf v) (h0 : 0 ≤ v) (hv : v < HIGH) (hm : v ≤ m) :
    BufOk (v :: buf) m := by
  constructor
  · rw [List.pairwise_cons]
    exact ⟨fun x hx => (h.2 x hx).2.1, h.1⟩
  · intro x hx
    simp only [List.mem_cons] at hx
    rcases hx with rfl | hx
    · exact ⟨h0, hm, hv⟩
    · exact (h.mono hm).2 x hx

theorem bufOk_nil (m : Int) : BufOk [] m := ⟨List.Pairwise.nil, by simp⟩

theorem pop_cons (x : Int) (xs : List Int) : pop (x :: xs) = .ok (x, xs) := rfl

theorem retainLoop_ok : ∀ (fuel : Nat) (pa pb : Bool) (a b : Int) (xs ys buf : List Int),
    xs.length + ys.length < fuel → WellFormed (a :: xs) → WellFormed (b :: ys) →
    BufOk buf (min a b) →
    ∃ r, retainLoop fuel pa pb a b xs ys buf = .ok r ∧ BufOk r HIGH ∧
      ∀ c, c < HIGH → mem r c =
        (mem buf c ^^ (pa && pb) ^^ ((pa ^^ mem (a :: xs) c) && (pb ^^ mem (b :: ys) c))) := by
  intro fuel
  induction fuel with
  | zero => intro _ _ _ _ _ _ _ h; omega
  | succ n ih =>
    intro pa pb a b xs ys buf hf ha hb hbuf
    have ha0 := wf_head ha
    have hb0 := wf_head hb
    have stepA : a < b → ∀ buf' pa', (BufOk buf' a) →
        (∀ c, c < HIGH → (mem buf' c ^^ (pa' && pb) ^^ ((pa' ^^ mem xs c) && (pb ^^ mem (b :: ys) c))) =
          (mem buf c ^^ (pa && pb) ^^ ((pa ^^ mem (a :: xs) c) && (pb ^^ mem (b :: ys) c)))) →
        ∃ r, (do let (a', xs') ← pop xs; retainLoop n pa' pb a' b xs' ys buf') = .ok r ∧ BufOk r HIGH ∧
          ∀ c, c < HIGH → mem r c =
            (mem buf c ^^ (pa && pb) ^^ ((pa ^^ mem (a :: xs) c) && (pb ^^ mem (b :: ys) c))) := by
      intro hlt buf' pa' hb' heq
      obtain ⟨x, xs', rfl, hx, hax, hxh⟩ := wf_pop ha (by omega)
      obtain ⟨r, h1, h2, h3⟩ := ih pa' pb x b xs' ys buf' (by simp at hf; omega) hx hb (hb'.mono (by omega))
      refine ⟨r, by simpa [pop_cons, bind, Except.bind] using h1, h2, ?_⟩
      intro c hc
      rw [h3 c hc, heq c hc]
    have stepB : b < a → ∀ buf' pb', (BufOk buf' b) →
        (∀ c, c < HIGH → (mem buf' c ^^ (pa && pb') ^^ ((pa ^^ mem (a :: xs) c) && (pb' ^^ mem ys c))) =
          (mem buf c ^^ (pa && pb) ^^ ((pa ^^ mem (a :: xs) c) && (pb ^^ mem (b :: ys) c)))) →
        ∃ r, (do let (b', ys') ← pop ys; retainLoop n pa pb' a b' xs ys' buf') = .ok r ∧ BufOk r HIGH ∧
          ∀ c, c < HIGH → mem r c =
            (mem buf c ^^ (pa && pb) ^^ ((pa ^^ mem (a :: xs) c) && (pb ^^ mem (b :: ys) c))) := by
      intro hlt buf' pb' hb' heq
      obtain ⟨y, ys', rfl, hy, hby, hyh⟩ := wf_pop hb (by omega)
      obtain ⟨r, h1, h2, h3⟩ := ih pa pb' a y xs ys' buf' (by simp at hf; omega) ha hy (hb'.mono (by omega))
      refine ⟨r, by simpa [pop_cons, bind, Except.bind] using h1, h2, ?_⟩
      intro c hc
      rw [h3 c hc, heq c hc]
    have stepAB : a = b → a ≠ HIGH → ∀ buf' pa' pb', (BufOk buf' a) →
        (∀ c, c < HIGH → (mem buf' c ^^ (pa' && pb') ^^ ((pa' ^^ mem xs c) && (pb' ^^ mem ys c))) =
          (mem buf c ^^ (pa && pb) ^^ ((pa ^^ mem (a :: xs) c) && (pb ^^ mem (b :: ys) c)))) →
        ∃ r, (do let (a', xs') ← pop xs; let (b', ys') ← pop ys; retainLoop n pa' pb' a' b' xs' ys' buf') = .ok r ∧
          BufOk r HIGH ∧ ∀ c, c < HIGH → mem r c =
            (mem buf c ^^ (pa && pb) ^^ ((pa ^^ mem (a :: xs) c) && (pb ^^ mem (b :: ys) c))) := by
      intro hlt hne buf' pa' pb' hb' heq
      obtain ⟨x, xs', rfl, hx, hax, hxh⟩ := wf_pop ha (by omega)
      obtain ⟨y, ys', rfl, hy, hby, hyh⟩ := wf_pop hb (by omega)
      obtain ⟨r, h1, h2, h3⟩ := ih pa' pb' x y xs' ys' buf' (by simp at hf; omega) hx hy (hb'.mono (by omega))
      refine ⟨r, by simpa [pop_cons, bind, Except.bind] using h1, h2, ?_⟩
      intro c hc
      rw [h3 c hc, heq c hc]
    have stop : a = b → a = HIGH → ∃ r, (.ok buf : Py (List Int)) = .ok r ∧ BufOk r HIGH ∧
          ∀ c, c < HIGH → mem r c =
            (mem buf c ^^ (pa && pb) ^^ ((pa ^^ mem (a :: xs) c) && (pb ^^ mem (b :: ys) c))) := by
      intro hab hh
      refine ⟨buf, rfl, hbuf.mono (by omega), ?_⟩
      intro c hc
      rw [mem_cons_gt (by omega), mem_cons_gt (by omega), mem_tail_false ha (by omega), mem_tail_false hb (by omega)]
      cases pa <;> cases pb <;> simp
    have hA := fun c (h : c < a) => mem_tail_false ha h
    have hB := fun c (h : c < b) => mem_tail_false hb h
    have pt : ∀ c, (c < a → mem xs c = false) ∧ (c < b → mem ys c = false) := fun c => ⟨hA c, hB c⟩
    cases pa <;> cases pb <;> rcases Int.lt_trichotomy a b with hlt | heq | hgt
    all_goals unfold retainLoop
    -- polarity 0
    · rw [if_pos hlt]
      exact stepA hlt buf true (hbuf.mono (by omega)) (fun c _ => by have := pt c; simp only [mem_cons]; grind)
    · rw [if_neg (by omega), if_neg (by omega)]
      split
      · exact stop heq (by assumption)
      · exact stepAB heq (by assumption) (a :: buf) true true
          (BufOk.push (hbuf.mono (by omega)) (by omega) (by omega) (by omega)) (fun c _ => by have := pt c; simp only [mem_cons]; grind)
    · rw [if_neg (by omega), if_pos hgt]
      exact stepB hgt buf true (hbuf.mono (by omega)) (fun c _ => by have := pt c; simp only [mem_cons]; grind)
    -- polarity 2
    · rw [if_neg (by omega), if_pos hlt]
      exact stepA hlt (a :: buf) true (BufOk.push (hbuf.mono (by omega)) (by omega) (by omega) (by omega))
        (fun c _ => by have := pt c; simp only [mem_cons]; grind)
    · rw [if_neg (by omega), if_neg (by omega)]
      split
      · exact stop heq (by assumption)
      · exact stepAB heq (by assumption) buf true false (hbuf.mono (by omega)) (fun c _ => by have := pt c; simp only [mem_cons]; grind)
    · rw [if_pos hgt]
      exact stepB hgt buf false (hbuf.mono (by omega)) (fun c _ => by have := pt c; simp only [mem_cons]; grind)
    -- polarity 1
    · rw [if_pos hlt]
      exact stepA hlt buf false (hbuf.mono (by omega)) (fun c _ => by have := pt c; simp only [mem_cons]; grind)
    · rw [if_neg (by omega), if_neg (by omega)]
      split
      · exact stop heq (by assumption)
      · exact stepAB heq (by assumption) buf false true (hbuf.mono (by omega)) (fun c _ => by have := pt c; simp only [mem_cons]; grind)
    · rw [if_neg (by omega), if_pos hgt]
      exact stepB hgt (b :: buf) true (BufOk.push (hbuf.mono (by omega)) (by omega) (by omega) (by omega))
        (fun c _ => by have := pt c; simp only [mem_cons]; grind)
    -- polarity 3
    · rw [if_pos hlt]
      exact stepA hlt (a :: buf) false (BufOk.push (hbuf.mono (by omega)) (by omega) (by omega) (by omega))
        (fun c _ => by have := pt c; simp only [mem_cons]; grind)
    · rw [if_neg (by omega), if_neg (by omega)]
      split
      · exact stop heq (by assumption)
      · exact stepAB heq (by assumption) (a :: buf) false false
          (BufOk.push (hbuf.mono (by omega)) (by omega) (by omega) (by omega)) (fun c _ => by have := pt c; simp only [mem_cons]; grind)
    · rw [if_neg (by omega), if_pos hgt]
      exact stepB hgt (b :: buf) false (BufOk.push (hbuf.mono (by omega)) (by omega) (by omega) (by omega))
        (fun c _ => by have := pt c; simp only [mem_cons]; grind)

theorem wf_of_buf {buf : List Int} (h : BufOk buf HIGH) : WellFormed (buf.reverse ++ [HIGH]) := by
  refine ⟨?_, ?_, by simp [HIGH]⟩
  · rw [List.pairwise_append]
    refine ⟨?_, by simp, ?_⟩
    · rw [List.pairwise_reverse]
      exact h.1.imp (fun hab => hab)
    · intro x hx y hy
      simp at hx hy
      have := h.2 x hx
      omega
  · intro x hx
    simp at hx
    rcases hx with hx | rfl
    · have := h.2 x hx
      simp [HIGH] at this
      omega
    · simp [HIGH]

theorem mem_finish {buf : List Int} {c : Int} (hc : c < HIGH) : mem (buf.reverse ++ [HIGH]) c = mem buf c := by
  rw [mem_append, mem_reverse, mem_cons_gt hc]; simp

theorem wf_cases {l : List Int} (h : WellFormed l) : ∃ a xs, l = a :: xs := by
  cases l with
  | nil => have := h.2.2; simp at this
  | cons a xs => exact ⟨a, xs, rfl⟩

theorem retainList_ok {l m : List Int} (hl : WellFormed l) (hm : WellFormed m) (pa pb : Bool) :
    ∃ r, retainList l m pa pb = .ok r ∧ WellFormed r ∧
      ∀ c, c < HIGH → mem r c = ((pa && pb) ^^ ((pa ^^ mem l c) && (pb ^^ mem m c))) := by
  obtain ⟨a, xs, rfl⟩ := wf_cases hl
  obtain ⟨b, ys, rfl⟩ := wf_cases hm
  obtain ⟨r, h1, h2, h3⟩ := retainLoop_ok (xs.length + ys.length + 1) pa pb a b xs ys [] (by omega) hl hm (bufOk_nil _)
  refine ⟨r.reverse ++ [HIGH], ?_, wf_of_buf h2, ?_⟩
  · unfold retainList
    simp [pop_cons, bind, Except.bind, pure, Except.pure, h1]
  · intro c hc
    rw [mem_finish hc, h3 c hc]
    simp

theorem xorLoop_ok : ∀ (fuel : Nat) (a b : Int) (xs ys buf : List Int),
    xs.length + ys.length < fuel → WellFormed (a :: xs) → WellFormed (b :: ys) →
    BufOk buf (min a b) →
    ∃ r, xorLoop fuel a b xs ys buf = .ok (HIGH :: r) ∧ BufOk r HIGH ∧
      ∀ c, c < HIGH → mem r c = (mem buf c ^^ mem (a :: xs) c ^^ mem (b :: ys) c) := by
  intro fuel
  induction fuel with
  | zero => intro _ _ _ _ _ h; omega
  | succ n ih =>
    intro a b xs ys buf hf ha hb hbuf
    have ha0 := wf_head ha
    have hb0 := wf_head hb
    unfold xorLoop
    rcases Int.lt_trichotomy a b with hlt | heq | hgt
    · rw [if_pos hlt]
      obtain ⟨x, xs', rfl, hx, hax, hxh⟩ := wf_pop ha (by omega)
      obtain ⟨r, h1, h2, h3⟩ := ih x b xs' ys (a :: buf) (by simp at hf; omega) hx hb
        (BufOk.push (hbuf.mono (by omega)) (by omega) (by omega) (by omega))
      refine ⟨r, by simpa [pop_cons, bind, Except.bind] using h1, h2, ?_⟩
      intro c hc
      rw [h3 c hc]; simp only [mem_cons]; grind
    · rw [if_neg (by omega), if_neg (by omega)]
      by_cases hh : a = HIGH
      · rw [if_neg (by simpa using hh)]
        refine ⟨buf, rfl, hbuf.mono (by omega), ?_⟩
        intro c hc
        rw [mem_cons_gt (by omega), mem_cons_gt (by omega), mem_tail_false ha (by omega), mem_tail_false hb (by omega)]
        simp
      · rw [if_pos hh]
        obtain ⟨x, xs', rfl, hx, hax, hxh⟩ := wf_pop ha (by omega)
        obtain ⟨y, ys', rfl, hy, hby, hyh⟩ := wf_pop hb (by omega)
        obtain ⟨r, h1, h2, h3⟩ := ih x y xs' ys' buf (by simp at hf; omega) hx hy (hbuf.mono (by omega))
        refine ⟨r, by simpa [pop_cons, bind, Except.bind] using h1, h2, ?_⟩
        intro c hc
        rw [h3 c hc]; subst heq; simp only [mem_cons]; grind
    · rw [if_neg (by omega), if_pos hgt]
      obtain ⟨y, ys', rfl, hy, hby, hyh⟩ := wf_pop hb (by omega)
      obtain ⟨r, h1, h2, h3⟩ := ih a y xs ys' (b :: buf) (by simp at hf; omega) ha hy
        (BufOk.push (hbuf.mono (by omega)) (by omega) (by omega) (by omega))
      refine ⟨r, by simpa [pop_cons, bind, Except.bind] using h1, h2, ?_⟩
      intro c hc
      rw [h3 c hc]; simp only [mem_cons]; grind

theorem exclusiveOrList_ok {l m : List Int} (hl : WellFormed l) (hm : WellFormed m) :
    ∃ r, exclusiveOrList l m = .ok r ∧ WellFormed r ∧
      ∀ c, c < HIGH → mem r c = (mem l c ^^ mem m c) := by
  obtain ⟨a, xs, rfl⟩ := wf_cases hl
  obtain ⟨b, ys, rfl⟩ := wf_cases hm
  obtain ⟨r, h1, h2, h3⟩ := xorLoop_ok (xs.length + ys.length + 1) a b xs ys [] (by omega) hl hm (bufOk_nil _)
  refine ⟨r.reverse ++ [HIGH], ?_, wf_of_buf h2, ?_⟩
  · unfold exclusiveOrList
    simp [pop_cons, bind, Except.bind, pure, Except.pure, h1]
  · intro c hc
    rw [mem_finish hc, h3 c hc]
    simp

end Verif.USet

import Verif.Lemmas.USetMerge
/-! Correctness of the union loop `_addList`. -/
namespace Verif.USet
open Verif.Spec

/-- Closed ranges already written: descending, even number of boundaries, all at most `s`. -/
def Closed (rest : List Int) (s : Int) : Prop :=
  rest.Pairwise (· ≥ ·) ∧ (∀ x ∈ rest, 0 ≤ x ∧ x ≤ s) ∧ rest.length % 2 = 0 ∧ 0 ≤ s ∧ s < HIGH

/-- Unread part of one operand. `p` tells whether its current boundary `a` is the end of a range. -/
def TailOk (p : Bool) (a : Int) (xs : List Int) (s : Int) : Prop :=
  s ≤ a ∧ a ≤ HIGH ∧ (∀ x ∈ xs, s ≤ x) ∧
  match p with
  | false => WellFormed (a :: xs)
  | true => xs.Pairwise (· ≤ ·) ∧ (∀ x ∈ xs, 0 ≤ x ∧ x ≤ HIGH) ∧ (a < HIGH → WellFormed xs)

/-- Shape of the output buffer: with an open range it starts with the start `s` of that range, without
one it is empty or starts with the last closed range `[s, e)`. -/
def BufShape (pa pb : Bool) (s : Int) (buf : List Int) : Prop :=
  match pa || pb with
  | false => (buf = [] ∧ s = 0) ∨ ∃ e rest, buf = e :: s :: rest ∧ s ≤ e ∧ e < HIGH ∧ Closed rest s
  | true => ∃ rest, buf = s :: rest ∧ Closed rest s

def openEnd (pa pb : Bool) (a b : Int) (buf : List Int) : List Int :=
  match pa, pb with
  | false, false => buf
  | true, false => a :: buf
  | false, true => b :: buf
  | true, true => max a b :: buf

def unread (p : Bool) (a : Int) (xs : List Int) : List Int :=
  match p with
  | false => a :: xs
  | true => xs

def AddTarget (pa pb : Bool) (a b : Int) (xs ys buf : List Int) (c : Int) : Bool :=
  mem (openEnd pa pb a b buf) c || mem (unread pa a xs) c || mem (unread pb b ys) c

theorem Closed.mem_false {rest : List Int} {s c : Int} (h : Closed rest s) (hc : s ≤ c) : mem rest c = false := by
  rw [mem_of_all_le (fun y hy => by have := (h.2.1 y hy).2; omega)]
  simp [h.2.2.1]

theorem Closed.nil : Closed [] 0 := ⟨List.Pairwise.nil, by simp, by simp, by simp, by simp [HIGH]⟩

theorem Closed.push2 {rest : List Int} {s e s' : Int} (h : Closed rest s) (hse : s ≤ e) (hes : e ≤ s') (hs : s' < HIGH) :
    Closed (e :: s :: rest) s' := by
  obtain ⟨h1, h2, h3, h4, h5⟩ := h
  refine ⟨?_, ?_, by simp; omega, by omega, hs⟩
  · rw [List.pairwise_cons, List.pairwise_cons]
    refine ⟨?_, fun x hx => (h2 x hx).2, h1⟩
    intro x hx
    simp at hx
    rcases hx with rfl | hx
    · exact hse
    · have := (h2 x hx).2; omega
  · intro x hx
    simp at hx
    rcases hx with rfl | rfl | hx
    · omega
    · omega
    · have := h2 x hx; omega

theorem Closed.buf {rest : List Int} {s : Int} (h : Closed rest s) : BufOk (s :: rest) HIGH := by
  obtain ⟨h1, h2, h3, h4, h5⟩ := h
  constructor
  · rw [List.pairwise_cons]
    exact ⟨fun x hx => (h2 x hx).2, h1⟩
  · intro x hx
    simp at hx
    rcases hx with rfl | hx
    · omega
    · have := h2 x hx; omega

theorem mem_false_of_ge {xs : List Int} {s c : Int} (h : ∀ x ∈ xs, s ≤ x) (hc : c < s) : mem xs c = false :=
  mem_of_all_gt (fun y hy => by have := h y hy; omega)

/-- Reading the next boundary when the current one is a start below 0x110000. -/
theorem tail_first {a : Int} {xs : List Int} {s : Int} (h : TailOk false a xs s) (ha : a < HIGH) :
    ∃ x xs', xs = x :: xs' ∧ a ≤ x ∧ x ≤ HIGH ∧ (∀ y ∈ xs', a ≤ y) ∧ (∀ y ∈ xs', x ≤ y) ∧
      xs'.Pairwise (· ≤ ·) ∧ (∀ y ∈ xs', 0 ≤ y ∧ y ≤ HIGH) ∧ (x < HIGH → WellFormed xs') := by
  obtain ⟨_, _, _, hw⟩ := h
  simp only at hw
  obtain ⟨x, xs', rfl, hx, hax, hxh⟩ := wf_pop hw ha
  have hp := List.pairwise_cons.mp hx.1
  refine ⟨x, xs', rfl, hax, hxh, ?_, hp.1, hp.2, fun y hy => hx.2.1 y (by simp [hy]), ?_⟩
  · intro y hy
    have := hp.1 y hy
    omega
  · intro hlt
    obtain ⟨y, ys, rfl, hy, _, _⟩ := wf_pop hx hlt
    exact hy

/-- Reading the next boundary when the current one is an end below 0x110000. -/
theorem tail_second {a : Int} {xs : List Int} {s : Int} (h : TailOk true a xs s) (ha : a < HIGH) :
    ∃ x xs', xs = x :: xs' ∧ s ≤ x ∧ TailOk false x xs' s := by
  obtain ⟨h1, h2, h3, _, _, h4⟩ := h
  have hw := h4 ha
  obtain ⟨x, xs', rfl⟩ := wf_cases hw
  exact ⟨x, xs', rfl, h3 x (by simp), h3 x (by simp), (wf_head hw).2, fun y hy => h3 y (by simp [hy]), hw⟩

theorem tail_mono {p : Bool} {a : Int} {xs : List Int} {s s' : Int} (h : TailOk p a xs s)
    (h1 : s' ≤ a) (h2 : ∀ x ∈ xs, s' ≤ x) : TailOk p a xs s' := ⟨h1, h.2.1, h2, h.2.2.2⟩

theorem tail_first_ge {a : Int} {xs : List Int} {s : Int} (h : TailOk false a xs s) : ∀ x ∈ xs, a ≤ x := by
  obtain ⟨_, _, _, hw⟩ := h
  exact (List.pairwise_cons.mp hw.1).1

theorem addLoop_ok : ∀ (fuel : Nat) (pa pb : Bool) (a b : Int) (xs ys buf : List Int) (s : Int),
    xs.length + ys.length < fuel → TailOk pa a xs s → TailOk pb b ys s → BufShape pa pb s buf →
    ∃ r, addLoop fuel pa pb a b xs ys buf = .ok r ∧ BufOk r HIGH ∧
      ∀ c, c < HIGH → mem r c = AddTarget pa pb a b xs ys buf c := by
  intro fuel
  induction fuel with
  | zero => intro _ _ _ _ _ _ _ _ h; omega
  | succ n ih =>
    intro pa pb a b xs ys buf s hf ha hb hbuf
    cases pa <;> cases pb
    · -- polarity 0
      have hga := tail_first_ge ha
      have hgb := tail_first_ge hb
      have hpost : ∀ {e : Int} {rest : List Int}, buf = e :: s :: rest → s ≤ e → Closed rest s →
          (∀ c, s ≤ c → mem rest c = false) := fun _ _ hc c h => hc.mem_false h
      rcases Int.lt_trichotomy a b with hlt | heq | hgt
      · -- a < b
        have hah : a < HIGH := by have := hb.2.1; omega
        obtain ⟨x, xs', rfl, hax, hxh, hxa, hxx, hxp, hxb, hxw⟩ := tail_first ha hah
        have hbt : TailOk false b ys a := tail_mono hb (by omega) (fun y hy => by have := hgb y hy; omega)
        have ha0 : 0 ≤ a := (wf_head ha.2.2.2).1
        simp only [BufShape, Bool.or_self] at hbuf
        rcases hbuf with ⟨rfl, rfl⟩ | ⟨e, rest, rfl, hse, heh, hcl⟩
        · obtain ⟨r, h1, h2, h3⟩ := ih true false x b xs' ys [a] a (by simp at hf; omega)
            ⟨hax, hxh, hxa, hxp, hxb, hxw⟩ hbt
            ⟨[], rfl, List.Pairwise.nil, by simp, by simp, ha0, hah⟩
          refine ⟨r, ?_, h2, ?_⟩
          · unfold addLoop; rw [if_pos hlt]; simpa [pop_cons, bind, Except.bind] using h1
          · intro c hc
            rw [h3 c hc]
            have := fun (h : c < x) => mem_false_of_ge hxx h
            simp only [AddTarget, openEnd, unread, mem_cons, mem_nil]; grind
        · by_cases hle : a ≤ e
          · obtain ⟨r, h1, h2, h3⟩ := ih true false (max x e) b xs' ys (s :: rest) s (by simp at hf; omega)
              ⟨by omega, by omega, fun y hy => by have := hxa y hy; have := ha.1; omega, hxp, hxb,
                fun h => hxw (by omega)⟩ hb
              ⟨rest, rfl, hcl⟩
            refine ⟨r, ?_, h2, ?_⟩
            · unfold addLoop; rw [if_pos hlt]; simp only [if_pos hle]; simpa [pop_cons, bind, Except.bind] using h1
            · intro c hc
              rw [h3 c hc]
              have h5 := fun (h : c < x) => mem_false_of_ge hxx h
              have h6 := fun (h : s ≤ c) => hcl.mem_false h
              have h7 := ha.1
              simp only [AddTarget, openEnd, unread, mem_cons]; grind
          · obtain ⟨r, h1, h2, h3⟩ := ih true false x b xs' ys (a :: e :: s :: rest) a (by simp at hf; omega)
              ⟨hax, hxh, hxa, hxp, hxb, hxw⟩ hbt
              ⟨e :: s :: rest, rfl, hcl.push2 hse (by omega) hah⟩
            refine ⟨r, ?_, h2, ?_⟩
            · unfold addLoop; rw [if_pos hlt]; simp only [if_neg hle]; simpa [pop_cons, bind, Except.bind] using h1
            · intro c hc
              rw [h3 c hc]
              have h5 := fun (h : c < x) => mem_false_of_ge hxx h
              have h6 := fun (h : s ≤ c) => hcl.mem_false h
              have h7 := ha.1
              simp only [AddTarget, openEnd, unread, mem_cons]; grind
      · -- a = b
        by_cases hh : a = HIGH
        · refine ⟨buf, ?_, ?_, ?_⟩
          · unfold addLoop; rw [if_neg (by omega), if_neg (by omega), if_pos hh]
          · simp only [BufShape, Bool.or_self] at hbuf
            rcases hbuf with ⟨rfl, rfl⟩ | ⟨e, rest, rfl, hse, heh, hcl⟩
            · exact bufOk_nil _
            · have := hcl.2.2.2.1
              exact BufOk.push (BufOk.push (hcl.buf.2 s (by simp) |> fun _ => ⟨hcl.1, fun x hx => by have := hcl.2.1 x hx; have := hcl.2.2.2.2; omega⟩) hcl.2.2.2.1 hcl.2.2.2.2 hse) (by omega) heh (by omega)
          · intro c hc
            have h1 := mem_false_of_ge hga (c := c) (by omega)
            have h2 := mem_false_of_ge hgb (c := c) (by omega)
            simp only [AddTarget, openEnd, unread, mem_cons]; grind
        · have hah : a < HIGH := by have := ha.2.1; omega
          obtain ⟨x, xs', rfl, hax, hxh, hxa, hxx, hxp, hxb, hxw⟩ := tail_first ha hah
          obtain ⟨y, ys', rfl, hby, hyh, hyb, hyy, hyp, hyb2, hyw⟩ := tail_first hb (by omega)
          have ha0 : 0 ≤ a := (wf_head ha.2.2.2).1
          simp only [BufShape, Bool.or_self] at hbuf
          rcases hbuf with ⟨rfl, rfl⟩ | ⟨e, rest, rfl, hse, heh, hcl⟩
          · obtain ⟨r, h1, h2, h3⟩ := ih true true x y xs' ys' [a] a (by simp at hf; omega)
              ⟨hax, hxh, hxa, hxp, hxb, hxw⟩ ⟨by omega, hyh, fun y hy => by have := hyb y hy; omega, hyp, hyb2, hyw⟩
              ⟨[], rfl, List.Pairwise.nil, by simp, by simp, ha0, hah⟩
            refine ⟨r, ?_, h2, ?_⟩
            · unfold addLoop; rw [if_neg (by omega), if_neg (by omega), if_neg hh]; simpa [pop_cons, bind, Except.bind] using h1
            · intro c hc
              rw [h3 c hc]
              have := fun (h : c < x) => mem_false_of_ge hxx h
              have := fun (h : c < y) => mem_false_of_ge hyy h
              simp only [AddTarget, openEnd, unread, mem_cons, mem_nil]; grind
          · by_cases hle : a < e
            · obtain ⟨r, h1, h2, h3⟩ := ih true true (max x e) y xs' ys' (s :: rest) s (by simp at hf; omega)
                ⟨by omega, by omega, fun y hy => by have := hxa y hy; have := ha.1; omega, hxp, hxb,
                  fun h => hxw (by omega)⟩
                ⟨by have := hb.1; omega, by omega, fun y hy => by have := hyb y hy; have := hb.1; omega, hyp, hyb2, hyw⟩
                ⟨rest, rfl, hcl⟩
              refine ⟨r, ?_, h2, ?_⟩
              · unfold addLoop; rw [if_neg (by omega), if_neg (by omega), if_neg hh]; simp only [if_pos hle]; simpa [pop_cons, bind, Except.bind] using h1
              · intro c hc
                rw [h3 c hc]
                have h5 := fun (h : c < x) => mem_false_of_ge hxx h
                have h8 := fun (h : c < y) => mem_false_of_ge hyy h
                have h6 := fun (h : s ≤ c) => hcl.mem_false h
                have h7 := ha.1
                simp only [AddTarget, openEnd, unread, mem_cons]; grind
            · obtain ⟨r, h1, h2, h3⟩ := ih true true x y xs' ys' (a :: e :: s :: rest) a (by simp at hf; omega)
                ⟨hax, hxh, hxa, hxp, hxb, hxw⟩ ⟨by omega, hyh, fun y hy => by have := hyb y hy; omega, hyp, hyb2, hyw⟩
                ⟨e :: s :: rest, rfl, hcl.push2 hse (by omega) hah⟩
              refine ⟨r, ?_, h2, ?_⟩
              · unfold addLoop; rw [if_neg (by omega), if_neg (by omega), if_neg hh]; simp only [if_neg hle]; simpa [pop_cons, bind, Except.bind] using h1
              · intro c hc
                rw [h3 c hc]
                have h5 := fun (h : c < x) => mem_false_of_ge hxx h
                have h8 := fun (h : c < y) => mem_false_of_ge hyy h
                have h6 := fun (h : s ≤ c) => hcl.mem_false h
                have h7 := ha.1
                simp only [AddTarget, openEnd, unread, mem_cons]; grind
      · -- b < a
        have hbh : b < HIGH := by have := ha.2.1; omega
        obtain ⟨y, ys', rfl, hby, hyh, hyb, hyy, hyp, hyb2, hyw⟩ := tail_first hb hbh
        have hat : TailOk false a xs b := tail_mono ha (by omega) (fun y hy => by have := hga y hy; omega)
        have hb0 : 0 ≤ b := (wf_head hb.2.2.2).1
        simp only [BufShape, Bool.or_self] at hbuf
        rcases hbuf with ⟨rfl, rfl⟩ | ⟨e, rest, rfl, hse, heh, hcl⟩
        · obtain ⟨r, h1, h2, h3⟩ := ih false true a y xs ys' [b] b (by simp at hf; omega)
            hat ⟨hby, hyh, hyb, hyp, hyb2, hyw⟩
            ⟨[], rfl, List.Pairwise.nil, by simp, by simp, hb0, hbh⟩
          refine ⟨r, ?_, h2, ?_⟩
          · unfold addLoop; rw [if_neg (by omega), if_pos hgt]; simpa [pop_cons, bind, Except.bind] using h1
          · intro c hc
            rw [h3 c hc]
            have := fun (h : c < y) => mem_false_of_ge hyy h
            simp only [AddTarget, openEnd, unread, mem_cons, mem_nil]; grind
        · by_cases hle : b < e
          · obtain ⟨r, h1, h2, h3⟩ := ih false true a (max y e) xs ys' (s :: rest) s (by simp at hf; omega) ha
              ⟨by omega, by omega, fun y hy => by have := hyb y hy; have := hb.1; omega, hyp, hyb2,
                fun h => hyw (by omega)⟩
              ⟨rest, rfl, hcl⟩
            refine ⟨r, ?_, h2, ?_⟩
            · unfold addLoop; rw [if_neg (by omega), if_pos hgt]; simp only [if_pos hle]; simpa [pop_cons, bind, Except.bind] using h1
            · intro c hc
              rw [h3 c hc]
              have h5 := fun (h : c < y) => mem_false_of_ge hyy h
              have h6 := fun (h : s ≤ c) => hcl.mem_false h
              have h7 := hb.1
              simp only [AddTarget, openEnd, unread, mem_cons]; grind
          · obtain ⟨r, h1, h2, h3⟩ := ih false true a y xs ys' (b :: e :: s :: rest) b (by simp at hf; omega)
              hat ⟨hby, hyh, hyb, hyp, hyb2, hyw⟩
              ⟨e :: s :: rest, rfl, hcl.push2 hse (by omega) hbh⟩
            refine ⟨r, ?_, h2, ?_⟩
            · unfold addLoop; rw [if_neg (by omega), if_pos hgt]; simp only [if_neg hle]; simpa [pop_cons, bind, Except.bind] using h1
            · intro c hc
              rw [h3 c hc]
              have h5 := fun (h : c < y) => mem_false_of_ge hyy h
              have h6 := fun (h : s ≤ c) => hcl.mem_false h
              have h7 := hb.1
              simp only [AddTarget, openEnd, unread, mem_cons]; grind
    · -- polarity 2
      obtain ⟨rest, rfl, hcl⟩ := hbuf
      have hga := tail_first_ge ha
      have hsa := ha.1
      have hsb := hb.1
      have hys := hb.2.2.1
      have h6 := fun c (h : s ≤ c) => hcl.mem_false h
      rcases Int.lt_trichotomy a b with hlt | heq | hgt
      · have hah : a < HIGH := by have := hb.2.1; omega
        obtain ⟨x, xs', rfl, hax, hxh, hxa, hxx, hxp, hxb, hxw⟩ := tail_first ha hah
        obtain ⟨r, h1, h2, h3⟩ := ih true true x b xs' ys (s :: rest) s (by simp at hf; omega)
          ⟨by omega, hxh, fun y hy => by have := hxa y hy; omega, hxp, hxb, hxw⟩ hb ⟨rest, rfl, hcl⟩
        refine ⟨r, ?_, h2, ?_⟩
        · unfold addLoop; rw [if_neg (by omega), if_pos hlt]; simpa [pop_cons, bind, Except.bind] using h1
        · intro c hc
          rw [h3 c hc]
          have h5 := fun (h : c < x) => mem_false_of_ge hxx h
          have h8 := fun (h : c < s) => mem_false_of_ge hys h
          have h6 := h6 c
          simp only [AddTarget, openEnd, unread, mem_cons]; grind
      · by_cases hh : a = HIGH
        · refine ⟨s :: rest, ?_, hcl.buf, ?_⟩
          · unfold addLoop; rw [if_neg (by omega), if_neg (by omega), if_pos hh]
          · intro c hc
            have h1 := mem_false_of_ge hga (c := c) (by omega)
            have h8 := fun (h : c < s) => mem_false_of_ge hys h
            have h6 := h6 c
            simp only [AddTarget, openEnd, unread, mem_cons]; grind
        · have hah : a < HIGH := by have := ha.2.1; omega
          obtain ⟨x, xs', rfl, hax, hxh, hxa, hxx, hxp, hxb, hxw⟩ := tail_first ha hah
          obtain ⟨y, ys', rfl, hsy, hyt⟩ := tail_second hb (by omega)
          obtain ⟨r, h1, h2, h3⟩ := ih true false x y xs' ys' (s :: rest) s (by simp at hf; omega)
            ⟨by omega, hxh, fun y hy => by have := hxa y hy; omega, hxp, hxb, hxw⟩ hyt ⟨rest, rfl, hcl⟩
          refine ⟨r, ?_, h2, ?_⟩
          · unfold addLoop; rw [if_neg (by omega), if_neg (by omega), if_neg hh]; simpa [pop_cons, bind, Except.bind] using h1
          · intro c hc
            rw [h3 c hc]
            have h5 := fun (h : c < x) => mem_false_of_ge hxx h
            have h8 := fun (h : c < y) => mem_false_of_ge (tail_first_ge hyt) h
            have h6 := h6 c
            simp only [AddTarget, openEnd, unread, mem_cons]; grind
      · have hbh : b < HIGH := by have := ha.2.1; omega
        obtain ⟨y, ys', rfl, hsy, hyt⟩ := tail_second hb hbh
        obtain ⟨r, h1, h2, h3⟩ := ih false false a y xs ys' (b :: s :: rest) s (by simp at hf; omega)
          ha hyt (Or.inr ⟨b, rest, rfl, hsb, hbh, hcl⟩)
        refine ⟨r, ?_, h2, ?_⟩
        · unfold addLoop; rw [if_pos hgt]; simpa [pop_cons, bind, Except.bind] using h1
        · intro c hc
          rw [h3 c hc]
          simp only [AddTarget, openEnd, unread, mem_cons]
    · -- polarity 1
      obtain ⟨rest, rfl, hcl⟩ := hbuf
      have hgb := tail_first_ge hb
      have hsa := ha.1
      have hsb := hb.1
      have hxs := ha.2.2.1
      have h6 := fun c (h : s ≤ c) => hcl.mem_false h
      rcases Int.lt_trichotomy a b with hlt | heq | hgt
      · have hah : a < HIGH := by have := hb.2.1; omega
        obtain ⟨x, xs', rfl, hsx, hxt⟩ := tail_second ha hah
        obtain ⟨r, h1, h2, h3⟩ := ih false false x b xs' ys (a :: s :: rest) s (by simp at hf; omega)
          hxt hb (Or.inr ⟨a, rest, rfl, hsa, hah, hcl⟩)
        refine ⟨r, ?_, h2, ?_⟩
        · unfold addLoop; rw [if_pos hlt]; simpa [pop_cons, bind, Except.bind] using h1
        · intro c hc
          rw [h3 c hc]
          simp only [AddTarget, openEnd, unread, mem_cons]
      · by_cases hh : a = HIGH
        · refine ⟨s :: rest, ?_, hcl.buf, ?_⟩
          · unfold addLoop; rw [if_neg (by omega), if_neg (by omega), if_pos hh]
          · intro c hc
            have h1 := mem_false_of_ge hgb (c := c) (by omega)
            have h8 := fun (h : c < s) => mem_false_of_ge hxs h
            have h6 := h6 c
            simp only [AddTarget, openEnd, unread, mem_cons]; grind
        · have hah : a < HIGH := by have := ha.2.1; omega
          obtain ⟨y, ys', rfl, hby, hyh, hyb, hyy, hyp, hyb2, hyw⟩ := tail_first hb (by omega)
          obtain ⟨x, xs', rfl, hsx, hxt⟩ := tail_second ha hah
          obtain ⟨r, h1, h2, h3⟩ := ih false true x y xs' ys' (s :: rest) s (by simp at hf; omega)
            hxt ⟨by omega, hyh, fun z hz => by have := hyb z hz; omega, hyp, hyb2, hyw⟩ ⟨rest, rfl, hcl⟩
          refine ⟨r, ?_, h2, ?_⟩
          · unfold addLoop; rw [if_neg (by omega), if_neg (by omega), if_neg hh]; simpa [pop_cons, bind, Except.bind] using h1
          · intro c hc
            rw [h3 c hc]
            have h5 := fun (h : c < y) => mem_false_of_ge hyy h
            have h8 := fun (h : c < x) => mem_false_of_ge (tail_first_ge hxt) h
            have h6 := h6 c
            simp only [AddTarget, openEnd, unread, mem_cons]; grind
      · have hbh : b < HIGH := by have := ha.2.1; omega
        obtain ⟨y, ys', rfl, hby, hyh, hyb, hyy, hyp, hyb2, hyw⟩ := tail_first hb hbh
        obtain ⟨r, h1, h2, h3⟩ := ih true true a y xs ys' (s :: rest) s (by simp at hf; omega)
          ha ⟨by omega, hyh, fun z hz => by have := hyb z hz; omega, hyp, hyb2, hyw⟩ ⟨rest, rfl, hcl⟩
        refine ⟨r, ?_, h2, ?_⟩
        · unfold addLoop; rw [if_neg (by omega), if_pos hgt]; simpa [pop_cons, bind, Except.bind] using h1
        · intro c hc
          rw [h3 c hc]
          have h5 := fun (h : c < y) => mem_false_of_ge hyy h
          have h8 := fun (h : c < s) => mem_false_of_ge hxs h
          have h6 := h6 c
          simp only [AddTarget, openEnd, unread, mem_cons]; grind
    · -- polarity 3
      obtain ⟨rest, rfl, hcl⟩ := hbuf
      have hsa := ha.1
      have hsb := hb.1
      have hah := ha.2.1
      have hbh := hb.2.1
      have hxs := ha.2.2.1
      have hys := hb.2.2.1
      have h6 := fun c (h : s ≤ c) => hcl.mem_false h
      have stop : max a b = HIGH → ∀ c, c < HIGH → mem (s :: rest) c = AddTarget true true a b xs ys (s :: rest) c := by
        intro hm c hc
        have h8 := fun (h : c < s) => mem_false_of_ge hxs h
        have h9 := fun (h : c < s) => mem_false_of_ge hys h
        have h6 := h6 c
        simp only [AddTarget, openEnd, unread, mem_cons, hm]; grind
      by_cases hle : b ≤ a
      · by_cases hh : a = HIGH
        · refine ⟨s :: rest, ?_, hcl.buf, stop (by omega)⟩
          unfold addLoop; rw [if_pos hle, if_pos hh]
        · obtain ⟨x, xs', rfl, hsx, hxt⟩ := tail_second ha (by omega)
          obtain ⟨y, ys', rfl, hsy, hyt⟩ := tail_second hb (by omega)
          obtain ⟨r, h1, h2, h3⟩ := ih false false x y xs' ys' (a :: s :: rest) s (by simp at hf; omega)
            hxt hyt (Or.inr ⟨a, rest, rfl, hsa, by omega, hcl⟩)
          refine ⟨r, ?_, h2, ?_⟩
          · unfold addLoop; rw [if_pos hle, if_neg hh]; simpa [pop_cons, bind, Except.bind] using h1
          · intro c hc
            rw [h3 c hc]
            simp only [AddTarget, openEnd, unread, mem_cons, show max a b = a by omega]
      · by_cases hh : b = HIGH
        · refine ⟨s :: rest, ?_, hcl.buf, stop (by omega)⟩
          unfold addLoop; rw [if_neg hle, if_pos hh]
        · obtain ⟨x, xs', rfl, hsx, hxt⟩ := tail_second ha (by omega)
          obtain ⟨y, ys', rfl, hsy, hyt⟩ := tail_second hb (by omega)
          obtain ⟨r, h1, h2, h3⟩ := ih false false x y xs' ys' (b :: s :: rest) s (by simp at hf; omega)
            hxt hyt (Or.inr ⟨b, rest, rfl, hsb, by omega, hcl⟩)
          refine ⟨r, ?_, h2, ?_⟩
          · unfold addLoop; rw [if_neg hle, if_neg hh]; simpa [pop_cons, bind, Except.bind] using h1
          · intro c hc
            rw [h3 c hc]
            simp only [AddTarget, openEnd, unread, mem_cons, show max a b = b by omega]

theorem tailOk_init {a : Int} {xs : List Int} (h : WellFormed (a :: xs)) : TailOk false a xs 0 :=
  ⟨(wf_head h).1, (wf_head h).2, fun x hx => (h.2.1 x (by simp [hx])).1, h⟩

theorem addList_ok {l m : List Int} (hl : WellFormed l) (hm : WellFormed m) :
    ∃ r, addList l m = .ok r ∧ WellFormed r ∧
      ∀ c, c < HIGH → mem r c = (mem l c || mem m c) := by
  obtain ⟨a, xs, rfl⟩ := wf_cases hl
  obtain ⟨b, ys, rfl⟩ := wf_cases hm
  obtain ⟨r, h1, h2, h3⟩ := addLoop_ok (xs.length + ys.length + 1) false false a b xs ys [] 0 (by omega)
    (tailOk_init hl) (tailOk_init hm) (Or.inl ⟨rfl, rfl⟩)
  refine ⟨r.reverse ++ [HIGH], ?_, wf_of_buf h2, ?_⟩
  · unfold addList
    simp [pop_cons, bind, Except.bind, pure, Except.pure, h1]
  · intro c hc
    rw [mem_finish hc, h3 c hc]
    simp [AddTarget, openEnd, unread]

end Verif.USet

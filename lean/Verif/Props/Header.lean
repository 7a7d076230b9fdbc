import Verif.Model.Header
import Verif.Spec.Header
/-!
# Reading C headers: `HeaderToPtyhon.py` (C60)
-/
namespace Verif.Header.Props
open Verif.Header.Spec

theorem prefix_has {p s : Str} (h : p.isPrefixOf s = true) : has p s = true := by
  cases s with
  | nil => exact h
  | cons c s => unfold has; rw [h]; rfl

theorem suffix_has {p : Str} : ∀ {s : Str}, p.isSuffixOf s = true → has p s = true := by
  intro s h
  rw [List.isSuffixOf_iff_suffix] at h
  obtain ⟨t, rfl⟩ := h
  induction t with
  | nil => exact prefix_has (by simp)
  | cons c t ih => rw [List.cons_append, has, ih]; simp

theorem prefix_excl {a b s : Str} (h : a.isPrefixOf s = true) (hb : b.isPrefixOf s = true) (hl : a.length ≤ b.length) :
    a.isPrefixOf b = true := by
  rw [List.isPrefixOf_iff_prefix] at *
  exact List.prefix_of_prefix_length_le h hb hl

/-- The reader at a line that begins with `#if`. -/
theorem if_not {s : Str} (h : (txt "#if").isPrefixOf s = true) :
    s ≠ [] ∧ (txt "//").isPrefixOf s = false ∧ (txt "/*").isPrefixOf s = false := by
  refine ⟨?_, ?_, ?_⟩
  · rintro rfl; exact absurd h (by decide)
  · cases e : (txt "//").isPrefixOf s with
    | false => rfl
    | true => exact absurd (prefix_excl e h (by decide)) (by decide)
  · cases e : (txt "/*").isPrefixOf s with
    | false => rfl
    | true => exact absurd (prefix_excl e h (by decide)) (by decide)

theorem endif_not {s : Str} (h : (txt "#endif").isPrefixOf s = true) :
    s ≠ [] ∧ (txt "//").isPrefixOf s = false ∧ (txt "/*").isPrefixOf s = false ∧ (txt "#if").isPrefixOf s = false := by
  refine ⟨?_, ?_, ?_, ?_⟩
  · rintro rfl; exact absurd h (by decide)
  · cases e : (txt "//").isPrefixOf s with
    | false => rfl
    | true => exact absurd (prefix_excl e h (by decide)) (by decide)
  · cases e : (txt "/*").isPrefixOf s with
    | false => rfl
    | true => exact absurd (prefix_excl e h (by decide)) (by decide)
  · cases e : (txt "#if").isPrefixOf s with
    | false => rfl
    | true => exact absurd (prefix_excl e h (by decide)) (by decide)

section
variable (guard : Str → Bool)

theorem loop_blank {f : Flags} {l : Str} {rest : List Str} (h : strip l = []) :
    nextLineLoop guard f (l :: rest) = nextLineLoop guard f rest := by
  rw [nextLineLoop]; simp [h]

theorem loop_line {f : Flags} {l : Str} {rest : List Str} (h : (txt "//").isPrefixOf (strip l) = true) :
    nextLineLoop guard f (l :: rest) = nextLineLoop guard f rest := by
  rw [nextLineLoop]
  simp only [startsWith]
  rw [if_pos h]
  split <;> rfl

theorem loop_open {f : Flags} {l : Str} {rest : List Str} (h : (txt "/*").isPrefixOf (strip l) = true) :
    nextLineLoop guard f (l :: rest) =
      nextLineLoop guard (if (txt "*/").isSuffixOf (strip l) then f else { f with inComment := true }) rest := by
  have h1 : strip l ≠ [] := by intro e; rw [e] at h; exact absurd h (by decide)
  have h2 : (txt "//").isPrefixOf (strip l) = false := by
    cases e : (txt "//").isPrefixOf (strip l) with
    | false => rfl
    | true => exact absurd (prefix_excl e h (by decide)) (by decide)
  rw [nextLineLoop]
  simp only [startsWith, endsWith]
  rw [if_neg h1, if_neg (by simp [h2]), if_pos h]
  split <;> rfl

theorem loop_body {f : Flags} {l : Str} {rest : List Str} (hf : f.inComment = true) (h : has (txt "*/") (strip l) = false) :
    nextLineLoop guard f (l :: rest) = nextLineLoop guard f rest := by
  have he : (txt "*/").isSuffixOf (strip l) = false := by
    cases e : (txt "*/").isSuffixOf (strip l) with
    | false => rfl
    | true => rw [suffix_has e] at h; cases h
  by_cases h0 : strip l = []
  · exact loop_blank guard h0
  · cases h1 : (txt "//").isPrefixOf (strip l) with
    | true => exact loop_line guard h1
    | false =>
      cases h2 : (txt "/*").isPrefixOf (strip l) with
      | true =>
        rw [loop_open guard h2, he]
        congr 1
        cases f
        simp_all
      | false =>
        rw [nextLineLoop]
        simp only [startsWith, endsWith]
        rw [if_neg h0, if_neg (by simp [h1]), if_neg (by simp [h2]), if_pos hf, if_neg (by simp [he])]

theorem loop_close {f : Flags} {l : Str} {rest : List Str} (hf : f.inComment = true) (h0 : (txt "*/").isSuffixOf (strip l) = true)
    (h1 : (txt "//").isPrefixOf (strip l) = false) (h2 : (txt "/*").isPrefixOf (strip l) = false) :
    nextLineLoop guard f (l :: rest) = nextLineLoop guard { f with inComment := false } rest := by
  have h : strip l ≠ [] := by intro e; rw [e] at h0; exact absurd h0 (by decide)
  rw [nextLineLoop]
  simp only [startsWith, endsWith]
  rw [if_neg h, if_neg (by simp [h1]), if_neg (by simp [h2]), if_pos hf, if_pos h0]

theorem loop_bodies {f : Flags} {body rest : List Str} (hf : f.inComment = true)
    (h : ∀ l ∈ body, has (txt "*/") (strip l) = false) : nextLineLoop guard f (body ++ rest) = nextLineLoop guard f rest := by
  induction body with
  | nil => rfl
  | cons l body ih =>
    rw [List.cons_append, loop_body guard hf (h l (by simp))]
    exact ih (fun m hm => h m (by simp [hm]))

theorem loop_quiet {f : Flags} {q rest : List Str} (hf : f.inComment = false) (h : Quiet q) :
    nextLineLoop guard f (q ++ rest) = nextLineLoop guard f rest := by
  cases h with
  | blank h => exact loop_blank guard h
  | line h => exact loop_line guard h
  | comment h _ =>
    rw [List.singleton_append, loop_open guard (by rw [h, List.append_assoc]; simp),
      if_pos (by rw [h, List.isSuffixOf_iff_suffix]; exact List.suffix_append _ _)]
  | block h1 h2 h3 h4 h5 h6 h7 h8 =>
    rename_i first last r m body
    have he : (txt "*/").isSuffixOf (strip first) = false := by
      cases e : (txt "*/").isSuffixOf (strip first) with
      | false => rfl
      | true =>
        exfalso
        rw [h1, List.isSuffixOf_iff_suffix] at e
        have hr : (txt "*/").isSuffixOf r = false := by
          cases e : (txt "*/").isSuffixOf r with
          | false => rfl
          | true => rw [suffix_has e] at h2; cases h2
        match r, h3, hr, e with
        | [], _, _, e => exact absurd e (by decide)
        | [c], h3, _, e =>
          obtain ⟨t, ht⟩ := e
          have := congrArg List.getLast? ht
          simp [txt] at this
          exact h3 (by rw [← this]; rfl)
        | c :: d :: r, _, hr, e =>
          refine absurd ?_ (by rw [hr]; decide : ¬ (txt "*/").isSuffixOf (c :: d :: r) = true)
          rw [List.isSuffixOf_iff_suffix]
          refine List.suffix_of_suffix_length_le e (List.suffix_append _ _) ?_
          show 2 ≤ _
          simp
    rw [List.append_assoc, List.cons_append, loop_open guard (by rw [h1]; simp), if_neg (by simp [he]), loop_bodies guard rfl h4,
      List.singleton_append, loop_close guard rfl (by rw [h5]; simp [List.isSuffixOf_iff_suffix]) h7 h8]
    congr 1
    cases f
    simp_all

theorem loop_inside {f : Flags} {b rest : List Str} (hf : f.inComment = false) (hc : f.inConditional = true) (h : Inside b) :
    nextLineLoop guard f (b ++ rest) = nextLineLoop guard f rest := by
  induction h with
  | nil => rfl
  | quiet hq _ ih => rw [List.append_assoc, loop_quiet guard hf hq, ih]
  | plain hp _ ih =>
    rw [List.cons_append, nextLineLoop]
    simp only [startsWith]
    rw [if_neg hp.nonempty, if_neg (by simp [hp.noLine]), if_neg (by simp [hp.noBlock]), if_neg (by simp [hf]),
      if_neg (by simp [hp.noIf]), if_pos hc, if_neg (by simp [hp.noEndif]), ih]

theorem loop_conts {f : Flags} {cs rest : List Str} {t : Str} (hf : f.inComment = false) (hc : f.inConditional = false)
    (hm : f.inMacro = true) (h : Continuation cs t) :
    nextLineLoop guard f (cs ++ rest) = nextLineLoop guard { f with macroLine := f.macroLine ++ t } rest := by
  induction h generalizing f with
  | nil => simp
  | cons hl hd _ ih =>
    obtain ⟨hp, he⟩ := hl
    rw [List.cons_append, nextLineLoop]
    simp only [startsWith, endsWith]
    rw [if_neg hp.nonempty, if_neg (by simp [hp.noLine]), if_neg (by simp [hp.noBlock]), if_neg (by simp [hf]),
      if_neg (by simp [hp.noIf]), if_neg (by simp [hc]), if_neg (by simp [hp.noEndif]), if_neg (by simp [hd]), if_pos hm,
      if_pos (by rw [he]; simp [List.isSuffixOf_iff_suffix]), ih (by exact hf) (by exact hc) (by exact hm), he]
    congr 2
    show _ ++ strip ((_ ++ [92]).dropLast) ++ _ = _
    rw [List.dropLast_concat, List.append_assoc]

end

/-- C60. For every header that is laid out line by line, the calls of `nextLine` return exactly its lines of code, each with
its trailing comment split off, and then `None`. -/
theorem readAll_reads_partial (guard : Str → Bool) (ls ts : List Str) (h : Reads guard ls ts) :
    ∀ fuel, ls.length < fuel → readAll guard fuel ls = ts.map getTrailingComment := by
  induction h with
  | nil =>
    intro fuel hf
    cases fuel with
    | zero => omega
    | succ n => rfl
  | quiet hq _ ih =>
    rename_i q ls ts _
    intro fuel hf
    cases fuel with
    | zero => omega
    | succ n =>
      rw [← ih (n + 1) (by simp at hf; omega), readAll, nextLine, loop_quiet guard rfl hq]
      rfl
  | conditional h1 h2 h3 h4 _ ih =>
    rename_i first last body ls ts _
    intro fuel hf
    cases fuel with
    | zero => omega
    | succ n =>
      rw [← ih (n + 1) (by simp at hf; omega), readAll, nextLine]
      obtain ⟨a1, a2, a3⟩ := if_not h1
      obtain ⟨b1, b2, b3, b4⟩ := endif_not h4
      have : nextLineLoop guard .initial (first :: body ++ last :: ls) = nextLineLoop guard .initial ls := by
        rw [List.cons_append, nextLineLoop]
        simp only [startsWith, endsWith]
        rw [if_neg a1, if_neg (by simp [a2]), if_neg (by simp [a3]), if_neg (by simp [Flags.initial]), if_pos h1,
          if_neg (by simp [h2]), loop_inside guard rfl rfl h3, nextLineLoop]
        simp only [startsWith, endsWith]
        rw [if_neg b1, if_neg (by simp [b2]), if_neg (by simp [b3]), if_neg (by simp [Flags.initial]), if_neg (by simp [b4]),
          if_pos trivial, if_pos h4]
        rfl
      rw [this]
      rfl
  | guard h1 h2 _ ih =>
    rename_i first ls ts _
    intro fuel hf
    cases fuel with
    | zero => omega
    | succ n =>
      rw [← ih (n + 1) (by simp at hf; omega), readAll, nextLine]
      obtain ⟨a1, a2, a3⟩ := if_not h1
      have : nextLineLoop guard .initial (first :: ls) = nextLineLoop guard .initial ls := by
        rw [nextLineLoop]
        simp only [startsWith, endsWith]
        rw [if_neg a1, if_neg (by simp [a2]), if_neg (by simp [a3]), if_neg (by simp [Flags.initial]), if_pos h1, if_pos h2]
      rw [this]
      rfl
  | endif h1 _ ih =>
    rename_i l ls ts _
    intro fuel hf
    cases fuel with
    | zero => omega
    | succ n =>
      rw [← ih (n + 1) (by simp at hf; omega), readAll, nextLine]
      obtain ⟨a1, a2, a3, a4⟩ := endif_not h1
      have : nextLineLoop guard .initial (l :: ls) = nextLineLoop guard .initial ls := by
        rw [nextLineLoop]
        simp only [startsWith, endsWith]
        rw [if_neg a1, if_neg (by simp [a2]), if_neg (by simp [a3]), if_neg (by simp [Flags.initial]), if_neg (by simp [a4]),
          if_neg (by simp [Flags.initial]), if_pos h1]
      rw [this]
      rfl
  | code hp h1 _ ih =>
    rename_i l ls ts _
    intro fuel hf
    cases fuel with
    | zero => omega
    | succ n =>
      have : nextLineLoop guard .initial (l :: ls) = (some (getTrailingComment (strip l)), ls) := by
        rw [nextLineLoop]
        simp only [startsWith, endsWith]
        rw [if_neg hp.nonempty, if_neg (by simp [hp.noLine]), if_neg (by simp [hp.noBlock]), if_neg (by simp [Flags.initial]),
          if_neg (by simp [hp.noIf]), if_neg (by simp [Flags.initial]), if_neg (by simp [hp.noEndif]), if_neg h1,
          if_neg (by simp [Flags.initial])]
      rw [readAll, nextLine, this]
      simp only [List.map_cons]
      rw [ih n (by simp at hf; omega)]
  | define hc hd hcs hp hl _ ih =>
    rename_i first last a t conts ls ts _
    intro fuel hf
    cases fuel with
    | zero => omega
    | succ n =>
      have : nextLineLoop guard .initial (first :: conts ++ last :: ls) = (some (getTrailingComment (a ++ t ++ strip last)), ls) := by
        obtain ⟨hq, he⟩ := hc
        rw [List.cons_append, nextLineLoop]
        simp only [startsWith, endsWith]
        rw [if_neg hq.nonempty, if_neg (by simp [hq.noLine]), if_neg (by simp [hq.noBlock]), if_neg (by simp [Flags.initial]),
          if_neg (by simp [hq.noIf]), if_neg (by simp [Flags.initial]), if_neg (by simp [hq.noEndif]),
          if_pos ⟨hd, by rw [he]; simp [List.isSuffixOf_iff_suffix]⟩, loop_conts guard rfl rfl rfl hcs, nextLineLoop]
        simp only [startsWith, endsWith]
        rw [if_neg hp.nonempty, if_neg (by simp [hp.noLine]), if_neg (by simp [hp.noBlock]), if_neg (by simp [Flags.initial]),
          if_neg (by simp [hp.noIf]), if_neg (by simp [Flags.initial]), if_neg (by simp [hp.noEndif]),
          if_neg (by simp [hl]), if_pos trivial, if_neg (by simp [hl]), he]
        show (some (getTrailingComment ((a ++ [92]).dropLast ++ t ++ strip last)), ls) = _
        rw [List.dropLast_concat]
      rw [readAll, nextLine, this]
      simp only [List.map_cons]
      rw [ih n (by simp at hf; omega)]

/-! ## Texts without spaces around them -/

theorem strip_cons {c : Nat} {s : Str} (h : isSpace c = false) : ∃ t, strip (c :: s) = c :: t ∧ t <+: s := by
  refine ⟨(s.reverse.dropWhile isSpace).reverse, ?_, ?_⟩
  · unfold strip
    rw [List.dropWhile_cons_of_neg (by simp [h]), List.reverse_cons, List.dropWhile_append]
    by_cases e : (s.reverse.dropWhile isSpace).isEmpty
    · rw [if_pos e, List.isEmpty_iff.mp e, List.dropWhile_cons_of_neg (by simp [h])]; rfl
    · rw [if_neg e]; simp
  · have := List.dropWhile_suffix (l := s.reverse) isSpace
    rw [← List.reverse_prefix] at this
    simpa using this

theorem strip_head {l s : Str} {c : Nat} (h : strip l = c :: s) : isSpace c = false := by
  cases e : l.dropWhile isSpace with
  | nil => unfold strip at h; rw [e] at h; simp at h
  | cons d u =>
    have hd : isSpace d = false := by
      have := List.head?_dropWhile_not isSpace l
      rw [e] at this
      simpa using this
    obtain ⟨t, ht, _⟩ := strip_cons (s := u) hd
    have : strip l = strip (d :: u) := by
      unfold strip
      rw [e, List.dropWhile_cons_of_neg (by simp [hd])]
    rw [this, ht] at h
    cases h
    exact hd

/-! ## Trailing comments -/

theorem search_some {m : Str → Option Str} : ∀ {s p g : Str}, search m s = some (p, g) → ∃ r, s = p ++ r ∧ m r = some g := by
  intro s
  induction s with
  | nil => intro p g h; cases h
  | cons c s ih =>
    intro p g h
    rw [search] at h
    cases e : m (c :: s) with
    | some g' => rw [e] at h; cases h; exact ⟨_, rfl, e⟩
    | none =>
      rw [e] at h
      cases e' : search m s with
      | none => rw [e'] at h; cases h
      | some r =>
        obtain ⟨p', g'⟩ := r
        rw [e'] at h
        cases h
        obtain ⟨r, hr, hm⟩ := ih e'
        exact ⟨r, by rw [hr]; rfl, hm⟩

theorem search_of {m : Str → Option Str} {r g : Str} (hr : r ≠ []) (hm : m r = some g) :
    ∀ {p : Str}, (∀ b, b ≠ [] → b <:+ p → m (b ++ r) = none) → search m (p ++ r) = some (p, g) := by
  intro p
  induction p with
  | nil =>
    intro _
    cases r with
    | nil => exact absurd rfl hr
    | cons c r => rw [List.nil_append, search, hm]
  | cons c p ih =>
    intro h
    rw [List.cons_append, search]
    have := h (c :: p) (by simp) List.suffix_rfl
    rw [List.cons_append] at this
    rw [this]
    simp only
    rw [ih (fun b hb hs => h b hb (hs.trans (List.suffix_cons _ _)))]
    rfl

theorem search_none {m : Str → Option Str} : ∀ {s : Str}, (∀ b, b <:+ s → m b = none) → search m s = none := by
  intro s
  induction s with
  | nil => intro _; rfl
  | cons c s ih =>
    intro h
    rw [search, h _ List.suffix_rfl]
    simp only
    rw [ih (fun b hb => h b (hb.trans (List.suffix_cons _ _)))]
    rfl

theorem has_suffix {p s b : Str} (h : has p s = false) (hb : b <:+ s) : p.isPrefixOf b = false := by
  obtain ⟨t, rfl⟩ := hb
  induction t with
  | nil =>
    cases e : p.isPrefixOf b with
    | false => rfl
    | true => rw [List.nil_append, prefix_has e] at h; cases h
  | cons c t ih =>
    rw [List.cons_append, has, Bool.or_eq_false_iff] at h
    exact ih h.2

theorem dropWhile_all {p : Nat → Bool} : ∀ {l : Str}, (∀ x ∈ l, p x = true) → l.dropWhile p = [] := by
  intro l
  induction l with
  | nil => intro _; rfl
  | cons c l ih =>
    intro h
    rw [List.dropWhile_cons_of_pos (h c (by simp))]
    exact ih (fun x hx => h x (by simp [hx]))

theorem matchC_none {s : Str} (h : (txt "/*").isPrefixOf s = false) : matchC s = none := by
  unfold matchC
  rw [if_neg (by simp [startsWith, h])]

theorem matchEol_none {s : Str} (h : (txt "//").isPrefixOf s = false) : matchEol s = none := by
  unfold matchEol
  rw [if_neg (by simp [startsWith, h])]

theorem lazyClose_of {r : Str} : ∀ {c : Str}, has (txt "*/") (c ++ txt "*") = false → 10 ∉ c →
    lazyClose (c ++ txt "*/" ++ r) = some c := by
  intro c
  induction c with
  | nil => intro _ _; rfl
  | cons x c ih =>
    intro h hn
    rw [List.cons_append, has, Bool.or_eq_false_iff] at h
    rw [List.cons_append, List.cons_append, lazyClose]
    have : startsWith (txt "*/") (x :: (c ++ txt "*/" ++ r)) = false := by
      have h1 := h.1
      cases c with
      | nil =>
        show (txt "*/").isPrefixOf (x :: 42 :: 47 :: r) = false
        simp [txt, List.isPrefixOf]
      | cons y c =>
        simpa [txt, List.isPrefixOf] using h1
    rw [if_neg (by rw [this]; decide), if_neg (by rintro rfl; exact hn (by simp)), ih h.2 (by intro hm; exact hn (by simp [hm]))]
    rfl

theorem someClose_of {c r : Str} (hc : c ≠ []) (h : has (txt "*/") (c ++ txt "*") = false) (hn : 10 ∉ c) :
    someClose (c ++ txt "*/" ++ r) = some c := by
  cases c with
  | nil => exact absurd rfl hc
  | cons x c =>
    rw [List.cons_append, has, Bool.or_eq_false_iff] at h
    rw [List.cons_append, List.cons_append, someClose, if_neg (by rintro rfl; exact hn (by simp)),
      lazyClose_of h.2 (by intro hm; exact hn (by simp [hm]))]
    rfl

/-- C60. Code followed by a block comment on the same line: the code without the space around it, and the text of the
comment, without the second star of `/**`. -/
theorem getTrailingComment_block (code c r : Str) (h : has (txt "/*") code = false)
    (hc : has (txt "*/") (c ++ txt "*") = false) (hn : 10 ∉ c) (h0 : c ≠ []) (h1 : c ≠ txt "*") :
    getTrailingComment (code ++ txt "/*" ++ c ++ txt "*/" ++ r) = (strip code, if c.head? = some 42 then c.tail else c) := by
  have hm : matchC (txt "/*" ++ c ++ txt "*/" ++ r) = some (if c.head? = some 42 then c.tail else c) := by
    unfold matchC
    have e1 : startsWith (txt "/*") (txt "/*" ++ c ++ txt "*/" ++ r) = true := by simp [startsWith, List.append_assoc]
    have e2 : (txt "/*" ++ c ++ txt "*/" ++ r).drop 2 = c ++ txt "*/" ++ r := rfl
    rw [if_pos e1, e2]
    cases c with
    | nil => exact absurd rfl h0
    | cons x c =>
      by_cases hx : x = 42
      · subst hx
        have hc' : c ≠ [] := by rintro rfl; exact h1 rfl
        have hh : has (txt "*/") (c ++ txt "*") = false := by
          rw [List.cons_append, has, Bool.or_eq_false_iff] at hc; exact hc.2
        simp only [List.cons_append, List.drop_succ_cons, List.drop_zero, List.head?_cons, if_true, List.tail_cons]
        rw [if_pos (show startsWith (txt "*") (42 :: (c ++ txt "*/" ++ r)) = true by simp [startsWith, txt]),
          someClose_of hc' hh (by intro hm; exact hn (by simp [hm]))]
      · simp only [List.cons_append]
        rw [if_neg (show ¬ startsWith (txt "*") (x :: (c ++ txt "*/" ++ r)) = true by
          simp [startsWith, txt, List.isPrefixOf]; exact fun e => hx e.symm)]
        have := someClose_of (r := r) (by simp) hc hn
        rw [List.cons_append, List.cons_append] at this
        rw [this]
        simp [hx]
  have hs : search matchC (code ++ (txt "/*" ++ c ++ txt "*/" ++ r)) =
      some (code, if c.head? = some 42 then c.tail else c) := by
    refine search_of (by simp [txt]) hm (fun b hb hs => matchC_none ?_)
    have := has_suffix h hs
    match b, hb, this with
    | [x], _, _ => simp [txt, List.isPrefixOf]
    | x :: y :: b, _, this => simpa [txt, List.isPrefixOf] using this
  unfold getTrailingComment
  rw [show code ++ txt "/*" ++ c ++ txt "*/" ++ r = code ++ (txt "/*" ++ c ++ txt "*/" ++ r) by simp [List.append_assoc], hs]

/-- C60. Code followed by a `//` comment: the code without the space around it, and the text of the comment. -/
theorem getTrailingComment_eol (code sp c : Str) (h : has (txt "/*") (code ++ txt "//" ++ sp ++ c) = false)
    (h' : has (txt "//") (code ++ txt "/") = false) (hs : ∀ x ∈ sp, isSpace x = true) (h0 : c.head?.any (fun x => !isSpace x))
    (hd : 36 ∉ c) : getTrailingComment (code ++ txt "//" ++ sp ++ c) = (strip code, c) := by
  have hm : matchEol (txt "//" ++ sp ++ c) = some c := by
    unfold matchEol
    have e1 : startsWith (txt "//") (txt "//" ++ sp ++ c) = true := by simp [startsWith, List.append_assoc]
    have e2 : (txt "//" ++ sp ++ c).drop 2 = sp ++ c := rfl
    rw [if_pos e1, e2]
    cases c with
    | nil => simp at h0
    | cons x c =>
      have hx : isSpace x = false := by simpa using h0
      have hsp : 36 ∉ sp := fun hm => absurd (hs 36 hm) (by decide)
      simp only
      rw [if_neg (by
        rintro (e | e)
        · simp at e
        · rw [List.mem_append] at e
          exact e.elim hsp hd)]
      have e3 : (sp ++ x :: c).dropWhile isSpace = x :: c := by
        rw [List.dropWhile_append, if_pos (by rw [List.isEmpty_iff, dropWhile_all hs]), List.dropWhile_cons_of_neg (by simp [hx])]
      rw [e3, if_neg (by simp)]
  have h1 : search matchC (code ++ txt "//" ++ sp ++ c) = none := search_none (fun b hb => matchC_none (has_suffix h hb))
  have h2 : search matchEol (code ++ (txt "//" ++ sp ++ c)) = some (code, c) := by
    refine search_of (by simp [txt]) hm (fun b hb hs' => matchEol_none ?_)
    have := has_suffix h' (b := b ++ txt "/") (by obtain ⟨t, rfl⟩ := hs'; exact ⟨t, by simp⟩)
    match b, hb, this with
    | [x], _, this => simpa [txt, List.isPrefixOf] using this
    | x :: y :: b, _, this => simpa [txt, List.isPrefixOf] using this
  unfold getTrailingComment
  rw [h1]
  simp only
  rw [show code ++ txt "//" ++ sp ++ c = code ++ (txt "//" ++ sp ++ c) by simp [List.append_assoc], h2]

/-- C60. A line without a comment is returned as it is. -/
theorem getTrailingComment_none (l : Str) (h : has (txt "/*") l = false) (h' : has (txt "//") l = false) :
    getTrailingComment l = (l, []) := by
  unfold getTrailingComment
  rw [search_none (fun b hb => matchC_none (has_suffix h hb)), search_none (fun b hb => matchEol_none (has_suffix h' hb))]

example : getTrailingComment (txt "int x = 1; /** the x */") = (txt "int x = 1;", txt " the x ") :=
  getTrailingComment_block (txt "int x = 1; ") (txt "* the x ") [] (by decide) (by decide) (by decide) (by decide) (by decide)
example : getTrailingComment (txt "int x = 1; //  the x") = (txt "int x = 1;", txt "the x") :=
  getTrailingComment_eol (txt "int x = 1; ") (txt "  ") (txt "the x") (by decide) (by decide) (by decide) (by decide) (by decide)

/-- A `//` comment that contains a dollar sign stays in the code. -/
theorem getTrailingComment_dollar_refuted :
    getTrailingComment (txt "#define X 1 // costs $5") = (txt "#define X 1 // costs $5", []) := by decide +kernel

/-! ## All headers -/

theorem trailing_text {c : Nat} {s : Str} (hc : isSpace c = false) (h1 : (txt "//").isPrefixOf (c :: s) = false)
    (h2 : (txt "/*").isPrefixOf (c :: s) = false) : ∃ t, (getTrailingComment (c :: s)).1 = c :: t ∧ t <+: s := by
  have key : ∀ p g m, search m (c :: s) = some (p, g) → m (c :: s) = none → ∃ t, strip p = c :: t ∧ t <+: s := by
    intro p g m hp hm
    obtain ⟨r, hr, hr'⟩ := search_some hp
    cases p with
    | nil => rw [List.nil_append] at hr; rw [← hr, hm] at hr'; cases hr'
    | cons d p =>
      rw [List.cons_append] at hr
      cases hr
      obtain ⟨t, ht, hpre⟩ := strip_cons (s := p) hc
      exact ⟨t, ht, hpre.trans (List.prefix_append _ _)⟩
  unfold getTrailingComment
  cases e : search matchC (c :: s) with
  | some r => exact key _ _ _ e (matchC_none h2)
  | none =>
    cases e' : search matchEol (c :: s) with
    | some r => exact key _ _ _ e' (matchEol_none h1)
    | none => exact ⟨s, rfl, List.prefix_rfl⟩

theorem not_prefix_of {p a b : Str} (h : p.isPrefixOf b = false) (hab : a <+: b) : p.isPrefixOf a = false := by
  cases e : p.isPrefixOf a with
  | false => rfl
  | true =>
    rw [List.isPrefixOf_iff_prefix] at e
    rw [List.isPrefixOf_iff_prefix.mpr (e.trans hab)] at h
    cases h

theorem loop_some (guard : Str → Bool) : ∀ (lines : List Str) (f : Flags) (r : Str × Str) (rest : List Str),
    (f.inMacro = true → (txt "#define").isPrefixOf f.macroLine = true) → nextLineLoop guard f lines = (some r, rest) →
    ∃ used line, lines = used ++ rest ∧ used ≠ [] ∧ (∃ c s, line = c :: s ∧ isSpace c = false) ∧
      (txt "//").isPrefixOf line = false ∧ (txt "/*").isPrefixOf line = false ∧ r = getTrailingComment line := by
  intro lines
  induction lines with
  | nil => intro f r rest _ h; cases h
  | cons l lines ih =>
    intro f r rest hf h
    have step : ∀ f' : Flags, (f'.inMacro = true → (txt "#define").isPrefixOf f'.macroLine = true) →
        nextLineLoop guard f' lines = (some r, rest) →
        ∃ used line, l :: lines = used ++ rest ∧ used ≠ [] ∧ (∃ c s, line = c :: s ∧ isSpace c = false) ∧
          (txt "//").isPrefixOf line = false ∧ (txt "/*").isPrefixOf line = false ∧ r = getTrailingComment line := by
      intro f' hf' h'
      obtain ⟨used, line, h1, _, h2⟩ := ih f' r rest hf' h'
      exact ⟨l :: used, line, by rw [h1]; rfl, by simp, h2⟩
    rw [nextLineLoop] at h
    by_cases a1 : strip l = []
    · rw [if_pos a1] at h; exact step _ hf h
    rw [if_neg a1] at h
    obtain ⟨c, s, hcs⟩ : ∃ c s, strip l = c :: s := by
      cases e : strip l with
      | nil => exact absurd e a1
      | cons c s => exact ⟨c, s, rfl⟩
    by_cases a2 : (txt "//").isPrefixOf (strip l) = true
    · rw [if_pos a2] at h; exact step _ hf h
    rw [if_neg a2] at h
    by_cases a3 : (txt "/*").isPrefixOf (strip l) = true
    · rw [if_pos a3] at h
      split at h
      · exact step _ hf h
      · exact step _ (by exact hf) h
    rw [if_neg a3] at h
    simp only [Bool.not_eq_true] at a2 a3
    by_cases a4 : f.inComment = true
    · rw [if_pos a4] at h
      refine step _ ?_ h
      split <;> exact hf
    rw [if_neg a4] at h
    by_cases a5 : (txt "#if").isPrefixOf (strip l) = true
    · rw [if_pos a5] at h
      refine step _ ?_ h
      split <;> exact hf
    rw [if_neg a5] at h
    by_cases a6 : f.inConditional = true
    · rw [if_pos a6] at h
      refine step _ ?_ h
      split <;> exact hf
    rw [if_neg a6] at h
    by_cases a7 : (txt "#endif").isPrefixOf (strip l) = true
    · rw [if_pos a7] at h; exact step _ hf h
    rw [if_neg a7] at h
    by_cases a8 : (txt "#define").isPrefixOf (strip l) = true ∧ (txt "\\").isSuffixOf (strip l) = true
    · rw [if_pos a8] at h
      refine step _ ?_ h
      intro _
      obtain ⟨b1, b2⟩ := a8
      show (txt "#define").isPrefixOf (strip l).dropLast = true
      rw [List.isPrefixOf_iff_prefix] at *
      rw [List.isSuffixOf_iff_suffix] at b2
      obtain ⟨t, ht⟩ := b2
      rw [← ht] at b1 ⊢
      show _ <+: (t ++ [92]).dropLast
      rw [List.dropLast_concat]
      refine List.prefix_of_prefix_length_le b1 (List.prefix_append _ _) ?_
      have hl := b1.length_le
      by_cases hlen : (txt "#define").length ≤ t.length
      · exact hlen
      · exfalso
        have e : txt "#define" = t ++ txt "\\" := b1.eq_of_length (by simp [txt] at hl hlen ⊢; omega)
        have := congrArg List.getLast? e
        simp [txt] at this
    rw [if_neg a8] at h
    by_cases a9 : f.inMacro = true
    · rw [if_pos a9] at h
      split at h
      · refine step _ (fun _ => ?_) h
        have := hf a9
        rw [List.isPrefixOf_iff_prefix] at this ⊢
        exact this.trans (List.prefix_append _ _)
      · cases h
        have := hf a9
        rw [List.isPrefixOf_iff_prefix] at this
        obtain ⟨t, ht⟩ := this
        refine ⟨[l], f.macroLine ++ strip l, rfl, by simp, ⟨35, txt "define" ++ t ++ strip l, ?_, by decide⟩, ?_, ?_, rfl⟩
        · rw [← ht]; rfl
        · rw [← ht]; rfl
        · rw [← ht]; rfl
    rw [if_neg a9] at h
    cases h
    exact ⟨[l], strip l, rfl, by simp, ⟨c, s, hcs, strip_head hcs⟩, a2, a3, rfl⟩

/-- C60. For every file, a call of `nextLine` that returns a line has read at least one line of the file, and the line
that it returns is not empty, has no space before it and does not begin with a comment. -/
theorem nextLine_some (guard : Str → Bool) (lines : List Str) (t c : Str) (rest : List Str)
    (h : nextLine guard lines = (some (t, c), rest)) :
    (∃ used, used ≠ [] ∧ lines = used ++ rest) ∧ (∃ x s, t = x :: s ∧ isSpace x = false) ∧
      (txt "//").isPrefixOf t = false ∧ (txt "/*").isPrefixOf t = false := by
  obtain ⟨used, line, h1, h2, ⟨x, s, rfl, hx⟩, h4, h5, h6⟩ := loop_some guard lines _ _ _ (by simp [Flags.initial]) h
  obtain ⟨t', ht, hpre⟩ := trailing_text hx h4 h5
  have e : t = x :: t' := by rw [← ht, ← h6]
  have hp : t <+: x :: s := by rw [e]; exact List.cons_prefix_cons.mpr ⟨rfl, hpre⟩
  exact ⟨⟨used, h2, h1⟩, ⟨x, t', e, hx⟩, not_prefix_of h4 hp, not_prefix_of h5 hp⟩

/-- C60. `nextLine` returns `None` only at the end of the file. -/
theorem nextLine_none (guard : Str → Bool) (lines rest : List Str) (h : nextLine guard lines = (none, rest)) : rest = [] := by
  have key : ∀ (lines : List Str) (f : Flags), nextLineLoop guard f lines = (none, rest) → rest = [] := by
    intro lines
    induction lines with
    | nil => intro f h; cases h; rfl
    | cons l lines ih =>
      intro f h
      rw [nextLineLoop] at h
      repeat' (split at h)
      all_goals first | exact ih _ h | cases h
  exact key lines _ h

/-- C60. The first token of a line that `nextLine` returns always exists. -/
theorem firstToken_total (guard : Str → Bool) (lines : List Str) (t c : Str) (rest : List Str)
    (h : nextLine guard lines = (some (t, c), rest)) : ∃ k, firstToken t = .ok k ∧ k ≠ [] ∧ k <+: t ∧ ∀ x ∈ k, isSpace x = false := by
  obtain ⟨_, ⟨x, s, rfl, hx⟩, _⟩ := nextLine_some guard lines t c rest h
  refine ⟨(x :: s).takeWhile (fun c => !isSpace c), ?_, ?_, List.takeWhile_prefix _, ?_⟩
  · unfold firstToken
    rw [List.dropWhile_cons_of_neg (by simp [hx]), List.takeWhile_cons_of_pos (by simp [hx])]
  · rw [List.takeWhile_cons_of_pos (by simp [hx])]; simp
  · intro y hy
    have := List.all_takeWhile (p := fun c => !isSpace c) (l := x :: s)
    rw [List.all_eq_true] at this
    simpa using this y hy

/-! ## A header, and headers that are not read as C reads them -/

/-- The include guard of `uchar.h`. -/
def ucharGuard : Str → Bool := guardMatch (txt "UCHAR_H")

example : readAll ucharGuard 20 [txt "/*\n", txt " * int hidden;\n", txt " */\n", txt "#ifndef UCHAR_H\n", txt "#if A\n",
      txt "int left_out;\n", txt "#endif\n", txt "#define F(x) \\\n", txt "  g(x) + \\\n", txt "  1\n", txt "int x; /* the x */\n",
      txt "#endif\n"] =
    [(txt "#define F(x) g(x) +1", []), (txt "int x;", txt " the x ")] := by
  refine readAll_reads_partial ucharGuard _ [txt "#define F(x) g(x) +1", txt "int x; /* the x */"] ?_ 20 (by decide)
  refine Reads.quiet (q := [txt "/*\n", txt " * int hidden;\n", txt " */\n"])
    (.block (first := txt "/*\n") (last := txt " */\n") (body := [txt " * int hidden;\n"]) (r := []) (m := []) (by decide) (by decide)
      (by decide) (by decide) (by decide) (by decide) (by decide) (by decide)) ?_
  refine Reads.guard (by decide) (by decide) ?_
  refine Reads.conditional (first := txt "#if A\n") (last := txt "#endif\n") (body := [txt "int left_out;\n"])
    (by decide) (by decide) ?_ (by decide) ?_
  · exact .plain ⟨by decide, by decide, by decide, by decide, by decide, by decide⟩ .nil
  refine Reads.define (first := txt "#define F(x) \\\n") (conts := [txt "  g(x) + \\\n"]) (last := txt "  1\n")
    (a := txt "#define F(x) ") (t := txt "g(x) +") ⟨⟨by decide, by decide, by decide, by decide, by decide, by decide⟩, by decide⟩
    (by decide) ?_ ⟨by decide, by decide, by decide, by decide, by decide, by decide⟩ (by decide) ?_
  · exact .cons (a := txt "g(x) + ") (t := []) ⟨⟨by decide, by decide, by decide, by decide, by decide, by decide⟩, by decide⟩
      (by decide) .nil
  refine Reads.code ⟨by decide, by decide, by decide, by decide, by decide, by decide⟩ (by decide) ?_
  exact Reads.endif (by decide) .nil

/-- A block comment that begins after code: its second line is returned as code. -/
theorem readAll_midline_refuted : readAll ucharGuard 9 [txt "int x; /* one", txt "two */"] =
    [(txt "int x; /* one", []), (txt "two */", [])] := by decide +kernel

/-- Nested conditionals: the section ends at the inner `#endif`. -/
theorem readAll_nested_refuted : readAll ucharGuard 9 [txt "#if A", txt "#if B", txt "#endif", txt "int inside;", txt "#endif"] =
    [(txt "int inside;", [])] := by decide +kernel

/-- Code between two comments on one line is lost. -/
theorem readAll_between_refuted : readAll ucharGuard 9 [txt "/* a */ int x; /* b */"] = [] := by decide +kernel

/-- Code after a comment on one line is lost, together with the lines up to the end of the next comment. -/
theorem readAll_after_refuted : readAll ucharGuard 9 [txt "/* a */ int x;", txt "int y;", txt "/* b */", txt "int z;", txt "c */",
    txt "int w;"] = [(txt "int w;", [])] := by decide +kernel

/-- `/*/` opens a comment in C, and is read as a whole comment. -/
theorem readAll_slash_refuted : readAll ucharGuard 9 [txt "/*/", txt "hidden", txt "*/"] = [(txt "hidden", []), (txt "*/", [])] := by
  decide +kernel

/-- A comment whose last line begins with `//` is not closed there. -/
theorem readAll_close_refuted : readAll ucharGuard 9 [txt "/*", txt "// old */", txt "int x;"] = [] := by decide +kernel

/-- The lines of a `#define` are joined without the space that separates their tokens. -/
theorem readAll_join_refuted : readAll ucharGuard 9 [txt "#define F(x) \\", txt "  return \\", txt "  x"] =
    [(txt "#define F(x) returnx", [])] := by decide +kernel

/-- A comment line inside a continued `#define` hides the rest of it. -/
theorem readAll_macro_comment_refuted : readAll ucharGuard 9 [txt "#define F(x) \\", txt "  /* c */ \\", txt "  x", txt "int y;"] = [] := by
  decide +kernel

end Verif.Header.Props

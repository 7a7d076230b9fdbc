import Verif.Lemmas.CExpr
/-! # Replacing macros does not change what an expression denotes -/
namespace Verif.CHeader.Spec
open Verif.Header.Spec

theorem Expands.append {M : List (Str × Str)} {a a' b b' : Str} (h : Expands M a a') (hb : ∀ c ∈ b.head?, wordChar c = false)
    (h' : Expands M b b') : Expands M (a ++ b) (a' ++ b') := by
  have hd : ∀ {s : Str}, (∀ c ∈ s.head?, wordChar c = false) → ∀ c ∈ (s ++ b).head?, wordChar c = false := by
    intro s hs
    cases s with
    | nil => exact hb
    | cons x s => exact hs
  induction h with
  | nil => exact h'
  | other hc _ ih => exact .other hc ih
  | word hn hs hm _ ih => rw [List.append_assoc, List.append_assoc]; exact .word hn (hd hs) hm ih
  | replace hn hs hm ht _ _ ih => rw [List.append_assoc, List.append_assoc]; exact .replace hn (hd hs) hm ht ih

theorem Expands.plain {M : List (Str × Str)} {a b b' : Str} (h : ∀ c ∈ a, wordChar c = false) (h' : Expands M b b') :
    Expands M (a ++ b) (a ++ b') := by
  induction a with
  | nil => exact h'
  | cons c a ih => exact .other (h c (by simp)) (ih fun x hx => h x (by simp [hx]))

theorem Expands.refl {M : List (Str × Str)} {n : Str} (hn : Name n) (hm : ∀ t, (n, t) ∉ M) : Expands M n n := by
  have := Expands.word (s := []) (s' := []) hn (by simp) hm .nil
  simpa using this

theorem plain_text {s : Str} (h : s.all (fun c => !wordChar c) = true) : ∀ c ∈ s, wordChar c = false := by
  intro c hc
  have := List.all_eq_true.1 h c hc
  simpa using this

theorem blanks_plain {b : Str} (h : Blanks b) : ∀ c ∈ b, wordChar c = false := by
  intro c hc
  rcases h c hc with rfl | rfl <;> decide

theorem plain_head {a b : Str} (ha : ∀ c ∈ a, wordChar c = false) (hb : ∀ c ∈ b.head?, wordChar c = false) :
    ∀ c ∈ (a ++ b).head?, wordChar c = false := by
  cases a with
  | nil => exact hb
  | cons x a =>
    intro c hc
    cases hc
    exact ha _ (by simp)

theorem sign_not_word : ∀ c ∈ txt "+-", wordChar c = false := by decide

theorem word_no_sign {w s : Str} (h0 : w ≠ []) (h : ∀ x ∈ w, wordChar x = true) : ∀ c ∈ (w ++ s).head?, c ∉ txt "+-" := by
  cases w with
  | nil => exact absurd rfl h0
  | cons x w =>
    intro c hc hm
    cases hc
    have := sign_not_word _ hm
    rw [h _ (by simp)] at this
    cases this

theorem numeral_name {s : Str} {n : Nat} (h : Numeral s n) : Name s ∧ ¬ Ident s := by
  obtain ⟨h1, h2, h3⟩ := PyExpr.numeral_word h
  refine ⟨⟨h1, fun x hx => by rw [Header.Props.wordChar_eq]; exact h2 x hx⟩, fun hi => ?_⟩
  unfold PyExpr.wordTok at h3
  rw [if_neg] at h3
  · split at h3 <;> cases h3
  · intro hd
    cases s with
    | nil => exact h1 rfl
    | cons c s =>
      have hc := hi.2 c rfl
      simp only [List.head?_cons, Option.any_some, decide_eq_true_eq] at hd
      have hall : ∀ k < 10, 48 + k ∈ txt "0123456789" := by decide
      have := hall (c - 48) (by omega)
      rw [show 48 + (c - 48) = c by omega] at this
      exact hc this

theorem denotes_ne {scope : Str → Option Int} {fn : Str → Int → Option Int} {p : Nat} {s : Str} {v : Int} (h : Denotes scope fn p s v) :
    ∃ c t, s = c :: t := by
  have hw : ∀ {w : Str} (t : Str), Name w → ∃ c u, w ++ t = c :: u := by
    intro w t h
    cases w with
    | nil => exact absurd rfl h.1
    | cons c w => exact ⟨c, w ++ t, rfl⟩
  induction h with
  | num hn _ => simpa using hw [] (numeral_name hn).1
  | name hn _ => simpa using hw [] hn.1
  | paren => exact ⟨_, _, rfl⟩
  | call hn => exact hw _ hn.1
  | neg => exact ⟨_, _, rfl⟩
  | pos => exact ⟨_, _, rfl⟩
  | inv => exact ⟨_, _, rfl⟩
  | bin _ _ _ _ _ _ _ ih _ =>
    obtain ⟨c, t, rfl⟩ := ih
    exact ⟨c, _, rfl⟩
  | up _ _ ih => exact ih

/-- Primary expressions begin with no sign. -/
theorem primary_head {scope : Str → Option Int} {fn : Str → Int → Option Int} {p : Nat} {s : Str} {v : Int} (h : Denotes scope fn p s v)
    (hp : p = 8) : ∀ c ∈ s.head?, c ∉ txt "+-" := by
  have nolevel : ∀ o : Bin, o.level ≠ 8 := by intro o; cases o <;> decide
  cases h with
  | num hn _ => simpa using word_no_sign (s := []) (numeral_name hn).1.1 (numeral_name hn).1.2
  | name hn _ => simpa using word_no_sign (s := []) hn.1.1 hn.1.2
  | paren => intro c hc; cases hc; decide
  | call hn => exact word_no_sign hn.1.1 hn.1.2
  | neg => cases hp
  | pos => cases hp
  | inv => cases hp
  | bin => exact absurd hp (nolevel _)
  | up h7 => omega

theorem denotes_expand {scope E : Str → Option Int} {fn : Str → Int → Option Int} {M : List (Str × Str)}
    (hM : ∀ n t, (n, t) ∈ M → Ident n)
    (hS : ∀ n v, scope n = some v → (E n = some v ∧ ∀ t, (n, t) ∉ M) ∨ ∃ t t', (n, t) ∈ M ∧ Expands M t t' ∧ Denotes E fn 8 t' v)
    (hf : ∀ f v r, fn f v = some r → ∀ t, (f, t) ∉ M) {p : Nat} {s : Str} {v : Int} (h : Denotes scope fn p s v) :
    ∃ s', Expands M s s' ∧ Denotes E fn p s' v ∧ ∀ c ∈ s'.head?, c ∈ txt "+-" → c ∈ s.head? := by
  have hpar : ∀ {a b s s' : Str}, Blanks a → Blanks b → Expands M s s' →
      Expands M (txt "(" ++ (a ++ (s ++ (b ++ txt ")")))) (txt "(" ++ (a ++ (s' ++ (b ++ txt ")")))) := by
    intro a b s s' ha hb he
    refine .plain (plain_text (by decide)) (.plain (blanks_plain ha) (he.append (plain_head (blanks_plain hb) ?_) (.plain (blanks_plain hb) ?_)))
    · intro c hc; cases hc; decide
    · simpa using Expands.plain (M := M) (a := txt ")") (b := []) (b' := []) (plain_text (by decide)) .nil
  induction h with
  | num hn hi =>
    have hd := numeral_name hn
    refine ⟨_, .refl hd.1 (fun t ht => hd.2 (hM _ _ ht)), .num hn hi, ?_⟩
    intro c hc hm
    exact absurd hm (word_no_sign (s := []) hd.1.1 hd.1.2 c (by rwa [List.append_nil]))
  | @name n v hn hv =>
    rcases hS _ _ hv with ⟨he, hm⟩ | ⟨t, t', ht, he, hd⟩
    · exact ⟨_, .refl hn.1 hm, .name hn he, fun c hc _ => hc⟩
    · refine ⟨t', ?_, hd, fun c hc hm => absurd hm (primary_head hd rfl c hc)⟩
      have := Expands.replace (s := []) (s' := []) hn.1 (by simp) ht he .nil
      simpa using this
  | paren ha _ hb ih =>
    obtain ⟨s', h1, h2, _⟩ := ih
    exact ⟨_, hpar ha hb h1, .paren ha h2 hb, fun c hc _ => hc⟩
  | @call f a s b v r hn ha _ hb hr hi ih =>
    obtain ⟨s', h1, h2, _⟩ := ih
    refine ⟨_, (Expands.refl hn.1 (hf _ _ _ hr)).append ?_ (hpar ha hb h1), .call hn ha h2 hb hr hi, ?_⟩
    · intro c hc; cases hc; decide
    · exact fun c hc hm => absurd hm (word_no_sign hn.1.1 hn.1.2 c hc)
  | @neg a s v ha hh _ hi ih =>
    obtain ⟨s', h1, h2, h3⟩ := ih
    refine ⟨_, .plain (plain_text (by decide)) (.plain (blanks_plain ha) h1), .neg ha ?_ h2 hi, fun c hc _ => hc⟩
    intro h0 c hc hm
    have hm' : c ∈ txt "+-" := by rw [show c = 45 by revert hm; show c ∈ [45] → _; simp]; decide
    exact hh h0 c (h3 c hc hm') hm
  | @pos a s v ha hh _ ih =>
    obtain ⟨s', h1, h2, h3⟩ := ih
    refine ⟨_, .plain (plain_text (by decide)) (.plain (blanks_plain ha) h1), .pos ha ?_ h2, fun c hc _ => hc⟩
    intro h0 c hc hm
    have hm' : c ∈ txt "+-" := by rw [show c = 43 by revert hm; show c ∈ [43] → _; simp]; decide
    exact hh h0 c (h3 c hc hm') hm
  | @inv a s v ha _ ih =>
    obtain ⟨s', h1, h2, h3⟩ := ih
    exact ⟨_, .plain (plain_text (by decide)) (.plain (blanks_plain ha) h1), .inv ha h2, fun c hc _ => hc⟩
  | @bin o l a b r x y v hl ha hb hh _ hm hi ihl ihr =>
    obtain ⟨l', l1, l2, l3⟩ := ihl
    obtain ⟨r', r1, r2, r3⟩ := ihr
    have ho : ∀ c ∈ o.text, wordChar c = false := by cases o <;> exact plain_text (by decide)
    have op_head : ∀ c ∈ (o.text ++ (b ++ r)).head?, wordChar c = false := by cases o <;> (intro c hc; cases hc; decide)
    refine ⟨_, l1.append (plain_head (blanks_plain ha) (op_head)) (.plain (blanks_plain ha) (.plain ho
      (.plain (blanks_plain hb) r1))), .bin l2 ha hb ?_ r2 hm hi, ?_⟩
    · intro h0 c hc hm'
      exact hh h0 c (r3 c hc hm') hm'
    · intro c hc hm'
      obtain ⟨z, zs, rfl⟩ := denotes_ne hl
      obtain ⟨z', zs', rfl⟩ := denotes_ne l2
      exact l3 c hc hm'
  | up hp _ ih =>
    obtain ⟨s', h1, h2, h3⟩ := ih
    exact ⟨s', h1, .up hp h2, h3⟩

end Verif.CHeader.Spec

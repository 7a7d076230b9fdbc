import Verif.Model.PyExpr
import Verif.Spec.CExpr
import Verif.Props.HeaderTranslate
/-! # Reading Python expressions -/
namespace Verif.PyExpr
open Verif.Header Verif.Header.Spec Verif.CHeader.Spec

/-! ## Tokens -/

theorem dropWhile_length (p : Nat → Bool) (l : Str) : (l.dropWhile p).length ≤ l.length := by
  induction l with
  | nil => simp
  | cons c l ih => rw [List.dropWhile_cons]; split <;> simp <;> omega

/-- More fuel than characters does not matter. -/
theorem tokens_fuel : ∀ n m (s : Str), s.length < n → s.length < m → tokens n s = tokens m s := by
  intro n
  induction n with
  | zero => intro m s h; omega
  | succ n ih =>
    intro m s hn hm
    cases m with
    | zero => omega
    | succ m =>
      cases s with
      | nil => rfl
      | cons c cs =>
        simp only [List.length_cons] at hn hm
        have h1 := ih m cs (by omega) (by omega)
        have h2 : Header.isWord c = true → tokens n ((c :: cs).dropWhile Header.isWord) = tokens m ((c :: cs).dropWhile Header.isWord) := by
          intro hc
          rw [List.dropWhile_cons_of_pos hc]
          have := dropWhile_length Header.isWord cs
          exact ih m _ (by omega) (by omega)
        have h3 : ∀ (p : Nat → Bool) d r, cs.dropWhile p = d :: r → tokens n r = tokens m r := by
          intro p d r e
          have := dropWhile_length p cs
          rw [e, List.length_cons] at this
          exact ih m _ (by omega) (by omega)
        have h4 : ∀ d r, cs = d :: r → tokens n r = tokens m r := by
          rintro d r rfl
          rw [List.length_cons] at hn hm
          exact ih m _ (by omega) (by omega)
        unfold tokens
        split
        · exact h1
        · split
          · rfl
          · split
            · rename_i hw
              rw [h2 hw]
            · split
              · simp only
                split
                · rename_i e
                  rw [h3 _ _ _ e]
                · rfl
              · split
                · split
                  · rw [h4 _ _ rfl]
                  · rfl
                · split
                  · rfl
                  · rw [h1]

theorem tokenize_eq {n : Nat} {s : Str} (h : s.length < n) : tokens n s = tokenize s := tokens_fuel _ _ _ h (by omega)

theorem tokenize_nil : tokenize [] = some [] := rfl

theorem tokenize_blank {c : Nat} {s : Str} (h : c = 32 ∨ c = 9) : tokenize (c :: s) = tokenize s := by
  conv => lhs; unfold tokenize tokens
  rw [if_pos h]
  exact tokenize_eq (by simp)

theorem tokenize_blanks {b : Str} (h : Blanks b) (s : Str) : tokenize (b ++ s) = tokenize s := by
  induction b with
  | nil => rfl
  | cons c b ih => rw [List.cons_append, tokenize_blank (h c (by simp)), ih (fun x hx => h x (by simp [hx]))]

theorem tokenize_comment (s : Str) : tokenize (35 :: s) = some [] := by
  unfold tokenize tokens
  rw [if_neg (by decide), if_pos rfl]

theorem tokenize_word {w s : Str} (hw : w ≠ []) (h : ∀ x ∈ w, isWord x = true) (hs : ∀ c ∈ s.head?, isWord c = false) :
    tokenize (w ++ s) = (wordTok w).bind fun t => (tokenize s).map (t :: ·) := by
  have htd : (w ++ s).takeWhile isWord = w ∧ (w ++ s).dropWhile isWord = s := by
    refine Header.Props.take_drop h ?_
    intro c t e
    exact hs c (by rw [e]; rfl)
  cases w with
  | nil => exact absurd rfl hw
  | cons c w =>
    have hc := h c (by simp)
    rw [List.cons_append] at htd ⊢
    conv => lhs; unfold tokenize tokens
    have hb : ¬ (c = 32 ∨ c = 9) := by rintro (rfl | rfl) <;> cases hc
    have hb' : ¬ c = 35 := by rintro rfl; cases hc
    rw [if_neg hb, if_neg hb', if_pos hc, htd.1, htd.2]
    rw [tokenize_eq (by simp; omega)]

theorem symbol_facts : ∀ c t, symbol c = some t → c ≠ 32 ∧ c ≠ 9 ∧ c ≠ 35 ∧ c ≠ 34 ∧ c ≠ 60 ∧ c ≠ 62 ∧ isWord c = false := by
  intro c t h
  unfold symbol at h
  repeat' split at h
  all_goals first | (subst c; decide) | cases h

theorem tokenize_symbol {c : Nat} {t : Tok} {s : Str} (h : symbol c = some t) (hs : c = 42 ∨ c = 61 → s.head? ≠ some c) :
    tokenize (c :: s) = (tokenize s).map (t :: ·) := by
  obtain ⟨h1, h2, h3, h4, h5, h6, h7⟩ := symbol_facts c t h
  conv => lhs; unfold tokenize tokens
  rw [if_neg (by omega), if_neg h3, if_neg (by simp [h7]), if_neg h4, if_neg (by omega), if_neg (by rintro ⟨a, b⟩; exact hs a b), h]
  simp only
  rw [tokenize_eq (by simp)]

theorem tokenize_shift {c : Nat} {s : Str} (h : c = 60 ∨ c = 62) :
    tokenize (c :: c :: s) = (tokenize s).map (.op (if c = 60 then .shl else .shr) :: ·) := by
  conv => lhs; unfold tokenize tokens
  rw [if_neg (by omega), if_neg (by omega), if_neg (by rcases h with rfl | rfl <;> decide), if_neg (by omega), if_pos h]
  simp only
  rw [if_pos trivial, tokenize_eq (by simp only [List.length_cons]; omega)]

theorem tokenize_string {q s : Str} (h : ∀ x ∈ q, x ≠ 34 ∧ x ≠ 92) : tokenize (34 :: (q ++ 34 :: s)) = (tokenize s).map (.str q :: ·) := by
  conv => lhs; unfold tokenize tokens
  have htd : (q ++ 34 :: s).takeWhile (· ≠ 34) = q ∧ (q ++ 34 :: s).dropWhile (· ≠ 34) = 34 :: s := by
    refine Header.Props.take_drop (fun x hx => ?_) ?_
    · simpa using (h x hx).1
    · intro c t e
      cases e
      decide
  rw [if_neg (by decide), if_neg (by decide), if_neg (by decide), if_pos rfl, htd.1, htd.2]
  simp only
  rw [if_neg (fun hm => (h 92 hm).2 rfl), tokenize_eq (by simp; omega)]

/-! ## Parsing -/

theorem fuel_step : ∀ n, (∀ ts x, operand n ts = some x → operand (n + 1) ts = some x) ∧
    (∀ p ts x, expr n p ts = some x → expr (n + 1) p ts = some x) ∧
    (∀ p e ts x, more n p e ts = some x → more (n + 1) p e ts = some x) := by
  intro n
  induction n with
  | zero => refine ⟨?_, ?_, ?_⟩ <;> intros <;> simp_all [operand, expr, more]
  | succ n ih =>
    obtain ⟨h1, h2, h3⟩ := ih
    refine ⟨?_, ?_, ?_⟩
    · intro ts x h
      rw [operand.eq_def] at h ⊢
      simp only at h ⊢
      split at h
      · exact h
      · exact h
      · split at h
        · rename_i e
          rw [h2 _ _ _ e]
          exact h
        · cases h
      · exact h
      · split at h
        · rename_i e
          rw [h2 _ _ _ e]
          exact h
        · cases h
      all_goals first
        | cases h
        | (rw [Option.map_eq_some_iff] at h
           obtain ⟨p, hp, rfl⟩ := h
           rw [h1 _ _ hp]
           rfl)
    · intro p ts x h
      rw [expr.eq_def] at h ⊢
      simp only at h ⊢
      split at h
      · rename_i e
        rw [h1 _ _ e]
        exact h3 _ _ _ _ h
      · cases h
    · intro p e ts x h
      rw [more.eq_def] at h ⊢
      simp only at h ⊢
      split at h
      · split at h
        · rename_i hp
          rw [if_pos hp]
          split at h
          · rename_i e
            rw [h2 _ _ _ e]
            exact h3 _ _ _ _ h
          · cases h
        · rename_i hp
          rw [if_neg hp]
          exact h
      · exact h

theorem operand_mono {n m : Nat} {ts : List Tok} {x : Expr × List Tok} (h : operand n ts = some x) (hm : n ≤ m) : operand m ts = some x := by
  induction hm with
  | refl => exact h
  | step _ ih => exact (fuel_step _).1 _ _ ih
theorem expr_mono {n m p : Nat} {ts : List Tok} {x : Expr × List Tok} (h : expr n p ts = some x) (hm : n ≤ m) : expr m p ts = some x := by
  induction hm with
  | refl => exact h
  | step _ ih => exact (fuel_step _).2.1 _ _ _ ih
theorem more_mono {n m p : Nat} {e : Expr} {ts : List Tok} {x : Expr × List Tok} (h : more n p e ts = some x) (hm : n ≤ m) :
    more m p e ts = some x := by
  induction hm with
  | refl => exact h
  | step _ ih => exact (fuel_step _).2.2 _ _ _ _ ih

/-- Tokens that are an operand. -/
def Operand (ts : List Tok) (e : Expr) : Prop :=
  ts ≠ [] ∧ ∀ r, r.head? ≠ some .lpar → operand (3 * ts.length - 1) (ts ++ r) = some (e, r)

/-- Tokens that are an expression of operators that bind at least as tightly as `p`. -/
def Phrase (p : Nat) (ts : List Tok) (e : Expr) : Prop :=
  ts ≠ [] ∧ ∀ q ≤ p, ∀ r, r.head? ≠ some .lpar → (∀ o t, r = .op o :: t → o.prec ≤ p) → ∀ n x, more n q e r = some x →
    expr (n + 3 * ts.length) q (ts ++ r) = some x

theorem len_pos {ts : List Tok} (h : ts ≠ []) : 0 < ts.length := List.length_pos_iff.2 h

theorem Operand.phrase {ts : List Tok} {e : Expr} (h : Operand ts e) (p : Nat) : Phrase p ts e := by
  refine ⟨h.1, fun q _ r hr _ n x hx => ?_⟩
  have := len_pos h.1
  obtain ⟨m, hm⟩ : ∃ m, n + 3 * ts.length = m + 1 := ⟨n + 3 * ts.length - 1, by omega⟩
  rw [hm, expr, operand_mono (h.2 r hr) (by omega)]
  exact more_mono hx (by omega)

theorem Phrase.up {p q : Nat} {ts : List Tok} {e : Expr} (h : Phrase p ts e) (hq : q ≤ p) : Phrase q ts e :=
  ⟨h.1, fun k hk r hr ho n x hx => h.2 k (by omega) r hr (fun o t e => by have := ho o t e; omega) n x hx⟩

/-- Before a closing parenthesis, and at the end. -/
theorem Phrase.stop {p : Nat} {ts : List Tok} {e : Expr} (h : Phrase p ts e) {q : Nat} (hq : q ≤ p) {r : List Tok}
    (hr : r = [] ∨ ∃ t, r = .rpar :: t) : expr (1 + 3 * ts.length) q (ts ++ r) = some (e, r) := by
  refine h.2 q hq r ?_ ?_ 1 _ ?_
  · rcases hr with rfl | ⟨t, rfl⟩ <;> simp
  · rcases hr with rfl | ⟨t, rfl⟩ <;> simp
  · rcases hr with rfl | ⟨t, rfl⟩ <;> rfl

theorem Operand.paren {ts : List Tok} {e : Expr} (h : Phrase 1 ts e) : Operand (.lpar :: (ts ++ [.rpar])) e := by
  refine ⟨by simp, fun r _ => ?_⟩
  have hl : 3 * (Tok.lpar :: (ts ++ [Tok.rpar])).length - 1 = (1 + 3 * ts.length + 3) + 1 := by simp; omega
  rw [hl, List.cons_append, List.append_assoc, List.singleton_append, operand, expr_mono (h.stop (Nat.le_refl 1) (.inr ⟨r, rfl⟩)) (by omega)]

theorem Operand.call {ts : List Tok} {e : Expr} (f : Str) (h : Phrase 1 ts e) : Operand (.name f :: .lpar :: (ts ++ [.rpar])) (.call f e) := by
  refine ⟨by simp, fun r _ => ?_⟩
  have hl : 3 * (Tok.name f :: Tok.lpar :: (ts ++ [Tok.rpar])).length - 1 = (1 + 3 * ts.length + 6) + 1 := by simp; omega
  rw [hl, List.cons_append, List.cons_append, List.append_assoc, List.singleton_append, operand, expr_mono (h.stop (Nat.le_refl 1) (.inr ⟨r, rfl⟩)) (by omega)]

theorem Operand.num (n : Nat) : Operand [.num n] (.num n) := ⟨by simp, fun r _ => rfl⟩

theorem Operand.str (s : Str) : Operand [.str s] (.str s) := ⟨by simp, fun r _ => rfl⟩

theorem Operand.name (n : Str) : Operand [.name n] (.name n) := by
  refine ⟨by simp, fun r hr => ?_⟩
  show operand (1 + 1) (.name n :: r) = _
  rw [operand]
  rintro t rfl
  exact hr rfl

theorem Operand.unary {t : Tok} {f : Expr → Expr} (ht : (t = .op .minus ∧ f = .neg) ∨ (t = .op .plus ∧ f = .pos) ∨ (t = .tilde ∧ f = .inv))
    {ts : List Tok} {e : Expr} (h : Operand ts e) : Operand (t :: ts) (f e) := by
  refine ⟨by simp, fun r hr => ?_⟩
  have hl : 3 * (t :: ts).length - 1 = (3 * ts.length - 1) + 2 + 1 := by
    have := len_pos h.1
    simp; omega
  have ho := operand_mono (m := 3 * ts.length - 1 + 2) (h.2 r hr) (by omega)
  rw [hl, List.cons_append]
  rcases ht with ⟨rfl, rfl⟩ | ⟨rfl, rfl⟩ | ⟨rfl, rfl⟩ <;> rw [operand, ho] <;> rfl

theorem Phrase.bin {o : Op} {tl tr : List Tok} {l r : Expr} (hl : Phrase o.prec tl l) (hr : Phrase (o.prec + 1) tr r) :
    Phrase o.prec (tl ++ (.op o :: tr)) (.bin o l r) := by
  refine ⟨by simp, fun q hq rest h1 h2 n x hx => ?_⟩
  have hright : expr (1 + 3 * tr.length) (o.prec + 1) (tr ++ rest) = some (r, rest) := by
    refine hr.2 _ (Nat.le_refl _) rest h1 (fun o' t e => by have := h2 o' t e; omega) 1 _ ?_
    rw [more.eq_def]
    simp only
    split
    · rw [if_neg]
      have := h2 _ _ rfl
      omega
    · rfl
  have hmid : more (n + 3 * tr.length + 2) q l (.op o :: (tr ++ rest)) = some x := by
    rw [more, if_pos hq, expr_mono hright (by omega)]
    exact more_mono hx (by omega)
  have := hl.2 q hq (.op o :: (tr ++ rest)) (by simp) (by intro o' t e; cases e; exact Nat.le_refl _) _ x hmid
  rw [List.append_assoc, List.cons_append]
  refine expr_mono this ?_
  simp only [List.length_append, List.length_cons]
  omega

theorem Phrase.parse {ts : List Tok} {e : Expr} (h : Phrase 1 ts e) : parse ts = some e := by
  unfold PyExpr.parse
  have := h.stop (Nat.le_refl 1) (r := []) (.inl rfl)
  rw [List.append_nil] at this
  rw [expr_mono this (by omega)]

/-! ## Numbers -/

theorem decLoop_head : ∀ fuel n, n < fuel → 0 < n → ∀ x t, decLoop fuel n = x :: t → x ≠ 48 := by
  intro fuel
  induction fuel with
  | zero => intro n h; omega
  | succ f ih =>
    intro n h h0 x t e
    rw [decLoop] at e
    split at e
    · cases e
      omega
    · cases e' : decLoop f (n / 10) with
      | nil =>
        exfalso
        cases f with
        | zero => omega
        | succ f =>
          rw [decLoop] at e'
          split at e' <;> simp at e'
      | cons y u =>
        rw [e'] at e
        cases e
        exact ih _ (by omega) (by omega) _ _ e'

theorem decLoop_ne (n : Nat) : decLoop (n + 1) n ≠ [] := by
  rw [decLoop]
  split <;> simp

theorem number_decimal (n : Nat) : number (decLoop (n + 1) n) = some n := by
  have h : digitsLoop 10 .start 0 (decLoop (n + 1) n) = .ok n := by
    obtain ⟨k, hk⟩ := Header.Props.digitsLoop_decLoop (n + 1) n (by omega)
    have := hk .start 0 []
    rw [List.append_nil] at this
    rw [this]
    simp [digitsLoop]
  unfold number
  split
  · rename_i e
    by_cases h0 : n = 0
    · subst h0
      cases e
    · exact absurd rfl (decLoop_head (n + 1) n (by omega) (by omega) _ _ e)
  · rw [h]; rfl

theorem hex_facts : ∀ c ∈ txt "0123456789abcdefABCDEF", digitOf c = some (hexDigit c) ∧ hexDigit c < 16 ∧ c ≠ 95 ∧ isWord c = true := by decide

theorem digitsLoop_hex : ∀ (ds : Str) (p : Prev) (acc : Nat), (∀ c ∈ ds, c ∈ txt "0123456789abcdefABCDEF") → ds ≠ [] ∨ p = .digit →
    digitsLoop 16 p acc ds = .ok (ds.foldl (fun n c => n * 16 + hexDigit c) acc) := by
  intro ds
  induction ds with
  | nil =>
    intro p acc _ h
    rcases h with h | rfl
    · exact absurd rfl h
    · rfl
  | cons c ds ih =>
    intro p acc h _
    obtain ⟨h1, h2, h3, _⟩ := hex_facts c (h c (by simp))
    rw [digitsLoop, if_neg h3, h1]
    simp only
    rw [if_pos h2, ih _ _ (fun x hx => h x (by simp [hx])) (.inr rfl)]
    rfl

theorem numeral_word {s : Str} {n : Nat} (h : Numeral s n) : s ≠ [] ∧ (∀ x ∈ s, isWord x = true) ∧ wordTok s = some (.num n) := by
  cases h with
  | dec n =>
    rw [← Header.Props.pyStr_eq]
    unfold pyStr
    rw [if_neg (by omega), Int.natAbs_natCast]
    have hd := Header.Props.decLoop_digits (n + 1) n (by omega)
    refine ⟨decLoop_ne n, fun x hx => ?_, ?_⟩
    · have := hd x hx
      unfold isWord
      simp
      omega
    · unfold wordTok
      cases e : decLoop (n + 1) n with
      | nil => exact absurd e (decLoop_ne n)
      | cons c t =>
        have := hd c (by rw [e]; simp)
        rw [if_pos (by simpa using this), ← e, number_decimal]
        rfl
  | @hex x ds hx hne hds =>
    have hx' : x = 120 ∨ x = 88 := by
      revert hx
      show x ∈ [120, 88] → _
      simp
    refine ⟨by simp, fun y hy => ?_, ?_⟩
    · simp only [List.mem_cons] at hy
      rcases hy with rfl | rfl | hy
      · rfl
      · rcases hx' with rfl | rfl <;> rfl
      · exact (hex_facts y (hds y hy)).2.2.2
    · unfold wordTok
      rw [if_pos (by rfl)]
      unfold number
      simp only
      rw [if_pos hx', digitsLoop_hex ds .base 0 hds (.inl hne)]
      rfl

end Verif.PyExpr

import Verif.Lemmas.PyExpr
import Verif.Lemmas.PyBits
/-! # C expressions read by Python -/
namespace Verif.PyExpr
open Verif.Header Verif.Header.Spec Verif.CHeader.Spec

/-- The operator of Python. -/
def opOf : Bin → Op
  | .bitOr => .bar
  | .bitXor => .caret
  | .bitAnd => .amp
  | .shiftLeft => .shl
  | .shiftRight => .shr
  | .add => .plus
  | .sub => .minus
  | .mul => .star

theorem prec_opOf (o : Bin) : (opOf o).prec = o.level := by cases o <;> rfl

theorem apply_opOf {o : Bin} {a b v : Int} (ha : InInt a) (hb : InInt b) (h : o.Means a b v) : (opOf o).apply a b = .ok v := by
  cases o with
  | bitOr => exact congrArg _ ((pyOr_int ha hb).trans h.symm)
  | bitXor => exact congrArg _ ((pyXor_int ha hb).trans h.symm)
  | bitAnd => exact congrArg _ ((pyAnd_int ha hb).trans h.symm)
  | shiftLeft =>
    obtain ⟨_, h1, _, rfl⟩ := h
    show (if b < 0 then _ else _) = _
    rw [if_neg (by omega)]
  | shiftRight =>
    obtain ⟨_, h1, _, rfl⟩ := h
    show (if b < 0 then _ else _) = _
    rw [if_neg (by omega)]
  | add => exact congrArg _ h.symm
  | sub => exact congrArg _ h.symm
  | mul => exact congrArg _ h.symm

/-- The tokens of a text, before anything that does not continue a word. -/
def Spelled (s : Str) (ts : List Tok) : Prop :=
  ∀ rest, (∀ c ∈ rest.head?, isWord c = false) → tokenize (s ++ rest) = (tokenize rest).map (ts ++ ·)

theorem blanks_head {b s : Str} (hb : Blanks b) (hs : ∀ c ∈ s.head?, isWord c = false) : ∀ c ∈ (b ++ s).head?, isWord c = false := by
  cases b with
  | nil => exact hs
  | cons x b =>
    intro c hc
    cases hc
    rcases hb x (by simp) with rfl | rfl <;> rfl

theorem Spelled.symbol {c : Nat} {t : Tok} (h : symbol c = some t) (hc : c ≠ 42 ∧ c ≠ 61) : Spelled [c] [t] := by
  intro rest _
  exact tokenize_symbol h (by omega)

theorem Spelled.blanks {b : Str} (h : Blanks b) : Spelled b [] := by
  intro rest _
  rw [tokenize_blanks h]
  simp

theorem Spelled.append {s t : Str} {ts us : List Tok} (h1 : Spelled s ts) (h2 : Spelled t us)
    (ht : ∀ c ∈ t.head?, isWord c = false) (h0 : t ≠ []) : Spelled (s ++ t) (ts ++ us) := by
  intro rest hr
  rw [List.append_assoc, h1, h2 rest hr, Option.map_map]
  · simp [Function.comp_def]
  · cases t with
    | nil => exact absurd rfl h0
    | cons c t => exact ht

theorem op_tokens {o : Bin} {s : Str} (hs : ∀ c ∈ s.head?, c ≠ 42) : tokenize (o.text ++ s) = (tokenize s).map (.op (opOf o) :: ·) := by
  cases o with
  | bitOr => exact tokenize_symbol (c := 124) rfl (by omega)
  | bitXor => exact tokenize_symbol (c := 94) rfl (by omega)
  | bitAnd => exact tokenize_symbol (c := 38) rfl (by omega)
  | shiftLeft => exact tokenize_shift (c := 60) (.inl rfl)
  | shiftRight => exact tokenize_shift (c := 62) (.inr rfl)
  | add => exact tokenize_symbol (c := 43) rfl (by omega)
  | sub => exact tokenize_symbol (c := 45) rfl (by omega)
  | mul => exact tokenize_symbol (c := 42) rfl (fun _ h => hs 42 h rfl)

theorem op_head (o : Bin) (s : Str) : ∀ c ∈ (o.text ++ s).head?, isWord c = false := by
  cases o <;> (intro c hc; cases hc; rfl)

theorem ident_word {n : Str} (h : Ident n) (hk : n ∉ keywords) : n ≠ [] ∧ (∀ x ∈ n, isWord x = true) ∧ wordTok n = some (.name n) := by
  refine ⟨h.1.1, Header.Props.words h.1.2, ?_⟩
  unfold wordTok
  rw [if_neg, if_neg hk]
  cases n with
  | nil => exact absurd rfl h.1.1
  | cons c n =>
    have := h.2 c rfl
    simp only [List.head?_cons, Option.any_some, decide_eq_true_eq]
    rintro ⟨h1, h2⟩
    refine this ?_
    have hall : ∀ k < 10, 48 + k ∈ txt "0123456789" := by decide
    have := hall (c - 48) (by omega)
    rwa [show 48 + (c - 48) = c by omega] at this

theorem Spelled.word {w : Str} {t : Tok} (h1 : w ≠ []) (h2 : ∀ x ∈ w, isWord x = true) (h3 : wordTok w = some t) : Spelled w [t] := by
  intro rest hr
  rw [tokenize_word h1 h2 hr, h3]
  rfl

/-- What Python makes of the text of an expression at a level. -/
structure Understood (env : Str → Option Val) (call : Val → Int → Py Int) (p : Nat) (s : Str) (v : Int) : Prop where
  inInt : InInt v
  head : ∃ c t, s = c :: t ∧ c ≠ 42
  reads : ∃ ts e, Spelled s ts ∧ Phrase p ts e ∧ (7 ≤ p → Operand ts e) ∧ e.eval env call = .ok (.int v)

theorem Understood.of_operand {env : Str → Option Val} {call : Val → Int → Py Int} {p : Nat} {s : Str} {v : Int} {ts : List Tok} {e : Expr}
    (h0 : InInt v) (h1 : ∃ c t, s = c :: t ∧ c ≠ 42) (h2 : Spelled s ts) (h3 : Operand ts e) (h4 : e.eval env call = .ok (.int v)) :
    Understood env call p s v := ⟨h0, h1, ts, e, h2, h3.phrase p, fun _ => h3, h4⟩

theorem word_head {w : Str} (h1 : w ≠ []) (h2 : ∀ x ∈ w, isWord x = true) (s : Str) : ∃ c t, w ++ s = c :: t ∧ c ≠ 42 := by
  cases w with
  | nil => exact absurd rfl h1
  | cons c w =>
    refine ⟨c, w ++ s, rfl, ?_⟩
    rintro rfl
    cases h2 42 (by simp)

theorem spelled_paren {a s b : Str} {ts : List Tok} (ha : Blanks a) (h : Spelled s ts) (hb : Blanks b) :
    Spelled (txt "(" ++ (a ++ (s ++ (b ++ txt ")")))) (.lpar :: (ts ++ [.rpar])) := by
  intro rest hr
  show tokenize (40 :: ((a ++ (s ++ (b ++ txt ")"))) ++ rest)) = _
  rw [tokenize_symbol (c := 40) (t := .lpar) rfl (by omega), List.append_assoc, tokenize_blanks ha, List.append_assoc, h _
    (by rw [List.append_assoc]; exact blanks_head hb (by intro c hc; cases hc; rfl)), List.append_assoc, tokenize_blanks hb]
  show Option.map _ (Option.map _ (tokenize (41 :: rest))) = _
  rw [tokenize_symbol (c := 41) (t := .rpar) rfl (by omega)]
  simp [Option.map_map, Function.comp_def]

theorem spelled_unary {c : Nat} {t : Tok} (hc : symbol c = some t) (h42 : c ≠ 42 ∧ c ≠ 61) {a s : Str} {ts : List Tok} (ha : Blanks a)
    (h : Spelled s ts) : Spelled (c :: (a ++ s)) (t :: ts) := by
  intro rest hr
  rw [List.cons_append, tokenize_symbol hc (by omega), List.append_assoc, tokenize_blanks ha, h rest hr]
  simp [Option.map_map, Function.comp_def]

/-- What an expression denotes in C is what Python makes of it. -/
theorem understood {scope : Str → Option Int} {fn : Str → Int → Option Int} {env : Str → Option Val} {call : Val → Int → Py Int}
    (hs : ∀ n v, scope n = some v → env n = some (.int v) ∧ n ∉ keywords ∧ InInt v)
    (hf : ∀ f v r, fn f v = some r → f ∉ keywords ∧ ∃ g, env f = some g ∧ call g v = .ok r) {p : Nat} {s : Str} {v : Int}
    (h : Denotes scope fn p s v) : Understood env call p s v := by
  induction h with
  | num hn hi =>
    obtain ⟨h1, h2, h3⟩ := numeral_word hn
    exact .of_operand hi (by simpa using word_head h1 h2 []) (.word h1 h2 h3) (.num _) rfl
  | @name n v hn hv =>
    obtain ⟨he, hk, hi⟩ := hs _ _ hv
    obtain ⟨h1, h2, h3⟩ := ident_word hn hk
    refine .of_operand hi (by simpa using word_head h1 h2 []) (.word h1 h2 h3) (.name _) ?_
    simp only [Expr.eval, he]
  | paren ha _ hb ih =>
    obtain ⟨hi, _, ts, e, h1, h2, _, h4⟩ := ih
    exact .of_operand hi ⟨_, _, rfl, by decide⟩ (spelled_paren ha h1 hb) (.paren h2) h4
  | @call f a s b v r hn ha _ hb hr hi ih =>
    obtain ⟨_, _, ts, e, h1, h2, _, h4⟩ := ih
    obtain ⟨hk, g, hg, hc⟩ := hf _ _ _ hr
    obtain ⟨w1, w2, w3⟩ := ident_word hn hk
    refine .of_operand hi (word_head w1 w2 _) ?_ (.call f h2) ?_
    · exact (Spelled.word w1 w2 w3).append (spelled_paren ha h1 hb) (by intro c hc; cases hc; rfl) (by simp [txt])
    · simp only [Expr.eval, hg, h4, bind, Except.bind, hc]
      rfl
  | @neg a s v ha _ _ hi ih =>
    obtain ⟨_, _, ts, e, h1, _, h3, h4⟩ := ih
    refine .of_operand hi ⟨_, _, rfl, by decide⟩ (spelled_unary (c := 45) (a := a) (s := s) rfl (by decide) ha h1)
      (.unary (.inl ⟨rfl, rfl⟩) (h3 (by omega))) ?_
    simp only [Expr.eval, h4, bind, Except.bind]
    rfl
  | @pos a s v ha _ _ ih =>
    obtain ⟨hi, _, ts, e, h1, _, h3, h4⟩ := ih
    refine .of_operand hi ⟨_, _, rfl, by decide⟩ (spelled_unary (c := 43) (a := a) (s := s) rfl (by decide) ha h1)
      (.unary (.inr (.inl ⟨rfl, rfl⟩)) (h3 (by omega))) ?_
    simp only [Expr.eval, h4, bind, Except.bind]
    rfl
  | @inv a s v ha _ ih =>
    obtain ⟨hi, _, ts, e, h1, _, h3, h4⟩ := ih
    refine .of_operand ?_ ⟨_, _, rfl, by decide⟩ (spelled_unary (c := 126) (a := a) (s := s) rfl (by decide) ha h1)
      (.unary (.inr (.inr ⟨rfl, rfl⟩)) (h3 (by omega))) ?_
    · rw [← pyInv_int hi, show ∀ x : Int, -x - 1 = -1 - x by intro x; omega]
      exact inInt_inv hi
    · simp only [Expr.eval, h4, bind, Except.bind]
      rw [← pyInv_int hi]
      rfl
  | @bin o l a b r x y v _ ha hb _ _ hm hi ihl ihr =>
    obtain ⟨hx, ⟨c, t, hc, h42⟩, tl, el, l1, l2, l3, l4⟩ := ihl
    obtain ⟨hy, ⟨c', t', hc', h42'⟩, tr, er, r1, r2, r3, r4⟩ := ihr
    rw [← prec_opOf] at l2 r2
    refine ⟨hi, ⟨c, t ++ (a ++ (o.text ++ (b ++ r))), by rw [hc]; rfl, h42⟩, tl ++ (.op (opOf o) :: tr), .bin (opOf o) el er, ?_, ?_, ?_, ?_⟩
    · intro rest hr
      have hop : ∀ c ∈ (b ++ (r ++ rest)).head?, c ≠ 42 := by
        intro d hd
        cases b with
        | nil => rw [List.nil_append, hc'] at hd; cases hd; exact h42'
        | cons e b => cases hd; rcases hb _ List.mem_cons_self with h | h <;> omega
      rw [List.append_assoc, l1 _ (by simp only [List.append_assoc]; exact blanks_head ha (op_head o _))]
      simp only [List.append_assoc]
      rw [tokenize_blanks ha, op_tokens hop, tokenize_blanks hb, r1 rest hr]
      simp [Option.map_map, Function.comp_def]
    · rw [← prec_opOf]
      exact .bin l2 r2
    · intro h7
      cases o <;> simp [Bin.level] at h7
    · simp only [Expr.eval, l4, r4, bind, Except.bind, apply_opOf hx hy hm]
      rfl
  | up hp _ ih =>
    obtain ⟨hi, hh, ts, e, h1, h2, h3, h4⟩ := ih
    exact ⟨hi, hh, ts, e, h1, h2.up (by omega), fun h7 => h3 (by omega), h4⟩

theorem Denotes.up_le {scope : Str → Option Int} {fn : Str → Int → Option Int} {p q : Nat} {s : Str} {v : Int} (h : Denotes scope fn p s v)
    (hp : p ≤ 8) (hq : q ≤ p) : Denotes scope fn q s v := by
  induction hq with
  | refl => exact h
  | step _ ih => exact ih (.up (by omega) h) (by omega)

end Verif.PyExpr

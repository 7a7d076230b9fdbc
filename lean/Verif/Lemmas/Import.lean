import Verif.Model.PyExpr
/-! # Importing a module in pieces -/
namespace Verif.PyExpr

/-- More names do not change the value of an expression. -/
theorem eval_mono {f g : Str → Option Val} {c d : Val → Int → Py Int} (hf : ∀ s v, f s = some v → g s = some v)
    (hc : ∀ v a n, c v a = .ok n → d v a = .ok n) : ∀ {e : Expr} {v : Val}, e.eval f c = .ok v → e.eval g d = .ok v
  | .num n, v, h => h
  | .str s, v, h => h
  | .name s, v, h => by
    simp only [Expr.eval] at h ⊢
    cases hs : f s with
    | none => rw [hs] at h; exact nomatch h
    | some w => rw [hs] at h; rw [hf s w hs]; exact h
  | .call x e, v, h => by
    simp only [Expr.eval] at h ⊢
    cases hs : f x with
    | none => rw [hs] at h; exact nomatch h
    | some w =>
      rw [hs] at h; rw [hf x w hs]
      simp only [bind, Except.bind] at h ⊢
      cases he : e.eval f c with
      | error _ => rw [he] at h; exact nomatch h
      | ok u =>
        rw [he] at h; rw [eval_mono hf hc he]
        cases u with
        | int a =>
          simp only at h ⊢
          cases hcall : c w a with
          | error _ => rw [hcall] at h; exact nomatch h
          | ok n => rw [hcall] at h; rw [hc _ _ _ hcall]; exact h
        | str => exact nomatch h
        | fn => exact nomatch h
  | .neg e, v, h => by
    simp only [Expr.eval, bind, Except.bind] at h ⊢
    cases he : e.eval f c with
    | error _ => rw [he] at h; exact nomatch h
    | ok u => rw [he] at h; rw [eval_mono hf hc he]; exact h
  | .pos e, v, h => by
    simp only [Expr.eval, bind, Except.bind] at h ⊢
    cases he : e.eval f c with
    | error _ => rw [he] at h; exact nomatch h
    | ok u => rw [he] at h; rw [eval_mono hf hc he]; exact h
  | .inv e, v, h => by
    simp only [Expr.eval, bind, Except.bind] at h ⊢
    cases he : e.eval f c with
    | error _ => rw [he] at h; exact nomatch h
    | ok u => rw [he] at h; rw [eval_mono hf hc he]; exact h
  | .bin o l r, v, h => by
    simp only [Expr.eval, bind, Except.bind] at h ⊢
    cases hl : l.eval f c with
    | error _ => rw [hl] at h; exact nomatch h
    | ok u =>
      rw [hl] at h; rw [eval_mono hf hc hl]
      simp only at h ⊢
      cases hr : r.eval f c with
      | error _ => rw [hr] at h; exact nomatch h
      | ok w => rw [hr] at h; rw [eval_mono hf hc hr]; exact h

theorem lookup_append {a b : List (Str × Val)} {s : Str} {v : Val} (h : lookup a s = some v) : lookup (a ++ b) s = some v := by
  rw [lookup] at h ⊢
  rw [List.lookup_append, h]; rfl

theorem callIn_append {a b : List (Str × Val)} {f : Val} {x n : Int} (h : callIn a f x = .ok n) : callIn (a ++ b) f x = .ok n := by
  cases f with
  | int => exact nomatch h
  | str => exact nomatch h
  | fn y body =>
    simp only [callIn, bind, Except.bind] at h ⊢
    cases he : body.eval (fun s => if s = y then some (.int x) else lookup a s) (fun _ _ => .error .valueError) with
    | error _ => rw [he] at h; exact nomatch h
    | ok u =>
      rw [he] at h
      rw [eval_mono (fun s v hs => ?_) (fun _ _ _ h => h) he]
      · exact h
      · split
        · next hy => rw [if_pos hy] at hs; exact hs
        · next hy => rw [if_neg hy] at hs; exact lookup_append hs

/-- A line that runs with the names `a` runs with more names below them. -/
theorem execLine_append {a b r : List (Str × Val)} {line : Str} (h : execLine a line = .ok r) : execLine (a ++ b) line = .ok (r ++ b) := by
  rw [execLine] at h ⊢
  split
  · next hd =>
    rw [if_pos hd] at h
    cases hl : defLine line with
    | none => rw [hl] at h; exact nomatch h
    | some f => rw [hl] at h; cases h; rfl
  · next hd =>
    rw [if_neg hd] at h
    generalize tokenize line = ts at h ⊢
    split at h
    · exact nomatch h
    · cases h; rfl
    · next n ts' =>
      split at h
      · exact nomatch h
      · next hh =>
        rw [if_neg hh]
        cases hp : parse ts' with
        | none => rw [hp] at h; exact nomatch h
        | some e =>
          rw [hp] at h
          simp only [bind, Except.bind] at h ⊢
          cases he : e.eval (lookup a) (callIn a) with
          | error _ => rw [he] at h; exact nomatch h
          | ok v =>
            rw [he] at h; cases h
            rw [eval_mono (fun _ _ hs => lookup_append hs) (fun _ _ _ hc => callIn_append hc) he]; rfl
    · exact nomatch h

theorem execLines_weaken : ∀ {ls : List Str} {a b r : List (Str × Val)}, execLines a ls = .ok r → execLines (a ++ b) ls = .ok (r ++ b)
  | [], a, b, r, h => by cases h; rfl
  | l :: ls, a, b, r, h => by
    simp only [execLines, bind, Except.bind] at h ⊢
    cases he : execLine a l with
    | error _ => rw [he] at h; exact nomatch h
    | ok a' => rw [he] at h; rw [execLine_append he]; exact execLines_weaken h

theorem execLines_pieces : ∀ {ls ms : List Str} {a r q : List (Str × Val)}, execLines a ls = .ok r → execLines [] ms = .ok q →
    execLines a (ls ++ ms) = .ok (q ++ r)
  | [], ms, a, r, q, h, hm => by cases h; exact execLines_weaken (a := []) hm
  | l :: ls, ms, a, r, q, h, hm => by
    rw [List.cons_append]
    simp only [execLines, bind, Except.bind] at h ⊢
    cases he : execLine a l with
    | error _ => rw [he] at h; exact nomatch h
    | ok a' => rw [he] at h; exact execLines_pieces h hm

theorem afterQuotes_append : ∀ {d : Str}, 34 ∉ d → 92 ∉ d → ∀ s : Str, afterQuotes (d ++ 34 :: 34 :: 34 :: s) = some s
  | [], _, _, _ => rfl
  | c :: d, h, h', s => by
    rw [List.mem_cons, not_or] at h h'
    rw [List.cons_append, afterQuotes.eq_def]
    split
    · rename_i e
      exact absurd (List.cons.inj e).1.symm h.1
    · rename_i e
      exact absurd (List.cons.inj e).1.symm h'.1
    · rename_i e
      rw [← (List.cons.inj e).2]
      exact afterQuotes_append h.2 h'.2 s
    · rename_i e
      cases e

theorem splitOn_plain : ∀ {f : Str}, 10 ∉ f → ∀ s : Str, splitOn 10 (f ++ 10 :: s) = f :: splitOn 10 s
  | [], _, s => by rw [List.nil_append, splitOn, if_pos rfl]
  | c :: f, h, s => by
    rw [List.cons_append, splitOn, if_neg (fun h' : c = 10 => h (h' ▸ List.mem_cons_self)),
      splitOn_plain (fun h' => h (List.mem_cons_of_mem _ h')) s]

theorem splitOn_one : ∀ {f : Str}, 10 ∉ f → splitOn 10 f = [f]
  | [], _ => rfl
  | c :: f, h => by
    rw [splitOn, if_neg (fun h' : c = 10 => h (h' ▸ List.mem_cons_self)), splitOn_one (fun h' => h (List.mem_cons_of_mem _ h'))]

theorem splitOn_joined : ∀ {ls : List Str}, ls ≠ [] → (∀ l ∈ ls, 10 ∉ l) → splitOn 10 (join [10] ls) = ls
  | [], h, _ => absurd rfl h
  | [l], _, h => by
    rw [show join [10] [l] = l by simp [join]]
    exact splitOn_one (h l List.mem_cons_self)
  | l :: m :: ls, _, h => by
    have ih := splitOn_joined (ls := m :: ls) (by simp) (fun x hx => h x (List.mem_cons_of_mem _ hx))
    have e : join [10] (l :: m :: ls) = l ++ 10 :: join [10] (m :: ls) := by
      simp only [join]; rw [List.intercalate_cons_cons]; simp
    rw [e, splitOn_plain (h l List.mem_cons_self), ih]

/-- A module with a docstring. -/
theorem import_lines {d : Str} {ls : List Str} (hd : 34 ∉ d) (hd' : 92 ∉ d) (hl : ls ≠ []) (h : ∀ l ∈ ls, 10 ∉ l) :
    importModule (34 :: 34 :: 34 :: (d ++ 34 :: 34 :: 34 :: 10 :: join [10] ls)) = execLines [] ls := by
  rw [importModule, afterQuotes_append hd hd']
  have : splitOn 10 (10 :: join [10] ls) = [] :: ls := by rw [splitOn, if_pos rfl, splitOn_joined hl h]
  rw [Option.map_some, this]

end Verif.PyExpr

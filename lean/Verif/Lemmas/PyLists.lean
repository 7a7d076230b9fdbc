import Verif.Model.PyLists
import Verif.Spec.CInit
import Verif.Lemmas.CExpr
/-!
# Lemmas about Python modules of numbers and lists of numbers
-/
namespace Verif.PyLists
open Verif.CHeader.Spec Verif.Header

/-! ## Tokens -/

theorem scan_word : ∀ {u : Str} {m : Mode}, u ≠ [] → m ≠ .note → m ≠ .noteIn → (∀ x ∈ u, isWord x = true) → ∀ (w s : Str),
    scan m w (u ++ s) = scan (if m = .list then .list else .code) (w ++ u) s
  | [c], m, _, h1, h2, h, w, s => by
    rw [List.singleton_append, scan.eq_def]
    simp only [h1, h2, if_false, h c (by simp), if_true]
  | c :: d :: u, m, _, h1, h2, h, w, s => by
    rw [List.cons_append, scan.eq_def]
    simp only [h1, h2, if_false, h c (by simp), if_true]
    rw [scan_word (u := d :: u) (by simp) (by split <;> simp) (by split <;> simp) (fun x hx => h x (by simp [hx]))]
    have : (if (if m = Mode.list then Mode.list else Mode.code) = Mode.list then Mode.list else Mode.code) =
        if m = Mode.list then Mode.list else Mode.code := by split <;> simp
    rw [this, List.append_assoc]
    rfl

theorem scan_step {m : Mode} {c : Nat} (h1 : m ≠ .note) (h2 : m ≠ .noteIn) (hc : isWord c = false) {w : Str} {ts us : List Tok} {m' : Mode}
    (hw : flush w = some ts) (hs : step m c = some (us, m')) (s : Str) :
    scan m w (c :: s) = (scan m' [] s).map fun vs => ts ++ (us ++ vs) := by
  rw [scan.eq_def]
  simp only [h1, h2, if_false, hc, hw, hs, Bool.false_eq_true]

theorem flush_nil : flush [] = some [] := rfl

theorem map_nil_append (o : Option (List Tok)) : (o.map fun vs => [] ++ ([] ++ vs)) = o := by
  cases o <;> rfl

theorem scan_space {a : Str} (h : Space a) (s : Str) : scan .list [] (a ++ s) = scan .list [] s := by
  induction a with
  | nil => rfl
  | cons c a ih =>
    rw [List.cons_append]
    have hc := h c (by simp)
    have hw : isWord c = false := by rcases hc with rfl | rfl | rfl <;> rfl
    have hs : step .list c = some ([], .list) := by rcases hc with rfl | rfl | rfl <;> rfl
    rw [scan_step (by simp) (by simp) hw flush_nil hs, map_nil_append]
    exact ih fun x hx => h x (by simp [hx])

theorem scan_blanks {a : Str} (h : Blanks a) (s : Str) : scan .code [] (a ++ s) = scan .code [] s := by
  induction a with
  | nil => rfl
  | cons c a ih =>
    rw [List.cons_append]
    have hc := h c (by simp)
    have hw : isWord c = false := by rcases hc with rfl | rfl <;> rfl
    have hs : step .code c = some ([], .code) := by rcases hc with rfl | rfl <;> rfl
    rw [scan_step (by simp) (by simp) hw flush_nil hs, map_nil_append]
    exact ih fun x hx => h x (by simp [hx])

theorem flush_num {s : Str} {n : Nat} (h : Numeral s n) : flush s = some [.num n] := by
  obtain ⟨h1, -, h3⟩ := PyExpr.numeral_word h
  unfold flush
  rw [if_neg h1, h3]

theorem flush_name {s : Str} (h : Ident s) (hk : s ∉ PyExpr.keywords) : flush s = some [.name s] := by
  obtain ⟨h1, -, h3⟩ := PyExpr.ident_word h hk
  unfold flush
  rw [if_neg h1, h3]

/-- A word that has ended gives its token. -/
theorem scan_flush {m : Mode} (h1 : m ≠ .note) (h2 : m ≠ .noteIn) {w : Str} {t : Tok} (hw : flush w = some [t]) {c : Nat} (hc : isWord c = false)
    (s : Str) : scan m w (c :: s) = (scan m [] (c :: s)).map (t :: ·) := by
  rw [scan.eq_def, scan.eq_def m]
  simp only [h1, h2, if_false, hc, hw, flush_nil, Bool.false_eq_true]
  cases step m c with
  | none => rfl
  | some p =>
    simp only [Option.map_map]
    rfl

theorem scan_numeral {x : Str} {n : Nat} (h : Numeral x n) {m : Mode} (hm : m = .list ∨ m = .code) {c : Nat} (hc : isWord c = false) (s : Str) :
    scan m [] (x ++ c :: s) = (scan m [] (c :: s)).map (.num n :: ·) := by
  obtain ⟨h1, h2, -⟩ := PyExpr.numeral_word h
  rw [scan_word h1 (by rintro rfl; simp at hm) (by rintro rfl; simp at hm) h2, List.nil_append]
  have : (if m = Mode.list then Mode.list else Mode.code) = m := by rcases hm with rfl | rfl <;> rfl
  rw [this]
  exact scan_flush (by rintro rfl; simp at hm) (by rintro rfl; simp at hm) (flush_num h) hc s

/-- A number in a list, with blanks around it. -/
theorem scan_element {a x b : Str} {n : Nat} (ha : Space a) (h : Numeral x n) (hb : Space b) {c : Nat} (hc : isWord c = false) (s : Str) :
    scan .list [] (a ++ (x ++ (b ++ c :: s))) = (scan .list [] (c :: s)).map (.num n :: ·) := by
  rw [scan_space ha]
  cases b with
  | nil => exact scan_numeral h (.inl rfl) hc s
  | cons d b =>
    have hd : isWord d = false := by
      have := hb d (by simp)
      rcases this with rfl | rfl | rfl <;> rfl
    rw [List.cons_append, scan_numeral h (.inl rfl) hd, ← List.cons_append, scan_space hb]

/-! ## Lists -/

/-- The tokens of a list and of the bracket behind it, with or without a comma at the end. -/
inductive Listed : List Tok → List Nat → Prop
  | one (n : Nat) : Listed [.num n, .rbrack] [n]
  | trail (n : Nat) : Listed [.num n, .comma, .rbrack] [n]
  | cons (n : Nat) {ts : List Tok} {ns : List Nat} : Listed ts ns → Listed (.num n :: .comma :: ts) (n :: ns)

theorem listed_elements {ts : List Tok} {ns : List Nat} (h : Listed ts ns) : elements ts = some ns := by
  induction h with
  | one n => rfl
  | trail n => rfl
  | cons n _ ih => rw [elements, ih]; rfl

theorem listed_newline {ts : List Tok} {ns : List Nat} (h : Listed ts ns) : .newline ∉ ts := by
  induction h with
  | one n => simp
  | trail n => simp
  | cons n _ ih => simpa using ih

theorem scan_elements {b : Str} {ns : List Nat} (h : Elements b ns) (s : Str) :
    ∃ ts, Listed ts ns ∧ scan .list [] (b ++ 93 :: s) = (scan .code [] s).map (ts ++ ·) := by
  have hcomma : ∀ s, scan .list [] (44 :: s) = (scan .list [] s).map (.comma :: ·) := fun s => scan_step (m := .list) (m' := .list) (ts := []) (us := [.comma]) (by simp) (by simp) rfl flush_nil rfl s
  have hclose : scan .list [] (93 :: s) = (scan .code [] s).map (.rbrack :: ·) :=
    scan_step (m := .list) (m' := .code) (ts := []) (us := [.rbrack]) (by simp) (by simp) rfl flush_nil rfl s
  induction h with
  | one ha hn hb =>
    refine ⟨_, .one _, ?_⟩
    rw [List.append_assoc, List.append_assoc, scan_element ha hn hb rfl, hclose, Option.map_map]
    rfl
  | trail ha hn hb hc =>
    refine ⟨_, .trail _, ?_⟩
    simp only [List.append_assoc]
    rw [show ∀ t, txt "," ++ t = 44 :: t from fun _ => rfl, scan_element ha hn hb rfl, hcomma, scan_space hc, hclose, Option.map_map, Option.map_map]
    rfl
  | cons ha hn hb _ ih =>
    obtain ⟨ts, h1, h2⟩ := ih
    refine ⟨_, .cons _ h1, ?_⟩
    simp only [List.append_assoc]
    rw [show ∀ t, txt "," ++ t = 44 :: t from fun _ => rfl, scan_element ha hn hb rfl, hcomma, h2, Option.map_map, Option.map_map]
    rfl

/-! ## Pieces of modules -/

/-- What the modules are made of. -/
inductive Piece
  | array (name body : Str) (ns : List Nat)
  | scalar (name value : Str) (n : Nat)
  | note (s : Str)
  | blank

/-- The lines of a piece. -/
def Piece.text : Piece → Str
  | .array name body _ => name ++ (txt " = [" ++ (body ++ txt "]\n"))
  | .scalar name value _ => name ++ (txt " = " ++ (value ++ txt "\n"))
  | .note s => txt "#" ++ (s ++ txt "\n")
  | .blank => txt "\n"

def Piece.Ok : Piece → Prop
  | .array name body ns => Ident name ∧ name ∉ PyExpr.keywords ∧ Elements body ns
  | .scalar name value n => Ident name ∧ name ∉ PyExpr.keywords ∧ Value value n ∧ 10 ∉ value
  | .note s => 10 ∉ s
  | .blank => True

/-- The assignment. -/
def Piece.binding : Piece → Option (Str × Val)
  | .array name _ ns => some (name, .list ns)
  | .scalar name _ n => some (name, .int n)
  | .note _ => none
  | .blank => none

theorem scan_name {s : Str} (h : Ident s) (hk : s ∉ PyExpr.keywords) {c : Nat} (hc : isWord c = false) (r : Str) :
    scan .start [] (s ++ c :: r) = (scan .code [] (c :: r)).map (.name s :: ·) := by
  obtain ⟨h1, h2, -⟩ := PyExpr.ident_word h hk
  rw [scan_word h1 (by simp) (by simp) h2, List.nil_append]
  exact scan_flush (by simp) (by simp) (flush_name h hk) hc r

theorem scan_code {c : Nat} {us : List Tok} {m : Mode} (hc : isWord c = false) (hs : step .code c = some (us, m)) (s : Str) :
    scan .code [] (c :: s) = (scan m [] s).map (us ++ ·) := by
  rw [scan_step (by simp) (by simp) hc flush_nil hs]
  rfl

theorem scan_newline (s : Str) : scan .code [] (10 :: s) = (scan .start [] s).map (.newline :: ·) :=
  scan_code (us := [.newline]) rfl rfl s

theorem scan_note : ∀ {u : Str}, 10 ∉ u → ∀ s : Str, scan .note [] (u ++ 10 :: s) = (scan .start [] s).map (.newline :: ·)
  | [], _, s => rfl
  | c :: u, h, s => by
    rw [List.mem_cons, not_or] at h
    rw [List.cons_append, scan.eq_def]
    simp only [if_true, if_neg (Ne.symm h.1)]
    exact scan_note h.2 s

theorem blanks_of {a : Str} (h : Space a) (h' : 10 ∉ a) : Blanks a := by
  intro x hx
  rcases h x hx with h | h | h
  · exact .inl h
  · exact .inr h
  · exact absurd (h ▸ hx) h'

theorem piece_scan {p : Piece} (h : p.Ok) (s : Str) :
    ∃ ts, .newline ∉ ts ∧ scan .start [] (p.text ++ s) = (scan .start [] s).map (fun us => ts ++ .newline :: us) ∧
      ∀ env, exec env ts = .ok (p.binding.toList ++ env) := by
  cases p with
  | array name body ns =>
    obtain ⟨h1, h2, h3⟩ := h
    obtain ⟨ts, l1, l2⟩ := scan_elements h3 (10 :: s)
    refine ⟨.name name :: .assign :: .lbrack :: ts, ?_, ?_, ?_⟩
    · simpa using listed_newline l1
    · have e : (Piece.array name body ns).text ++ s = name ++ 32 :: (61 :: 32 :: 91 :: (body ++ 93 :: 10 :: s)) := by
        simp [Piece.text, txt]
      rw [e, scan_name h1 h2 rfl, scan_code (us := []) rfl rfl, scan_code rfl rfl, scan_code (us := []) rfl rfl, scan_code rfl rfl, l2, scan_newline]
      simp only [Option.map_map]
      rfl
    · intro env
      rw [exec]
      · rw [listed_elements l1]; rfl
  | scalar name value n =>
    obtain ⟨h1, h2, h3, h4⟩ := h
    cases h3 with
    | @mk a x b _ ha hn hb =>
      simp only [List.mem_append, not_or] at h4
      refine ⟨[.name name, .assign, .num n], by simp, ?_, fun env => rfl⟩
      have e : (Piece.scalar name (a ++ (x ++ b)) n).text ++ s = name ++ 32 :: (61 :: 32 :: (a ++ (x ++ (b ++ 10 :: s)))) := by
        simp [Piece.text, txt]
      rw [e, scan_name h1 h2 rfl, scan_code (us := []) rfl rfl, scan_code rfl rfl, scan_code (us := []) rfl rfl, scan_blanks (blanks_of ha h4.1)]
      have : scan .code [] (x ++ (b ++ 10 :: s)) = (scan .start [] s).map fun us => .num n :: .newline :: us := by
        cases b with
        | nil =>
          rw [List.nil_append, scan_numeral hn (.inr rfl) rfl, scan_newline, Option.map_map]
          rfl
        | cons d b =>
          have hd : isWord d = false := by
            have := hb d (by simp)
            rcases this with rfl | rfl | rfl <;> rfl
          rw [List.cons_append, scan_numeral hn (.inr rfl) hd, ← List.cons_append, scan_blanks (blanks_of hb h4.2.2), scan_newline, Option.map_map]
          rfl
      rw [this]
      simp only [Option.map_map]
      rfl
  | note u =>
    refine ⟨[], by simp, ?_, fun env => rfl⟩
    have e : (Piece.note u).text ++ s = 35 :: (u ++ 10 :: s) := by simp [Piece.text, txt]
    rw [e, scan_step (by simp) (by simp) rfl flush_nil rfl, map_nil_append]
    exact scan_note h s
  | blank =>
    refine ⟨[], by simp, ?_, fun env => rfl⟩
    exact scan_step (m := .start) (m' := .start) (ts := []) (us := [.newline]) (by simp) (by simp) rfl flush_nil rfl s

theorem statements_append : ∀ {ts : List Tok}, .newline ∉ ts → ∀ us, statements (ts ++ .newline :: us) = ts :: statements us
  | [], _, us => by rw [List.nil_append, statements, if_pos rfl]
  | t :: ts, h, us => by
    rw [List.mem_cons, not_or] at h
    rw [List.cons_append, statements, if_neg (Ne.symm h.1), statements_append h.2]

theorem pieces_scan {ps : List Piece} (h : ∀ p ∈ ps, p.Ok) :
    ∃ ts, scan .start [] (ps.flatMap Piece.text) = some ts ∧ ∀ env, run env (statements ts) = .ok ((ps.filterMap Piece.binding).reverse ++ env) := by
  induction ps with
  | nil => exact ⟨[], rfl, fun env => rfl⟩
  | cons p ps ih =>
    obtain ⟨us, i1, i2⟩ := ih fun q hq => h q (by simp [hq])
    obtain ⟨ts, p1, p2, p3⟩ := piece_scan (h p (by simp)) (ps.flatMap Piece.text)
    refine ⟨ts ++ .newline :: us, ?_, ?_⟩
    · rw [List.flatMap_cons, p2, i1]; rfl
    · intro env
      rw [statements_append p1, run, p3]
      simp only [bind, Except.bind]
      rw [i2]
      cases hb : p.binding with
      | none => simp [hb]
      | some b => simp [hb]

/-- A module with a docstring. -/
theorem import_pieces {d rest : Str} {ps : List Piece} (hd : PyExpr.afterQuotes (d ++ rest) = some (10 :: ps.flatMap Piece.text))
    (h : ∀ p ∈ ps, p.Ok) : importModule (34 :: 34 :: 34 :: (d ++ rest)) = .ok (ps.filterMap Piece.binding).reverse := by
  obtain ⟨ts, h1, h2⟩ := pieces_scan h
  unfold importModule body
  simp only [hd, Option.bind_some, h1, h2, List.append_nil]

theorem scan_open : ∀ {s w : Str} {m : Mode} {us : List Tok}, (m = .note → w = []) → scan m w (s ++ [10]) = some us →
    ∃ ts, scan m w s = some ts ∧ us = ts ++ [.newline]
  | [], w, m, us, hw, h => by
    cases m with
    | note =>
      rw [hw rfl] at h ⊢
      exact ⟨[], rfl, (Option.some.inj h).symm⟩
    | noteIn => cases h
    | start | code =>
      cases hf : flush w with
      | none => simp [scan, isWord, hf] at h
      | some ts =>
        refine ⟨ts, by simp [scan, hf], ?_⟩
        simp [scan, isWord, hf, step, flush_nil] at h
        exact h.symm
    | list =>
      cases hf : flush w <;> simp [scan, isWord, hf, step] at h
  | c :: s, w, m, us, hw, h => by
    rw [List.cons_append, scan] at h
    rw [scan]
    by_cases h1 : m = .note
    · rw [if_pos h1] at h ⊢
      by_cases h2 : c = 10
      · rw [if_pos h2, Option.map_eq_some_iff] at h
        obtain ⟨vs, h, rfl⟩ := h
        obtain ⟨ts, i1, rfl⟩ := scan_open (by simp) h
        exact ⟨.newline :: ts, by rw [if_pos h2, i1]; rfl, rfl⟩
      · rw [if_neg h2] at h ⊢
        exact scan_open (by simp) h
    · rw [if_neg h1] at h ⊢
      by_cases h2 : m = .noteIn
      · rw [if_pos h2] at h ⊢
        exact scan_open (by simp) h
      · rw [if_neg h2] at h ⊢
        by_cases h3 : isWord c = true
        · rw [if_pos h3] at h ⊢
          exact scan_open (by split <;> simp) h
        · rw [if_neg h3] at h ⊢
          cases hf : flush w with
          | none => simp [hf] at h
          | some ts =>
            cases hs : step m c with
            | none => simp [hf, hs] at h
            | some x =>
              obtain ⟨vs, m'⟩ := x
              simp only [hf, hs, Option.map_eq_some_iff] at h ⊢
              obtain ⟨ws, h, rfl⟩ := h
              obtain ⟨xs, i1, rfl⟩ := scan_open (by simp) h
              exact ⟨_, ⟨xs, i1, rfl⟩, by simp⟩

theorem statements_open : ∀ ts : List Tok, statements (ts ++ [.newline]) = statements ts ++ [[]]
  | [] => by simp [statements]
  | t :: ts => by
    rw [List.cons_append, statements, statements, statements_open ts]
    by_cases h : t = .newline
    · rw [if_pos h, if_pos h]
      rfl
    · rw [if_neg h, if_neg h]
      cases hs : statements ts with
      | nil =>
        cases ts with
        | nil => simp [statements] at hs
        | cons u ts =>
          rw [statements] at hs
          split at hs
          · cases hs
          · split at hs <;> cases hs
      | cons l ls => rfl

theorem run_open : ∀ (ls : List (List Tok)) (env : List (Str × Val)), run env (ls ++ [[]]) = run env ls
  | [], env => rfl
  | l :: ls, env => by
    rw [List.cons_append, run, run]
    cases exec env l with
    | error e => rfl
    | ok env => exact run_open ls env

/-- The same when the line feed at the end of the last line is missing. -/
theorem import_pieces_open {d rest s : Str} {ps : List Piece} (hd : PyExpr.afterQuotes (d ++ rest) = some (10 :: s))
    (hs : ps.flatMap Piece.text = s ++ [10]) (h : ∀ p ∈ ps, p.Ok) :
    importModule (34 :: 34 :: 34 :: (d ++ rest)) = .ok (ps.filterMap Piece.binding).reverse := by
  obtain ⟨us, h1, h2⟩ := pieces_scan h
  rw [hs] at h1
  obtain ⟨ts, i1, rfl⟩ := scan_open (by simp) h1
  have := h2 []
  rw [statements_open, run_open, List.append_nil] at this
  unfold importModule body
  simp only [hd, Option.bind_some, i1, this]

/-! ## Layout -/

theorem numeral_no {x : Str} {n c : Nat} (h : Numeral x n) (hc : isWord c = false) : c ∉ x := fun hm => by
  have := (PyExpr.numeral_word h).2.1 c hm
  rw [hc] at this
  cases this

theorem elements_newline {b : Str} {ns : List Nat} (h : Elements b ns) : Elements (b ++ [10]) ns := by
  have snoc : ∀ {a : Str}, Space a → Space (a ++ [10]) := by
    intro a ha x hx
    rcases List.mem_append.1 hx with h | h
    · exact ha x h
    · simp only [List.mem_singleton] at h
      exact .inr (.inr h)
  induction h with
  | one ha hn hb =>
    simp only [List.append_assoc]
    exact .one ha hn (snoc hb)
  | trail ha hn hb hc =>
    simp only [List.append_assoc]
    exact .trail ha hn hb (snoc hc)
  | cons ha hn hb _ ih =>
    simp only [List.append_assoc]
    exact .cons ha hn hb ih

theorem last_split {α : Type} {x y b : List α} {c : α} (h : x ++ y = b ++ [c]) : (y = [] ∧ x = b ++ [c]) ∨ ∃ y', y = y' ++ [c] ∧ b = x ++ y' := by
  rcases List.eq_nil_or_concat y with rfl | ⟨y', d, rfl⟩
  · exact .inl ⟨rfl, by simpa using h⟩
  · rw [List.concat_eq_append, ← List.append_assoc] at h
    obtain ⟨h1, h2⟩ := List.append_inj' h rfl
    cases h2
    exact .inr ⟨y', by simp, h1.symm⟩

theorem elements_dropLast {b : Str} {ns : List Nat} (h : Elements (b ++ [10]) ns) : Elements b ns := by
  generalize e : b ++ [10] = t at h
  have front : ∀ {y : Str}, Space (y ++ [10]) → Space y := fun h x hx => h x (by simp [hx])
  induction h generalizing b with
  | one ha hn hb =>
    rcases last_split e.symm with ⟨h1, -⟩ | ⟨y, h1, rfl⟩
    · rw [List.append_eq_nil_iff] at h1
      exact absurd h1.1 (PyExpr.numeral_word hn).1
    · rcases last_split h1 with ⟨-, h2⟩ | ⟨z, rfl, rfl⟩
      · exact absurd (by rw [h2]; simp) (numeral_no hn (c := 10) rfl)
      · exact .one ha hn (front hb)
  | trail ha hn hb hc =>
    rcases last_split e.symm with ⟨h1, -⟩ | ⟨y, h1, rfl⟩
    · rw [List.append_eq_nil_iff] at h1
      exact absurd h1.1 (PyExpr.numeral_word hn).1
    · rcases last_split h1 with ⟨h2, -⟩ | ⟨z, h2, rfl⟩
      · simp [txt] at h2
      · rcases last_split h2 with ⟨h3, -⟩ | ⟨u, h3, rfl⟩
        · simp [txt] at h3
        · rcases last_split h3 with ⟨-, h4⟩ | ⟨v, rfl, rfl⟩
          · exact absurd (congrArg List.getLast? h4) (by simp [txt])
          · exact .trail ha hn hb (front hc)
  | cons ha hn hb hr ih =>
    rcases last_split e.symm with ⟨h1, -⟩ | ⟨y, h1, rfl⟩
    · rw [List.append_eq_nil_iff] at h1
      exact absurd h1.1 (PyExpr.numeral_word hn).1
    · rcases last_split h1 with ⟨h2, -⟩ | ⟨z, h2, rfl⟩
      · simp [txt] at h2
      · rcases last_split h2 with ⟨h3, -⟩ | ⟨u, h3, rfl⟩
        · simp [txt] at h3
        · rcases last_split h3 with ⟨-, h4⟩ | ⟨v, rfl, rfl⟩
          · exact absurd (congrArg List.getLast? h4) (by simp [txt])
          · exact .cons ha hn hb (ih rfl)

/-- Line feeds may be made longer. -/
theorem elements_replace {b : Str} {ns : List Nat} (h : Elements b ns) {r : Str} (hr : Space r) :
    Elements (b.flatMap fun c => if c = 10 then r else [c]) ns := by
  have keep : ∀ {x : Str}, 10 ∉ x → (x.flatMap fun c => if c = 10 then r else [c]) = x := by
    intro x hx
    induction x with
    | nil => rfl
    | cons c x ih =>
      rw [List.mem_cons, not_or] at hx
      rw [List.flatMap_cons, if_neg (Ne.symm hx.1), ih hx.2]
      rfl
  have space : ∀ {a : Str}, Space a → Space (a.flatMap fun c => if c = 10 then r else [c]) := by
    intro a ha x hx
    obtain ⟨c, hc, hx⟩ := List.mem_flatMap.1 hx
    by_cases h : c = 10
    · rw [if_pos h] at hx
      exact hr x hx
    · rw [if_neg h, List.mem_singleton] at hx
      exact hx ▸ ha c hc
  have comma : ((txt ",").flatMap fun c => if c = 10 then r else [c]) = txt "," := keep (by decide)
  induction h with
  | one ha hn hb =>
    rw [List.flatMap_append, List.flatMap_append, keep (numeral_no hn rfl)]
    exact .one (space ha) hn (space hb)
  | trail ha hn hb hc =>
    rw [List.flatMap_append, List.flatMap_append, List.flatMap_append, List.flatMap_append, keep (numeral_no hn rfl), comma]
    exact .trail (space ha) hn (space hb) (space hc)
  | cons ha hn hb _ ih =>
    rw [List.flatMap_append, List.flatMap_append, List.flatMap_append, List.flatMap_append, keep (numeral_no hn rfl), comma]
    exact .cons (space ha) hn (space hb) ih

end Verif.PyLists

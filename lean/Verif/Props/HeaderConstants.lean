import Verif.Lemmas.CExpand
import Verif.Props.HeaderModule
/-! # The constants of a header in C and in the module made from it (C130) -/
namespace Verif.CHeader.Props
open Verif.Header.Spec Verif.CHeader.Spec Verif.PyExpr

/-! ## In C -/

theorem nodup_reverse {l : List Str} (h : l.Nodup) : l.reverse.Nodup := List.pairwise_reverse.2 (h.imp fun hab => Ne.symm hab)

theorem names_zip (es : List Entry) (vs : List Int) (h : es.length = vs.length) :
    (es.zipWith (fun e v => Item.enumerator e.name v) vs).map Item.name = es.map Entry.name := by
  induction es generalizing vs with
  | nil => cases vs <;> rfl
  | cons e es ih =>
    cases vs with
    | nil => cases h
    | cons v vs => simp only [List.zipWith_cons_cons, List.map_cons, ih vs (by simpa using h)]; rfl

/-- The facts about an enumeration that do not depend on expressions. -/
theorem enumerates_names {before : List Item} {next : Int} {own : List (Str × Int)} {es : List Entry} {vs : List Int}
    (h : Enumerates before next own es vs) : es.length = vs.length ∧ (∀ e ∈ es, e.Ok ∧ 10 ∉ e.comment ∧ Fresh before e.name) ∧
      (es.map Entry.name).Nodup ∧ ∀ e ∈ es, e.name ∉ own.map Prod.fst := by
  induction h with
  | nil => exact ⟨rfl, by simp, by simp, by simp⟩
  | next hok hc _ _ hf ho _ ih =>
    obtain ⟨h1, h2, h3, h4⟩ := ih
    refine ⟨by simp [h1], List.forall_mem_cons.2 ⟨⟨hok, hc, hf⟩, h2⟩, ?_, List.forall_mem_cons.2 ⟨ho, fun e he hm => h4 e he (by simp [hm])⟩⟩
    rw [List.map_cons, List.nodup_cons]
    refine ⟨fun hm => ?_, h3⟩
    obtain ⟨e, he, hn⟩ := List.mem_map.1 hm
    exact h4 e he (by simp [hn])
  | value hok hc _ _ _ hf ho _ ih =>
    obtain ⟨h1, h2, h3, h4⟩ := ih
    refine ⟨by simp [h1], List.forall_mem_cons.2 ⟨⟨hok, hc, hf⟩, h2⟩, ?_, List.forall_mem_cons.2 ⟨ho, fun e he hm => h4 e he (by simp [hm])⟩⟩
    rw [List.map_cons, List.nodup_cons]
    refine ⟨fun hm => ?_, h3⟩
    obtain ⟨e, he, hn⟩ := List.mem_map.1 hm
    exact h4 e he (by simp [hn])

/-- All names of a header are different identifiers that are no keywords. -/
structure Distinct (items : List Item) : Prop where
  nodup : (items.map Item.name).Nodup
  ident : ∀ i ∈ items, Ident i.name
  keyword : ∀ i ∈ items, i.name ∉ keywords

theorem Distinct.cons {before : List Item} {i : Item} (h : Distinct before) (hf : Fresh before i.name) : Distinct (i :: before) := by
  refine ⟨?_, List.forall_mem_cons.2 ⟨hf.1, h.ident⟩, List.forall_mem_cons.2 ⟨hf.2.2, h.keyword⟩⟩
  rw [List.map_cons, List.nodup_cons]
  refine ⟨fun hm => ?_, h.nodup⟩
  obtain ⟨j, hj, hn⟩ := List.mem_map.1 hm
  exact hf.2.1 j hj hn

theorem Distinct.enum {before : List Item} {es : List Entry} {vs : List Int} {next : Int} (h : Distinct before)
    (he : Enumerates before next [] es vs) : Distinct ((es.zipWith (fun e v => Item.enumerator e.name v) vs).reverse ++ before) := by
  obtain ⟨h1, h2, h3, _⟩ := enumerates_names he
  have hmem : ∀ i ∈ (es.zipWith (fun e v => Item.enumerator e.name v) vs).reverse, ∃ e ∈ es, i.name = e.name := by
    intro i hi
    have : i.name ∈ es.map Entry.name := by
      rw [← names_zip es vs h1]
      exact List.mem_map_of_mem (List.mem_reverse.1 hi)
    obtain ⟨e, he, hn⟩ := List.mem_map.1 this
    exact ⟨e, he, hn.symm⟩
  refine ⟨?_, ?_, ?_⟩
  · rw [List.map_append, List.map_reverse, names_zip es vs h1, List.nodup_append]
    refine ⟨nodup_reverse h3, h.nodup, fun a ha b hb hab => ?_⟩
    obtain ⟨e, he', rfl⟩ := List.mem_map.1 (List.mem_reverse.1 ha)
    obtain ⟨j, hj, rfl⟩ := List.mem_map.1 hb
    exact (h2 e he').2.2.2.1 j hj hab.symm
  · intro i hi
    rcases List.mem_append.1 hi with hi | hi
    · obtain ⟨e, he', hn⟩ := hmem i hi
      rw [hn]; exact (h2 e he').2.2.1
    · exact h.ident i hi
  · intro i hi
    rcases List.mem_append.1 hi with hi | hi
    · obtain ⟨e, he', hn⟩ := hmem i hi
      rw [hn]; exact (h2 e he').2.2.2.2
    · exact h.keyword i hi

theorem declares_distinct {fn : Str → Int → Option Int} {ignore : List Str} {before items : List Item} {rs : List (Str × Str)}
    (h : Declares fn ignore before rs items) (hb : Distinct before) : Distinct (before.reverse ++ items) := by
  induction h with
  | nil =>
    simp only [List.append_nil]
    exact ⟨by rw [List.map_reverse]; exact nodup_reverse hb.nodup, fun i hi => hb.ident i (List.mem_reverse.1 hi),
      fun i hi => hb.keyword i (List.mem_reverse.1 hi)⟩
  | other _ _ ih => exact ih hb
  | define hf _ _ _ _ _ _ ih => simpa using ih (hb.cons hf)
  | string hf _ _ _ _ _ _ ih => simpa using ih (hb.cons hf)
  | ignored hf _ _ _ _ _ _ ih => simpa using ih (hb.cons hf)
  | flag hf _ ih => simpa using ih (hb.cons hf)
  | function hf _ ih => simpa using ih (hb.cons hf)
  | enum _ _ he _ _ ih => simpa using ih (hb.enum he)

theorem same_item {items : List Item} (h : Distinct items) {i j : Item} (hi : i ∈ items) (hj : j ∈ items) (hn : i.name = j.name) : i = j := by
  have : ∀ l : List Item, (l.map Item.name).Nodup → i ∈ l → j ∈ l → i = j := by
    intro l
    induction l with
    | nil => intro _ h; cases h
    | cons x l ih =>
      intro hd hi hj
      rw [List.map_cons, List.nodup_cons] at hd
      rcases List.mem_cons.1 hi with rfl | hi' <;> rcases List.mem_cons.1 hj with rfl | hj'
      · rfl
      · exact absurd (List.mem_map.2 ⟨j, hj', hn.symm⟩) hd.1
      · exact absurd (List.mem_map.2 ⟨i, hi', hn⟩) hd.1
      · exact ih hd.2 hi' hj'
  exact this items h.nodup hi hj

theorem mem_macros {items : List Item} {n t : Str} (h : (n, t) ∈ macros items) : ∃ i ∈ items, i.name = n ∧ ∀ v, i ≠ .enumerator n v ∧
    (i ≠ .hidden n none) := by
  unfold macros at h
  obtain ⟨i, hi, he⟩ := List.mem_filterMap.1 h
  refine ⟨i, hi, ?_⟩
  cases i with
  | define => cases he; exact ⟨rfl, fun v => ⟨by simp, by simp⟩⟩
  | string => cases he; exact ⟨rfl, fun v => ⟨by simp, by simp⟩⟩
  | enumerator => cases he
  | hidden m t =>
    cases t with
    | none => cases he
    | some t => cases he; exact ⟨rfl, fun v => ⟨by simp, by simp⟩⟩

theorem mem_lookup {α : Type} {l : List (Str × α)} (h : (l.map Prod.fst).Nodup) {n : Str} {v : α} (hm : (n, v) ∈ l) : l.lookup n = some v := by
  induction l with
  | nil => cases hm
  | cons p l ih =>
    rw [List.map_cons, List.nodup_cons] at h
    rcases List.mem_cons.1 hm with rfl | hm'
    · simp
    · have : (n == p.1) = false := by
        rw [beq_eq_false_iff_ne]
        rintro rfl
        exact h.1 (List.mem_map.2 ⟨_, hm', rfl⟩)
      rw [show p = (p.1, p.2) from rfl, List.lookup_cons, this]
      exact ih h.2 hm'

theorem lookup_mem {α : Type} {l : List (Str × α)} {n : Str} {v : α} (h : l.lookup n = some v) : (n, v) ∈ l := by
  induction l with
  | nil => cases h
  | cons p l ih =>
    rw [show p = (p.1, p.2) from rfl, List.lookup_cons] at h
    split at h
    · rename_i e
      rw [beq_iff_eq] at e
      cases h
      exact List.mem_cons.2 (.inl (by rw [e]))
    · exact List.mem_cons_of_mem _ (ih h)

theorem mem_usable {items : List Item} {n : Str} {v : Int} (h : (n, v) ∈ usable items) :
    .enumerator n v ∈ items ∨ ∃ t, .define n t v true ∈ items := by
  unfold usable at h
  obtain ⟨i, hi, he⟩ := List.mem_filterMap.1 h
  cases i with
  | define m t w p =>
    cases p with
    | true => cases he; exact .inr ⟨t, hi⟩
    | false => cases he
  | enumerator => cases he; exact .inl hi
  | string => cases he
  | hidden => cases he

theorem enumerators_nodup {items : List Item} (h : (items.map Item.name).Nodup) : ((enumerators items).map Prod.fst).Nodup := by
  induction items with
  | nil => simp [enumerators]
  | cons i items ih =>
    rw [List.map_cons, List.nodup_cons] at h
    have hsub : ∀ n ∈ (enumerators items).map Prod.fst, n ∈ items.map Item.name := by
      intro n hn
      obtain ⟨p, hp, rfl⟩ := List.mem_map.1 hn
      obtain ⟨j, hj, he⟩ := List.mem_filterMap.1 hp
      cases j with
      | enumerator m w => cases he; exact List.mem_map.2 ⟨_, hj, rfl⟩
      | define => cases he
      | string => cases he
      | hidden => cases he
    cases i with
    | enumerator m w =>
      show ((m, w) :: enumerators items).map Prod.fst |>.Nodup
      rw [List.map_cons, List.nodup_cons]
      exact ⟨fun hm => h.1 (hsub _ hm), ih h.2⟩
    | define => exact ih h.2
    | string => exact ih h.2
    | hidden => exact ih h.2

theorem declares_inC {fn : Str → Int → Option Int} {ignore : List Str} {before items : List Item} {rs : List (Str × Str)}
    (h : Declares fn ignore before rs items) {all : List Item} (hall : all = before.reverse ++ items) (hd : Distinct all)
    (hfn : ∀ f v r, fn f v = some r → ∀ i ∈ all, i.name = f → i = .hidden f none)
    (hb : ∀ n t v, .define n t v true ∈ before → ∃ t', Expands (macros all) t t' ∧ Denotes (find (enumerators all)) fn 8 t' v) :
    ∀ n t v p, .define n t v p ∈ items → ∃ t', Expands (macros all) t t' ∧ Denotes (find (enumerators all)) fn 1 t' v := by
  have key : ∀ {before : List Item}, (∀ i ∈ before, i ∈ all) →
      (∀ n t v, .define n t v true ∈ before → ∃ t', Expands (macros all) t t' ∧ Denotes (find (enumerators all)) fn 8 t' v) →
      ∀ {p : Nat} {s : Str} {v : Int}, Denotes (find (usable before)) fn p s v →
      ∃ s', Expands (macros all) s s' ∧ Denotes (find (enumerators all)) fn p s' v := by
    intro before hsub hb p s v hden
    refine (denotes_expand (E := find (enumerators all)) (M := macros all) ?_ ?_ ?_ hden).imp fun _ h => ⟨h.1, h.2.1⟩
    · intro n t ht
      obtain ⟨i, hi, rfl, _⟩ := mem_macros ht
      exact hd.ident i hi
    · intro n v hv
      rcases mem_usable (lookup_mem hv) with he | ⟨t, ht⟩
      · refine .inl ⟨mem_lookup (enumerators_nodup hd.nodup) (List.mem_filterMap.2 ⟨_, hsub _ he, rfl⟩), fun t ht => ?_⟩
        obtain ⟨i, hi, hn, hne⟩ := mem_macros ht
        exact (hne v).1 (same_item hd hi (hsub _ he) hn)
      · obtain ⟨t', h1, h2⟩ := hb n t v ht
        exact .inr ⟨t, t', List.mem_filterMap.2 ⟨_, hsub _ ht, rfl⟩, h1, h2⟩
    · intro f v r hr t ht
      obtain ⟨i, hi, hn, hne⟩ := mem_macros ht
      exact (hne 0).2 (hfn f v r hr i hi hn)
  induction h with
  | nil => intro n t v p hm; cases hm
  | other _ _ ih => exact ih hall hb
  | @define before items n sp s c v primary rs hf _ _ _ _ hden _ ih =>
    obtain ⟨s', h1, h2⟩ := key (before := before) (fun i hi => by rw [hall]; simp [hi]) hb hden
    intro m t w p hm
    rcases List.mem_cons.1 hm with he | hm
    · cases he
      exact ⟨s', h1, Denotes.up_le h2 (by split <;> omega) (by split <;> omega)⟩
    · refine ih (by simp [hall]) ?_ m t w p hm
      intro n' t' v' hm'
      rcases List.mem_cons.1 hm' with he | hm'
      · cases he
        exact ⟨s', h1, h2⟩
      · exact hb n' t' v' hm'
  | string _ _ _ _ _ _ _ ih =>
    intro m t w p hm
    rcases List.mem_cons.1 hm with he | hm
    · cases he
    · exact ih (by simp [hall]) (fun n' t' v' hm' => hb n' t' v' (by simpa using hm')) m t w p hm
  | ignored _ _ _ _ _ _ _ ih =>
    intro m t w p hm
    rcases List.mem_cons.1 hm with he | hm
    · cases he
    · exact ih (by simp [hall]) (fun n' t' v' hm' => hb n' t' v' (by simpa using hm')) m t w p hm
  | flag _ _ ih =>
    intro m t w p hm
    rcases List.mem_cons.1 hm with he | hm
    · cases he
    · exact ih (by simp [hall]) (fun n' t' v' hm' => hb n' t' v' (by simpa using hm')) m t w p hm
  | function _ _ ih =>
    intro m t w p hm
    rcases List.mem_cons.1 hm with he | hm
    · cases he
    · exact ih (by simp [hall]) (fun n' t' v' hm' => hb n' t' v' (by simpa using hm')) m t w p hm
  | @enum before items head fin brace rs es vs _ _ he _ _ ih =>
    have hnone : ∀ m t w p, Item.define m t w p ∉ es.zipWith (fun e v => Item.enumerator e.name v) vs := by
      intro m t w p hm
      obtain ⟨i, hi, he⟩ := List.mem_iff_getElem.1 hm
      simp at he
    intro m t w p hm
    rcases List.mem_append.1 hm with hm | hm
    · exact absurd hm (hnone _ _ _ _)
    · refine ih (by simp [hall]) ?_ m t w p hm
      intro n' t' v' hm'
      rcases List.mem_append.1 hm' with hm' | hm'
      · exact absurd (List.mem_reverse.1 hm') (hnone _ _ _ _)
      · exact hb n' t' v' hm'

/-! ## In Python -/

theorem denotes_chars {scope : Str → Option Int} {fn : Str → Int → Option Int} {p : Nat} {s : Str} {v : Int} (h : Denotes scope fn p s v) :
    10 ∉ s := by
  have hw : ∀ {w : Str}, Name w → 10 ∉ w := fun h hm => by have := h.2 10 hm; revert this; decide
  have hb : ∀ {b : Str}, Blanks b → 10 ∉ b := fun h hm => by have := h 10 hm; omega
  have ho : ∀ o : Bin, 10 ∉ o.text := by intro o; cases o <;> decide
  induction h with
  | num hn _ => exact hw (numeral_name hn).1
  | name hn _ => exact hw hn.1
  | paren ha _ hb' ih =>
    have := hb ha; have := hb hb'
    simp only [List.mem_append, not_or]
    exact ⟨by decide, hb ha, ih, hb hb', by decide⟩
  | call hn ha _ hb' _ _ ih =>
    simp only [List.mem_append, not_or]
    exact ⟨hw hn.1, by decide, hb ha, ih, hb hb', by decide⟩
  | neg ha _ _ _ ih =>
    simp only [List.mem_append, not_or]
    exact ⟨by decide, hb ha, ih⟩
  | pos ha _ _ ih =>
    simp only [List.mem_append, not_or]
    exact ⟨by decide, hb ha, ih⟩
  | inv ha _ ih =>
    simp only [List.mem_append, not_or]
    exact ⟨by decide, hb ha, ih⟩
  | bin _ ha hb' _ _ _ _ ihl ihr =>
    simp only [List.mem_append, not_or]
    exact ⟨ihl, hb ha, ho _, hb hb', ihr⟩
  | up _ _ ih => exact ih

theorem denotes_begins {scope : Str → Option Int} {fn : Str → Int → Option Int} {p : Nat} {s : Str} {v : Int} (h : Denotes scope fn p s v) :
    Begins s := by
  have hw : ∀ {w : Str} (t : Str), Name w → Begins (w ++ t) := by
    intro w t h
    cases w with
    | nil => exact absurd rfl h.1
    | cons c w => exact ⟨c, w ++ t, rfl, Header.Props.word_not_space (by rw [← Header.Props.wordChar_eq]; exact h.2 c (by simp))⟩
  induction h with
  | num hn _ => simpa using hw [] (numeral_name hn).1
  | name hn _ => simpa using hw [] hn.1
  | paren => exact ⟨_, _, rfl, by decide⟩
  | call hn => exact hw _ hn.1
  | neg => exact ⟨_, _, rfl, by decide⟩
  | pos => exact ⟨_, _, rfl, by decide⟩
  | inv => exact ⟨_, _, rfl, by decide⟩
  | bin _ _ _ _ _ _ _ ih _ =>
    obtain ⟨c, t, rfl, hc⟩ := ih
    exact ⟨c, _, rfl, hc⟩
  | up _ _ ih => exact ih

/-- Numbers as `str` writes them. -/
theorem decimal_reads (n : Int) : ∃ ts e, Spelled (decimal n) ts ∧ Phrase 1 ts e ∧ ∀ env call, Expr.eval env call e = .ok (.int n) := by
  have hnat : ∀ m : Nat, Spelled (Header.decLoop (m + 1) m) [.num m] := by
    intro m
    have := numeral_word (Numeral.dec m)
    rw [← Header.Props.pyStr_eq] at this
    unfold Header.pyStr at this
    rw [if_neg (by omega), Int.natAbs_natCast] at this
    exact .word this.1 this.2.1 this.2.2
  rw [← Header.Props.pyStr_eq]
  unfold Header.pyStr
  split
  · rename_i hn
    refine ⟨_, .neg (.num n.natAbs), spelled_unary (c := 45) (a := []) rfl (by decide) (by intro x hx; cases hx) (hnat n.natAbs),
      (Operand.unary (.inl ⟨rfl, rfl⟩) (.num n.natAbs)).phrase 1, fun env call => ?_⟩
    simp only [Expr.eval, bind, Except.bind, pure, Except.pure]
    congr 2
    omega
  · rename_i hn
    refine ⟨_, _, hnat n.natAbs, (Operand.num n.natAbs).phrase 1, fun env call => ?_⟩
    simp only [Expr.eval]
    congr 2
    omega

theorem decimal_chars (n : Int) : 10 ∉ decimal n := by
  rw [← Header.Props.pyStr_eq]
  intro hm
  unfold Header.pyStr at hm
  have hd := Header.Props.decLoop_digits (n.natAbs + 1) n.natAbs (by omega)
  split at hm
  · rcases List.mem_cons.1 hm with h | h
    · cases h
    · have := hd 10 h; omega
  · have := hd 10 hm; omega

theorem pyEval_of {variables : List (Str × Int)} {s b : Str} {ts : List Tok} {e : Expr} {v : Int} (h1 : Spelled s ts) (h2 : Phrase 1 ts e)
    (hb : Blanks b) (h3 : ∀ call, e.eval (fun n => (variables.lookup n).map .int) call = .ok (.int v)) : pyEval variables (s ++ b) = .ok v := by
  have ht : tokenize (s ++ b) = some ts := by
    have hb' : tokenize b = some [] := by simpa [tokenize_nil] using tokenize_blanks hb []
    rw [h1 b (by simpa using blanks_head (s := []) hb (by simp)), hb']
    simp
  unfold pyEval
  rw [ht, Option.bind_some, h2.parse]
  simp only [h3, bind, Except.bind]

/-- `eval` reads the numbers that `str` writes. -/
theorem pyEval_decimal (variables : List (Str × Int)) (n : Int) : pyEval variables (decimal n) = .ok n := by
  obtain ⟨ts, e, h1, h2, h3⟩ := decimal_reads n
  have := pyEval_of (variables := variables) (b := []) h1 h2 (by intro x hx; cases hx) (fun call => h3 _ call)
  rwa [List.append_nil] at this

/-- The execution of a line for a constant. -/
theorem execLine_assignment {env : List (Str × Val)} {n s b c : Str} {ts : List Tok} {e : Expr} {v : Val} (hn : Ident n) (hk : n ∉ keywords)
    (h1 : Spelled s ts) (h2 : Phrase 1 ts e) (hb : Blanks b) (h3 : e.eval (lookup env) (callIn env) = .ok v) :
    execLine env (assignment n (s ++ b) c) = .ok ((n, v) :: env) := by
  obtain ⟨w1, w2, w3⟩ := ident_word hn hk
  have hshape : assignment n (s ++ b) c = n ++ (32 :: 61 :: 32 :: (s ++ (b ++ if c = [] then [] else txt "  # " ++ c))) := by
    unfold assignment
    simp only [List.append_assoc]
    rfl
  have hrest : tokenize (b ++ if c = [] then [] else txt "  # " ++ c) = some [] := by
    rw [tokenize_blanks hb]
    split
    · rfl
    · show tokenize (32 :: 32 :: 35 :: 32 :: c) = _
      rw [tokenize_blank (.inl rfl), tokenize_blank (.inl rfl), tokenize_comment]
  have hrest' : ∀ x ∈ (b ++ if c = [] then [] else txt "  # " ++ c).head?, Header.isWord x = false := by
    refine blanks_head hb ?_
    split
    · simp
    · intro x hx; cases hx; decide
  have htok : tokenize (assignment n (s ++ b) c) = some (.name n :: .assign :: ts) := by
    rw [hshape, tokenize_word w1 w2 (by intro x hx; cases hx; decide), w3, Option.bind_some, tokenize_blank (.inl rfl),
      tokenize_symbol (c := 61) (t := .assign) rfl (by intro _; simp), tokenize_blank (.inl rfl), h1 _ hrest', hrest]
    simp
  have hdef : (txt "def ").isPrefixOf (assignment n (s ++ b) c) = false := by
    cases hp : (txt "def ").isPrefixOf (assignment n (s ++ b) c) with
    | false => rfl
    | true =>
      exfalso
      obtain ⟨u, hu⟩ := List.isPrefixOf_iff_prefix.1 hp
      have t1 : (assignment n (s ++ b) c).takeWhile Header.isWord = n := by
        rw [hshape]
        exact (Header.Props.take_drop w2 (by intro x t he; cases he; decide)).1
      have t2 : (txt "def " ++ u).takeWhile Header.isWord = txt "def" := by
        rw [show txt "def " ++ u = txt "def" ++ (32 :: u) from rfl]
        exact (Header.Props.take_drop (by decide) (by intro x t he; cases he; decide)).1
      rw [hu] at t2
      rw [t1] at t2
      exact hk (by rw [t2]; decide)
  have hhead : ¬ ((assignment n (s ++ b) c).head? = some 32 ∨ (assignment n (s ++ b) c).head? = some 9) := by
    rw [hshape]
    cases n with
    | nil => exact absurd rfl w1
    | cons x n =>
      have := w2 x (by simp)
      rintro (h | h) <;> cases h <;> cases this
  unfold execLine
  rw [if_neg (by simp [hdef]), htok]
  simp only
  rw [if_neg hhead, h2.parse]
  simp only [h3, bind, Except.bind]

/-- The value that Python gives to a declaration. -/
def pythonValue : Item → Option Val
  | .define _ _ v _ => some (.int v)
  | .string _ s => some (.str s)
  | .enumerator _ v => some (.int v)
  | .hidden _ _ => none

/-- The names and values that a module is to have. -/
def constants (items : List Item) : List (Str × Val) := items.filterMap fun i => (pythonValue i).map fun v => (i.name, v)

theorem mem_constants {items : List Item} {n : Str} {v : Val} : (n, v) ∈ constants items ↔ ∃ i ∈ items, i.name = n ∧ pythonValue i = some v := by
  unfold constants
  rw [List.mem_filterMap]
  refine exists_congr fun i => and_congr_right fun _ => ?_
  rw [Option.map_eq_some_iff]
  constructor
  · rintro ⟨w, hw, he⟩
    cases he
    exact ⟨rfl, hw⟩
  · rintro ⟨rfl, hw⟩
    exact ⟨v, hw, rfl⟩

theorem constants_nodup {items : List Item} (h : (items.map Item.name).Nodup) : ((constants items).map Prod.fst).Nodup := by
  induction items with
  | nil => simp [constants]
  | cons i items ih =>
    rw [List.map_cons, List.nodup_cons] at h
    unfold constants at ih ⊢
    rw [List.filterMap_cons]
    cases hv : pythonValue i with
    | none => exact ih h.2
    | some v =>
      simp only [Option.map_some, List.map_cons, List.nodup_cons]
      refine ⟨fun hm => ?_, ih h.2⟩
      obtain ⟨p, hp, he⟩ := List.mem_map.1 hm
      obtain ⟨j, hj, hn, _⟩ := mem_constants.1 (show (p.1, p.2) ∈ constants items from hp)
      exact h.1 (List.mem_map.2 ⟨j, hj, hn.trans he⟩)

theorem lookup_left {l env0 : List (Str × Val)} {n : Str} {v : Val} (h : l.lookup n = some v) : lookup (l ++ env0) n = some v := by
  unfold lookup
  rw [List.lookup_append, h]
  rfl

theorem lookup_right {l env0 : List (Str × Val)} {n : Str} (h : ∀ v, (n, v) ∉ l) : lookup (l ++ env0) n = lookup env0 n := by
  unfold lookup
  rw [List.lookup_append]
  cases hl : l.lookup n with
  | none => rfl
  | some v => exact absurd (lookup_mem hl) (h v)

theorem execLines_append : ∀ {a b : List Str} {env env' : List (Str × Val)}, execLines env a = .ok env' → execLines env (a ++ b) = execLines env' b
  | [], _, _, _, h => by cases h; rfl
  | l :: a, b, env, env', h => by
    simp only [execLines, bind, Except.bind, List.cons_append] at h ⊢
    split at h
    · cases h
    · exact execLines_append h

theorem execLines_one {env env' : List (Str × Val)} {l : Str} (h : execLine env l = .ok env') (ls : List Str) :
    execLines env (l :: ls) = execLines env' ls := by
  simp only [execLines, h, bind, Except.bind]

/-- Enumerators as variables of Python. -/
def vals (own : List (Str × Int)) : List (Str × Val) := own.map fun p => (p.1, .int p.2)

theorem lookup_vals (own : List (Str × Int)) (n : Str) : (vals own).lookup n = (own.lookup n).map .int := by
  induction own with
  | nil => rfl
  | cons p own ih =>
    rw [show p = (p.1, p.2) from rfl]
    show List.lookup n ((p.1, Val.int p.2) :: vals own) = _
    rw [List.lookup_cons, List.lookup_cons]
    cases n == p.1 with
    | true => rfl
    | false => exact ih

/-- An enumeration: its values, and the execution of its lines. -/
theorem enumerates_module {before : List Item} {next : Int} {own : List (Str × Int)} {es : List Entry} {vs : List Int}
    (h : Enumerates before next own es vs) (hown : ∀ p ∈ own, p.1 ∉ keywords ∧ InInt p.2) (env : List (Str × Val)) :
    values pyEval next own es = .ok vs ∧ (∀ v ∈ vs, InInt v) ∧ (∀ l ∈ es.zipWith Entry.line vs, 10 ∉ l) ∧
      execLines (vals own ++ env) (es.zipWith Entry.line vs) =
        .ok ((es.zipWith (fun e v => (e.name, Val.int v)) vs).reverse ++ (vals own ++ env)) := by
  have hname : ∀ {e : Entry}, e.Ok → 10 ∉ e.name := fun h hm => by have := h.name.2 10 hm; revert this; decide
  have hline : ∀ {n s c : Str}, 10 ∉ n → 10 ∉ s → 10 ∉ c → 10 ∉ assignment n s c := by
    intro n s c h1 h2 h3
    unfold assignment
    simp only [List.mem_append, not_or]
    refine ⟨⟨⟨h1, by decide⟩, h2⟩, ?_⟩
    split
    · simp
    · simp only [List.mem_append, not_or]
      exact ⟨by decide, h3⟩
  induction h with
  | nil => exact ⟨rfl, by simp, by simp, rfl⟩
  | @next next own e es vs hok hc hv hi hf ho _ ih =>
    obtain ⟨h1, h2, h3, h4⟩ := ih (List.forall_mem_cons.2 ⟨⟨hf.2.2, hi⟩, hown⟩)
    refine ⟨?_, List.forall_mem_cons.2 ⟨hi, h2⟩, ?_, ?_⟩
    · simp only [values, Entry.valueOf, hv, bind, Except.bind, h1]
    · rw [List.zipWith_cons_cons]
      refine List.forall_mem_cons.2 ⟨?_, h3⟩
      unfold Entry.line
      rw [hv]
      exact hline (hname hok) (decimal_chars next) hc
    · obtain ⟨ts, ex, d1, d2, d3⟩ := decimal_reads next
      have := execLine_assignment (env := vals own ++ env) (b := []) (c := e.comment) hf.1 hf.2.2 d1 d2 (by intro x hx; cases hx) (d3 _ _)
      rw [List.append_nil] at this
      rw [List.zipWith_cons_cons, execLines_one (env' := vals ((e.name, next) :: own) ++ env)
        (by unfold Entry.line; rw [hv]; exact this), h4]
      simp [vals]
  | @value next v own e s b es vs hok hc hv hd hb hf ho _ ih =>
    have hs : ∀ n v, find own n = some v → lookup (vals own ++ env) n = some (.int v) ∧ n ∉ keywords ∧ InInt v := by
      intro n v hn
      have hm := hown _ (lookup_mem hn)
      refine ⟨lookup_left ?_, hm⟩
      rw [lookup_vals]
      unfold find at hn
      rw [hn]
      rfl
    obtain ⟨hi, _, ts, ex, u1, u2, _, u4⟩ := understood (call := callIn (vals own ++ env)) hs (by rintro f v r ⟨⟩) hd
    have hev : pyEval own (s ++ b) = .ok v := by
      obtain ⟨_, _, ts, ex, u1, u2, _, u4⟩ := understood (env := fun n => (own.lookup n).map .int) (call := fun _ _ => .error .typeError)
        (fun n v hn => ⟨by rw [show own.lookup n = some v from hn]; rfl, hown _ (lookup_mem hn)⟩) (by rintro f v r ⟨⟩) hd
      unfold pyEval
      have hb' : tokenize b = some [] := by simpa [tokenize_nil] using tokenize_blanks hb []
      rw [u1 b (by simpa using blanks_head (s := []) hb (by simp)), hb', Option.map_some, List.append_nil, Option.bind_some, u2.parse]
      simp only [u4, bind, Except.bind]
    obtain ⟨h1, h2, h3, h4⟩ := ih (List.forall_mem_cons.2 ⟨⟨hf.2.2, hi⟩, hown⟩)
    refine ⟨?_, List.forall_mem_cons.2 ⟨hi, h2⟩, ?_, ?_⟩
    · simp only [values, Entry.valueOf, hv, bind, Except.bind, hev, h1]
    · rw [List.zipWith_cons_cons]
      refine List.forall_mem_cons.2 ⟨?_, h3⟩
      unfold Entry.line
      rw [hv]
      refine hline (hname hok) ?_ hc
      simp only [Option.getD_some, List.mem_append, not_or]
      exact ⟨denotes_chars hd, fun hm => by have := hb 10 hm; omega⟩
    · have := execLine_assignment (c := e.comment) hf.1 hf.2.2 u1 u2 hb u4
      rw [List.zipWith_cons_cons, execLines_one (env' := vals ((e.name, v) :: own) ++ env)
        (by unfold Entry.line; rw [hv]; exact this), h4]
      simp [vals]

theorem assignment_chars {n s c : Str} (h1 : Ident n) (h2 : 10 ∉ s) (h3 : 10 ∉ c) : 10 ∉ assignment n s c := by
  unfold assignment
  simp only [List.mem_append, not_or]
  refine ⟨⟨⟨fun hm => ?_, by decide⟩, h2⟩, ?_⟩
  · have := h1.1.2 10 hm
    revert this
    decide
  · split
    · simp
    · simp only [List.mem_append, not_or]
      exact ⟨by decide, h3⟩

theorem constants_append (a b : List Item) : constants (a ++ b) = constants a ++ constants b := List.filterMap_append

theorem constants_reverse (a : List Item) : constants a.reverse = (constants a).reverse := List.filterMap_reverse

theorem constants_enum (es : List Entry) (vs : List Int) : constants (es.zipWith (fun e v => Item.enumerator e.name v) vs) =
    es.zipWith (fun e v => (e.name, Val.int v)) vs := by
  induction es generalizing vs with
  | nil => rfl
  | cons e es ih =>
    cases vs with
    | nil => rfl
    | cons v vs =>
      rw [List.zipWith_cons_cons, List.zipWith_cons_cons, ← ih]
      rfl

/-- The functions of the extra code do what the macros with arguments do, and the header gives their names to nothing else. -/
def Provides (fn : Str → Int → Option Int) (env0 : List (Str × Val)) (items : List Item) : Prop :=
  ∀ f v r, fn f v = some r → f ∉ keywords ∧ (∀ i ∈ items, i.name = f → i = .hidden f none) ∧
    ∃ g, lookup env0 f = some g ∧ ∀ env, callIn env g v = .ok r

theorem declares_module {fn : Str → Int → Option Int} {ignore : List Str} {before items : List Item} {rs : List (Str × Str)}
    (h : Declares fn ignore before rs items) (hb : Distinct before) (hi : ∀ p ∈ usable before, InInt p.2) {env0 : List (Str × Val)}
    (hfn : Provides fn env0 (before.reverse ++ items)) :
    ∃ out, Translates pyEval ignore rs out ∧ (∀ l ∈ out, 10 ∉ l) ∧
      execLines (constants before ++ env0) out = .ok ((constants items).reverse ++ (constants before ++ env0)) := by
  induction h with
  | nil => exact ⟨[], .nil, by simp, rfl⟩
  | other ht _ ih =>
    obtain ⟨out, h1, h2, h3⟩ := ih hb hi hfn
    exact ⟨out, .other ht h1, h2, h3⟩
  | @define before items n sp s c v primary rs hf hig hsp hsp0 hc hden _ ih =>
    have hs : ∀ n v, find (usable before) n = some v → lookup (constants before ++ env0) n = some (.int v) ∧ n ∉ keywords ∧ InInt v := by
      intro n v hn
      have hm := lookup_mem hn
      have hitem : ∃ i ∈ before, i.name = n ∧ pythonValue i = some (.int v) := by
        rcases mem_usable hm with he | ⟨t, ht⟩
        · exact ⟨_, he, rfl, rfl⟩
        · exact ⟨_, ht, rfl, rfl⟩
      refine ⟨lookup_left (mem_lookup (constants_nodup hb.nodup) (mem_constants.2 hitem)), ?_, hi _ hm⟩
      obtain ⟨i, hib, rfl, _⟩ := hitem
      exact hb.keyword i hib
    have hf' : ∀ f v r, fn f v = some r → f ∉ keywords ∧ ∃ g, lookup (constants before ++ env0) f = some g ∧
        callIn (constants before ++ env0) g v = .ok r := by
      intro f v r hr
      obtain ⟨h1, h2, g, h3, h4⟩ := hfn f v r hr
      refine ⟨h1, g, ?_, h4 _⟩
      rw [lookup_right, h3]
      intro w hw
      obtain ⟨i, hib, hn, hv⟩ := mem_constants.1 hw
      rw [h2 i (by simp [hib]) hn] at hv
      cases hv
    obtain ⟨hin, _, ts, e, u1, u2, _, u4⟩ := understood hs hf' hden
    have hi' : ∀ p ∈ usable (.define n s v primary :: before), InInt p.2 := by
      intro p hp
      cases primary with
      | true =>
        rcases List.mem_cons.1 (show p ∈ (n, v) :: usable before from hp) with rfl | hp
        · exact hin
        · exact hi p hp
      | false => exact hi p hp
    obtain ⟨out, h1, h2, h3⟩ := ih (hb.cons hf) hi' (by simpa using hfn)
    have hbegins := denotes_begins hden
    have hchars := denotes_chars hden
    refine ⟨assignment n s c :: out, .value hf.1.1 hsp hsp0 hbegins hchars hig h1,
      List.forall_mem_cons.2 ⟨assignment_chars hf.1 hchars hc, h2⟩, ?_⟩
    have := execLine_assignment (b := []) (c := c) hf.1 hf.2.2 u1 (u2.up (by split <;> omega)) (by intro x hx; cases hx) u4
    rw [List.append_nil] at this
    rw [execLines_one this]
    show execLines (constants (.define n s v primary :: before) ++ env0) out = _
    rw [h3]
    simp [constants, pythonValue, Item.name]
  | @string before items n sp s c rs hf hig hsp hsp0 hc hs _ ih =>
    obtain ⟨out, h1, h2, h3⟩ := ih (hb.cons hf) hi (by simpa using hfn)
    have hs' : ∀ x ∈ s, x ≠ 34 ∧ x ≠ 92 ∧ x ≠ 10 := by
      intro x hx
      have := hs x hx
      refine ⟨?_, ?_, ?_⟩ <;> (rintro rfl; exact this (by decide))
    have hchars : 10 ∉ txt "\"" ++ s ++ txt "\"" := by
      simp only [List.mem_append, not_or]
      exact ⟨⟨by decide, fun hm => (hs' 10 hm).2.2 rfl⟩, by decide⟩
    refine ⟨assignment n (txt "\"" ++ s ++ txt "\"") c :: out, .value hf.1.1 hsp hsp0 ⟨34, _, rfl, by decide⟩ hchars hig h1,
      List.forall_mem_cons.2 ⟨assignment_chars hf.1 hchars hc, h2⟩, ?_⟩
    have hsp : Spelled (txt "\"" ++ s ++ txt "\"") [.str s] := by
      intro rest _
      show tokenize (34 :: (s ++ txt "\"" ++ rest)) = _
      rw [show s ++ txt "\"" ++ rest = s ++ 34 :: rest by simp [txt]]
      exact tokenize_string fun x hx => ⟨(hs' x hx).1, (hs' x hx).2.1⟩
    have := execLine_assignment (env := constants before ++ env0) (b := []) (c := c) hf.1 hf.2.2 hsp ((Operand.str s).phrase 1)
      (by intro x hx; cases hx) rfl
    rw [List.append_nil] at this
    rw [execLines_one this]
    show execLines (constants (.string n s :: before) ++ env0) out = _
    rw [h3]
    simp [constants, pythonValue, Item.name]
  | ignored hf hig hsp hsp0 hbt h10 _ ih =>
    obtain ⟨out, h1, h2, h3⟩ := ih (hb.cons hf) hi (by simpa using hfn)
    exact ⟨out, .ignored hf.1.1 hsp hsp0 hbt h10 hig h1, h2, h3⟩
  | flag hf _ ih =>
    obtain ⟨out, h1, h2, h3⟩ := ih (hb.cons hf) hi (by simpa using hfn)
    exact ⟨out, .flag hf.1.1 h1, h2, h3⟩
  | function hf _ ih =>
    obtain ⟨out, h1, h2, h3⟩ := ih (hb.cons hf) hi (by simpa using hfn)
    exact ⟨out, .function hf.1.1 h1, h2, h3⟩
  | @enum before items head fin brace rs es vs hh hbr he hfin _ ih =>
    obtain ⟨e1, e2, e3, e4⟩ := enumerates_module he (by simp) (constants before ++ env0)
    obtain ⟨n1, n2, _, _⟩ := enumerates_names he
    have hi' : ∀ p ∈ usable ((es.zipWith (fun e v => Item.enumerator e.name v) vs).reverse ++ before), InInt p.2 := by
      intro p hp
      unfold usable at hp
      rw [List.filterMap_append] at hp
      rcases List.mem_append.1 hp with hp | hp
      · obtain ⟨i, hi, he⟩ := List.mem_filterMap.1 hp
        obtain ⟨k, hk, hik⟩ := List.mem_iff_getElem.1 (List.mem_reverse.1 hi)
        rw [List.getElem_zipWith] at hik
        subst hik
        cases he
        exact e2 _ (List.getElem_mem _)
      · exact hi p hp
    obtain ⟨out, h1, h2, h3⟩ := ih (hb.enum he) hi' (by simpa using hfn)
    refine ⟨es.zipWith Entry.line vs ++ out, .enum hh hbr (fun e hm => (n2 e hm).1) e1 hfin h1, ?_, ?_⟩
    · intro l hl
      rcases List.mem_append.1 hl with hl | hl
      · exact e3 l hl
      · exact h2 l hl
    · rw [execLines_append (show execLines (constants before ++ env0) _ = _ from e4)]
      show execLines ((es.zipWith (fun e v => (e.name, Val.int v)) vs).reverse ++ (constants before ++ env0)) out = _
      rw [constants_append, constants_reverse, constants_enum, List.append_assoc] at h3
      rw [h3, constants_append, constants_enum]
      simp

theorem splitOn_ne (sep : Nat) (l : Str) : splitOn sep l ≠ [] := by
  cases l with
  | nil => simp [splitOn]
  | cons x xs =>
    unfold splitOn
    split
    · simp
    · split <;> simp

theorem splitOn_cut (sep : Nat) (a b : Str) : splitOn sep (a ++ sep :: b) = splitOn sep a ++ splitOn sep b := by
  induction a with
  | nil => simp [splitOn]
  | cons c a ih =>
    rw [List.cons_append, splitOn, splitOn, ih]
    split
    · rfl
    · cases h : splitOn sep a with
      | nil => exact absurd h (splitOn_ne sep a)
      | cons f fs => rfl

theorem splitOn_whole {sep : Nat} {l : Str} (h : sep ∉ l) : splitOn sep l = [l] := by
  induction l with
  | nil => rfl
  | cons c l ih =>
    rw [List.mem_cons, not_or] at h
    rw [splitOn, if_neg (Ne.symm h.1), ih h.2]

theorem splitOn_lines : ∀ {ls : List Str}, ls ≠ [] → splitOn 10 (join (txt "\n") ls) = ls.flatMap (splitOn 10)
  | [], h => absurd rfl h
  | [l], _ => by simp [join, List.intercalate]
  | l :: m :: ls, _ => by
    have : join (txt "\n") (l :: m :: ls) = l ++ 10 :: join (txt "\n") (m :: ls) := by
      simp [join, List.intercalate, List.intersperse, txt]
    rw [this, splitOn_cut, splitOn_lines (ls := m :: ls) (by simp)]
    rfl

theorem flatMap_whole {ls : List Str} (h : ∀ l ∈ ls, 10 ∉ l) : ls.flatMap (splitOn 10) = ls := by
  induction ls with
  | nil => rfl
  | cons l ls ih =>
    rw [List.flatMap_cons, splitOn_whole (h l (by simp)), ih fun x hx => h x (by simp [hx])]
    rfl

theorem afterQuotes_of : ∀ {a b : Str}, 34 ∉ a → 92 ∉ a → afterQuotes (a ++ 34 :: 34 :: 34 :: b) = some b
  | [], _, _, _ => rfl
  | c :: a, b, h, h' => by
    rw [List.mem_cons, not_or] at h h'
    rw [List.cons_append, afterQuotes.eq_def]
    split
    · rename_i e
      exact absurd (List.cons.inj e).1.symm h.1
    · rename_i e
      exact absurd (List.cons.inj e).1.symm h'.1
    · rename_i e
      rw [← (List.cons.inj e).2]
      exact afterQuotes_of h.2 h'.2
    · rename_i e
      cases e

theorem import_module {l1 l2 : Str} {extraCode out : List Str} {env0 env : List (Str × Val)} (h1 : 34 ∉ l1 ∧ 92 ∉ l1) (h2 : 34 ∉ l2 ∧ 92 ∉ l2)
    (hex : execLines [] (extraCode.flatMap (splitOn 10)) = .ok env0) (hout : ∀ l ∈ out, 10 ∉ l) (he : execLines env0 out = .ok env) :
    importModule (join (txt "\n") ([txt "\"\"\"/", l1, l2, txt "\"\"\"\n"] ++ extraCode ++ out)) = .ok env := by
  have hblank : ∀ e ls, execLines e ([] :: ls) = execLines e ls := fun e ls => execLines_one rfl ls
  have hrun : execLines [] ((extraCode ++ out).flatMap (splitOn 10)) = .ok env := by
    rw [List.flatMap_append, execLines_append hex, flatMap_whole hout, he]
  have hrest : ∃ rest, join (txt "\n") ([txt "\"\"\"/", l1, l2, txt "\"\"\"\n"] ++ extraCode ++ out) =
      34 :: 34 :: 34 :: ((txt "/\n" ++ l1 ++ txt "\n" ++ l2 ++ txt "\n") ++ 34 :: 34 :: 34 :: rest) ∧
      ∃ ls, splitOn 10 rest = [] :: ls ∧ execLines [] ls = .ok env := by
    cases hc : extraCode ++ out with
    | nil =>
      refine ⟨[10], ?_, [[]], rfl, ?_⟩
      · rw [List.append_assoc, hc]
        simp [join, List.intercalate, List.intersperse, txt]
      · rw [hc] at hrun
        exact hrun
    | cons x xs =>
      refine ⟨10 :: 10 :: join (txt "\n") (x :: xs), ?_, [] :: splitOn 10 (join (txt "\n") (x :: xs)), rfl, ?_⟩
      · rw [List.append_assoc, hc]
        simp [join, List.intercalate, List.intersperse, txt]
      · rw [hblank, splitOn_lines (by simp), ← hc]
        exact hrun
  obtain ⟨rest, e1, ls, e2, e3⟩ := hrest
  rw [e1]
  unfold importModule
  simp only
  rw [afterQuotes_of, Option.map_some, e2]
  · exact e3
  · simp only [List.mem_append, not_or]
    exact ⟨⟨⟨⟨by decide, h1.1⟩, by decide⟩, h2.1⟩, by decide⟩
  · simp only [List.mem_append, not_or]
    exact ⟨⟨⟨⟨by decide, h1.2⟩, by decide⟩, h2.2⟩, by decide⟩

/-- C130. Importing the module made from a header gives every constant of the header the value that it has in C, and gives values to no other
names but those of the extra code. `partial`: the header is laid out line by line (C117); a macro that other macros use is a number, a name
or in parentheses, and comes before them; the values of enumerators are made of enumerators of the same enumeration; and the expressions are
those of `Denotes`. -/
theorem header_constants_partial {w : Build.World} (hw : Build.Spec.AsciiCase w) (hev : w.eval = pyEval) (htoday : 34 ∉ w.today ∧ 92 ∉ w.today) {stem : Str}
    (hs : ∀ c ∈ stem, (97 ≤ c ∧ c ≤ 122) ∨ (48 ≤ c ∧ c ≤ 57)) {guard : Str → Bool}
    (hg : ∀ l, guard l = true ↔ Header.Props.GuardLine (stem.map (fun c => if 97 ≤ c ∧ c ≤ 122 then c - 32 else c) ++ txt "_H") l)
    {source : Str} {ls extraCode ignore ts : List Str} (hls : Build.Props.LinesOf source ls) (hr : Reads guard ls ts)
    {fn : Str → Int → Option Int} {items : List Item} (hd : Declares fn ignore [] (ts.map Header.getTrailingComment) items)
    {env0 : List (Str × Val)} (hex : execLines [] (extraCode.flatMap (splitOn 10)) = .ok env0) (hfn : Provides fn env0 items) :
    ∃ text env, Build.headerModule w (stem ++ txt ".h") extraCode ignore source = .ok text ∧ importModule text = .ok env ∧
      (∀ i ∈ items, ∀ v, pythonValue i = some v → lookup env i.name = some v ∧ ∀ k, v = .int k → InC fn items i.name k) ∧
      (∀ n, (∀ i ∈ items, i.name = n → pythonValue i = none) → lookup env n = lookup env0 n) := by
  have hd0 : Distinct [] := ⟨by simp, by simp, by simp⟩
  have hdist : Distinct items := by simpa using declares_distinct hd hd0
  obtain ⟨out, h1, h2, h3⟩ := declares_module hd hd0 (by simp [usable]) (by simpa using hfn)
  have h3' : execLines env0 out = .ok ((constants items).reverse ++ env0) := h3
  have htext := Build.Props.headerModule_text_partial hw (by rw [hev]; exact pyEval_decimal) hs hg (extraCode := extraCode) hls hr
    (by rw [hev]; exact h1)
  have hstem : 34 ∉ stem := fun hm => by have := hs 34 hm; omega
  have hstem' : 92 ∉ stem := fun hm => by have := hs 92 hm; omega
  refine ⟨_, _, htext, import_module ?_ ?_ hex h2 h3', ?_, ?_⟩
  · simp only [List.mem_append, not_or]
    exact ⟨⟨⟨⟨hstem, by decide⟩, hstem⟩, by decide⟩, ⟨⟨hstem', by decide⟩, hstem'⟩, by decide⟩
  · simp only [List.mem_append, not_or]
    exact ⟨⟨by decide, htoday.1⟩, by decide, htoday.2⟩
  · intro i hi v hv
    refine ⟨lookup_left (mem_lookup ?_ (List.mem_reverse.2 (mem_constants.2 ⟨i, hi, rfl, hv⟩))), ?_⟩
    · rw [List.map_reverse]
      exact nodup_reverse (constants_nodup hdist.nodup)
    · rintro k rfl
      cases i with
      | define n t m p =>
        cases hv
        obtain ⟨t', e1, e2⟩ := declares_inC hd rfl hdist (fun f v r hr => (hfn f v r hr).2.1) (by simp) n t k p hi
        exact .inr ⟨t, t', List.mem_filterMap.2 ⟨_, hi, rfl⟩, e1, e2⟩
      | string => cases hv
      | enumerator n m =>
        cases hv
        exact .inl (List.mem_filterMap.2 ⟨_, hi, rfl⟩)
      | hidden => cases hv
  · intro n hn
    refine lookup_right fun v hv => ?_
    obtain ⟨i, hi, hin, hv'⟩ := mem_constants.1 (List.mem_reverse.1 hv)
    rw [hn i hi hin] at hv'
    cases hv'

/-! ## A header -/

def pyWorld : Build.World := { Build.Props.demoWorld with eval := pyEval }

/-- `U_MASK(x)`: one shifted by `x`. -/
def maskFn (f : Str) (x : Int) : Option Int := if f = txt "U_MASK" ∧ 0 ≤ x ∧ x < 31 then some (1 * 2 ^ x.toNat) else none

def demoLines : List Str :=
  [txt "#ifndef UDEMO_H", txt "#define UDEMO_H", txt "#define U_MASK(x) ((uint32_t)1<<(x))", txt "typedef enum {", txt "  U_A = 0, // first",
   txt "  U_B,", txt "  U_C = U_B + 0xA", txt "} UDemo;", txt "#define U_B_MASK U_MASK(U_B)", txt "#define U_AB_MASK (U_MASK( U_A )|U_B_MASK) /* both */",
   txt "#define UDEMO_NAME \"demo\"", txt "#endif"]

def demoItems : List Item :=
  [.hidden (txt "UDEMO_H") (some []), .hidden (txt "U_MASK") none, .enumerator (txt "U_A") 0, .enumerator (txt "U_B") 1,
   .enumerator (txt "U_C") 11, .define (txt "U_B_MASK") (txt "U_MASK(U_B)") 2 true,
   .define (txt "U_AB_MASK") (txt "(U_MASK( U_A )|U_B_MASK)") 3 true, .string (txt "UDEMO_NAME") (txt "demo")]

instance (n : Str) : Decidable (Ident n) := by unfold Ident Name; infer_instance
instance (items : List Item) (n : Str) : Decidable (Fresh items n) := by unfold Fresh; infer_instance
instance (s : Str) : Decidable (Blanks s) := by unfold Blanks; infer_instance
instance (s : Str) : Decidable (Spaces s) := by unfold Spaces; infer_instance
instance (v : Int) : Decidable (InInt v) := by unfold InInt; infer_instance

def demoCode : List Str := ((demoLines.drop 1).dropLast.map strip)

theorem demo_declares : Declares maskFn [] [] (demoCode.map Header.getTrailingComment) demoItems := by
  have e : demoCode.map Header.getTrailingComment =
      (txt "#define " ++ txt "UDEMO_H", []) :: (txt "#define " ++ txt "U_MASK" ++ txt "(" ++ txt "x) ((uint32_t)1<<(x))", []) ::
        (txt "typedef enum {", []) :: ([] ++ ([⟨txt "U_A", txt " ", some (txt "0" ++ []), txt " ", true, txt "first"⟩,
          ⟨txt "U_B", [], none, [], true, []⟩, ⟨txt "U_C", txt " ", some (txt "U_B + 0xA" ++ []), txt " ", false, []⟩].map
            (fun e : Entry => (e.text, e.comment)) ++ (txt "} UDemo;", []) ::
        [(txt "#define " ++ txt "U_B_MASK" ++ txt " " ++ txt "U_MASK(U_B)", []),
         (txt "#define " ++ txt "U_AB_MASK" ++ txt " " ++ txt "(U_MASK( U_A )|U_B_MASK)", txt " both "),
         (txt "#define " ++ txt "UDEMO_NAME" ++ txt " " ++ (txt "\"" ++ txt "demo" ++ txt "\""), [])])) := by decide +kernel
  rw [e]
  refine .flag (by decide +kernel) (.function (by decide +kernel) (.enum (vs := [0, 1, 11])
    ⟨txt " ", [], [], txt "{", by decide, by decide, by decide, .inr rfl, .inr ⟨txt " ", by decide, by decide, by decide, by decide⟩⟩
    (by simp) ?_ ⟨txt " ", txt "UDemo", [], [], by decide, by decide, by decide, by decide⟩ (.define (v := 2) (primary := true) (by decide +kernel) (by decide)
    (by decide) (by decide) (by decide) ?_ (.define (v := 3) (primary := true) (by decide +kernel) (by decide) (by decide) (by decide) (by decide) ?_
    (.string (by decide +kernel) (by decide) (by decide) (by decide) (by decide) (by decide) .nil)))))
  · refine .value (b := []) ⟨by unfold Name; decide, by decide, by decide, ?_⟩ (by decide) rfl (Denotes.up_le (p := 8) (.num (.dec 0) (by decide)) (by omega) (by omega)) (by decide) (by decide +kernel) (by decide)
      (.next ⟨by unfold Name; decide, by decide, by decide, by rintro v ⟨⟩⟩ (by decide) rfl (by decide) (by decide +kernel) (by decide)
      (.value (b := []) ⟨by unfold Name; decide, by decide, by decide, ?_⟩ (by decide) rfl (v := 11) ?_ (by decide) (by decide +kernel) (by decide) .nil))
    · rintro v ⟨⟩
      exact ⟨⟨48, _, rfl, by decide⟩, by decide, by decide⟩
    · rintro v ⟨⟩
      exact ⟨⟨85, _, rfl, by decide⟩, by decide, by decide⟩
    · refine Denotes.up_le (p := 5) ?_ (by omega) (by omega)
      exact .bin (o := .add) (l := txt "U_B") (a := txt " ") (b := txt " ") (r := txt "0xA") (x := 1) (y := 10)
        (Denotes.up_le (p := 8) (.name (by decide) (by decide)) (by omega) (by decide)) (by decide) (by decide) (by decide)
        (Denotes.up_le (p := 8) (.num (.hex (x := 120) (ds := txt "A") (by decide) (by decide) (by decide)) (by decide)) (by omega) (by decide)) rfl (by decide)
  · exact .call (f := txt "U_MASK") (a := []) (s := txt "U_B") (b := []) (v := 1) (by decide) (by decide)
      (Denotes.up_le (p := 8) (.name (by decide) (by decide +kernel)) (by omega) (by omega)) (by decide) (by decide +kernel) (by decide)
  · refine .paren (a := []) (s := txt "U_MASK( U_A )|U_B_MASK") (b := []) (by decide) ?_ (by decide)
    refine .bin (o := .bitOr) (l := txt "U_MASK( U_A )") (a := []) (b := []) (r := txt "U_B_MASK") (x := 1) (y := 2)
      (Denotes.up_le (p := 8) ?_ (by omega) (by decide)) (by decide) (by decide) (by decide)
      (Denotes.up_le (p := 8) (.name (by decide) (by decide +kernel)) (by omega) (by decide)) (by unfold Bin.Means; decide) (by decide)
    exact .call (f := txt "U_MASK") (a := txt " ") (s := txt "U_A") (b := txt " ") (v := 0) (by decide) (by decide)
      (Denotes.up_le (p := 8) (.name (by decide) (by decide +kernel)) (by omega) (by omega)) (by decide) (by decide +kernel) (by decide)

theorem demo_reads : Reads (Header.guardMatch (txt "UDEMO_H")) (demoLines.map (· ++ [10])) demoCode := by
  refine .guard (by decide +kernel) (by decide +kernel) ?_
  repeat refine .code ⟨by decide +kernel, by decide +kernel, by decide +kernel, by decide +kernel, by decide +kernel, by decide +kernel⟩ (by decide +kernel) ?_
  exact .endif (by decide +kernel) .nil

/-- The hypotheses are met by a header with an enumeration, masks and a text. -/
example : ∃ text env, Build.headerModule pyWorld (txt "udemo" ++ txt ".h") [txt "def U_MASK(x: int) -> int: return 1<<x\n"] []
      ((demoLines.map (· ++ [10])).flatten) = .ok text ∧ importModule text = .ok env ∧ lookup env (txt "U_AB_MASK") = some (.int 3) ∧
      InC maskFn demoItems (txt "U_AB_MASK") 3 ∧ lookup env (txt "UDEMO_H") = none := by
  have hex : execLines [] ([txt "def U_MASK(x: int) -> int: return 1<<x\n"].flatMap (splitOn 10)) =
      .ok [(txt "U_MASK", .fn (txt "x") (.bin .shl (.num 1) (.name (txt "x"))))] := by decide +kernel
  obtain ⟨text, env, h1, h2, h3, h4⟩ := header_constants_partial (w := pyWorld) Build.Props.demoWorld_ascii rfl (by decide) (stem := txt "udemo") (by decide)
    (guard := Header.guardMatch (txt "UDEMO_H")) (fun l => Header.Props.guardMatch_iff ⟨by decide, by decide⟩ l)
    (source := (demoLines.map (· ++ [10])).flatten) (extraCode := [txt "def U_MASK(x: int) -> int: return 1<<x\n"])
    ⟨demoLines, [], by decide +kernel, by decide, by simp, by simp⟩ demo_reads demo_declares hex (by
      intro f v r hr
      unfold maskFn at hr
      split at hr
      · rename_i hc
        obtain ⟨rfl, h0, _⟩ := hc
        cases hr
        refine ⟨by decide +kernel, ?_, _, rfl, fun env => ?_⟩
        · decide +kernel
        · simp only [callIn, Expr.eval, Op.apply, if_true, bind, Except.bind]
          rw [if_neg (by omega)]
          rfl
      · cases hr)
  refine ⟨text, env, h1, h2, (h3 (.define (txt "U_AB_MASK") (txt "(U_MASK( U_A )|U_B_MASK)") 3 true) (by simp [demoItems]) _ rfl).1,
    (h3 (.define (txt "U_AB_MASK") (txt "(U_MASK( U_A )|U_B_MASK)") 3 true) (by simp [demoItems]) _ rfl).2 3 rfl, ?_⟩
  rw [h4 (txt "UDEMO_H")]
  · decide +kernel
  · decide +kernel

/-! ## Where the layout matters -/

/-- C130, refuted without parentheses: the value of `B` is 3 in C and 4 in Python. -/
theorem header_parentheses_refuted :
    Header.translate (fun _ => false) pyEval [] [] [txt "#define A 1+1", txt "#define B A*2"] = .ok [txt "A = 1+1", txt "B = A*2"] ∧
    (∃ env, execLines [] [txt "A = 1+1", txt "B = A*2"] = .ok env ∧ lookup env (txt "B") = some (.int 4)) ∧
    InC (fun _ _ => none) [.define (txt "A") (txt "1+1") 2 false, .define (txt "B") (txt "A*2") 3 false] (txt "B") 3 := by
  refine ⟨by decide +kernel, ⟨[(txt "B", .int 4), (txt "A", .int 2)], by decide +kernel, by decide +kernel⟩, .inr ⟨txt "A*2", txt "1+1*2", by decide, ?_, ?_⟩⟩
  · have h : ∀ M : List (Str × Str), (∀ n t, (n, t) ∈ M → Ident n) → ∀ n : Nat, n < 10 → Expands M [48 + n] [48 + n] := by
      intro M hM n hn
      refine .refl ⟨by simp, ?_⟩ fun t ht => ?_
      · intro x hx
        rw [List.mem_singleton.1 hx]
        exact (by decide : ∀ n < 10, wordChar (48 + n) = true) n hn
      · exact (hM _ _ ht).2 (48 + n) rfl ((by decide : ∀ n < 10, 48 + n ∈ txt "0123456789") n hn)
    have hM : ∀ n t, (n, t) ∈ macros [.define (txt "A") (txt "1+1") 2 false, .define (txt "B") (txt "A*2") 3 false] → Ident n := by
      intro n t ht
      have : n = txt "A" ∨ n = txt "B" := by
        have : (n, t) ∈ [(txt "A", txt "1+1"), (txt "B", txt "A*2")] := ht
        simp only [List.mem_cons, Prod.mk.injEq, List.not_mem_nil, or_false] at this
        rcases this with h | h
        · exact .inl h.1
        · exact .inr h.1
      rcases this with rfl | rfl <;> decide
    exact .replace (n := txt "A") (t := txt "1+1") (t' := txt "1+1") (s := txt "*2") (s' := txt "*2") (by unfold Name; decide) (by decide) (by decide)
      ((h _ hM 1 (by omega)).append (b := txt "+1") (by decide) (.other (by decide) (h _ hM 1 (by omega))))
      (.other (by decide) (h _ hM 2 (by omega)))
  · have num : ∀ n : Nat, n < 10 → Denotes (find (enumerators [.define (txt "A") (txt "1+1") 2 false, .define (txt "B") (txt "A*2") 3 false]))
        (fun _ _ => none) 8 (decimal n) n := fun n hn => .num (.dec n) ⟨by omega, by omega⟩
    refine Denotes.up_le (p := 5) ?_ (by omega) (by omega)
    refine .bin (o := .add) (l := txt "1") (a := []) (b := []) (r := txt "1*2") (x := 1) (y := 2) (Denotes.up_le (num 1 (by omega)) (by omega) (by decide))
      (by decide) (by decide) (by decide) ?_ rfl (by decide)
    exact .bin (o := .mul) (l := txt "1") (a := []) (b := []) (r := txt "2") (x := 1) (y := 2) (Denotes.up_le (num 1 (by omega)) (by omega) (by decide))
      (by decide) (by decide) (by decide) (Denotes.up_le (num 2 (by omega)) (by omega) (by decide)) rfl (by decide)

/-- C130, refuted for macros that are used before they are defined: in C, `B` is 1. -/
theorem header_order_refuted :
    Header.translate (fun _ => false) pyEval [] [] [txt "#define B (A)", txt "#define A 1"] = .ok [txt "B = (A)", txt "A = 1"] ∧
    execLines [] [txt "B = (A)", txt "A = 1"] = .error .keyError := by decide +kernel

/-- C130, refuted for suffixes and octal numbers, which the module repeats and Python does not read. -/
theorem header_numbers_refuted :
    Header.translate (fun _ => false) pyEval [] [] [txt "#define A 1U"] = .ok [txt "A = 1U"] ∧ execLines [] [txt "A = 1U"] = .error .valueError ∧
    Header.translate (fun _ => false) pyEval [] [] [txt "#define A 010"] = .ok [txt "A = 010"] ∧ execLines [] [txt "A = 010"] = .error .valueError := by
  decide +kernel

/-- C130, refuted for enumerators whose value refers to anything outside of the enumeration: `translate` raises `NameError`. -/
theorem header_scope_refuted :
    Header.translate (fun _ => false) pyEval [] [] [txt "#define A 1", txt "enum {", txt "B = A", txt "};"] = .error .keyError := by decide +kernel

end Verif.CHeader.Props

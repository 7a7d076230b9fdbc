import Verif.Spec.Csv
/-! # Rows of a file with fields between semicolons (C123) -/
namespace Verif.Csv.Props
open Verif.Csv.Spec

/-! ## Lines -/

theorem fileLines_plain : ∀ {s : Str}, (∀ c ∈ s, c ≠ 10 ∧ c ≠ 13) → fileLines s = if s = [] then [] else [s]
  | [], _ => rfl
  | c :: cs, h => by
    have hc := h c List.mem_cons_self
    have ih := fileLines_plain (s := cs) (fun d hd => h d (List.mem_cons_of_mem _ hd))
    unfold fileLines
    rw [if_neg hc.1, if_neg hc.2, ih]
    by_cases hs : cs = []
    · subst hs; rfl
    · rw [if_neg hs]; rfl

theorem fileLines_end {e : Str} (he : IsEnd e) (rest : Str) : fileLines (e ++ rest) = e :: fileLines rest := by
  rcases he with rfl | rfl
  · rw [List.singleton_append]
    conv => lhs; unfold fileLines
    rw [if_pos rfl]
  · show fileLines (13 :: 10 :: rest) = _
    conv => lhs; unfold fileLines
    rw [if_neg (by decide), if_pos rfl]
    rfl

theorem fileLines_cons : ∀ {s : Str}, (∀ c ∈ s, c ≠ 10 ∧ c ≠ 13) → ∀ {e : Str}, IsEnd e → ∀ rest, fileLines (s ++ e ++ rest) = (s ++ e) :: fileLines rest
  | [], _, e, he, rest => by rw [List.nil_append, fileLines_end he]
  | c :: cs, h, e, he, rest => by
    have hc := h c List.mem_cons_self
    have ih := fileLines_cons (s := cs) (fun d hd => h d (List.mem_cons_of_mem _ hd)) he rest
    rw [List.cons_append, List.cons_append]
    conv => lhs; unfold fileLines
    rw [if_neg hc.1, if_neg hc.2, ih]

/-! ## Fields -/

theorem lineText_chars : ∀ {fs : List Str}, (∀ f ∈ fs, PlainField f) → ∀ c ∈ lineText fs, c ≠ 10 ∧ c ≠ 13
  | [], _, c, hc => by simp [lineText] at hc
  | [f], h, c, hc => ((h f (by simp)).1 c hc).2
  | f :: g :: fs, h, c, hc => by
    unfold lineText at hc
    rcases List.mem_append.1 hc with hc | hc
    · exact ((h f (by simp)).1 c hc).2
    · rcases List.mem_cons.1 hc with rfl | hc
      · decide
      · exact lineText_chars (fun x hx => h x (List.mem_cons_of_mem _ hx)) c hc
      
theorem inField_run (F : List Str) : ∀ (s f : Str), (∀ c ∈ s, c ≠ 59 ∧ c ≠ 10 ∧ c ≠ 13) →
    s.foldlM (fun p c => process p (some c)) ⟨.inField, f, F⟩ = some ⟨.inField, f ++ s, F⟩
  | [], f, _ => by simp
  | c :: s, f, h => by
    have hc := h c List.mem_cons_self
    rw [List.foldlM_cons]
    have : process ⟨.inField, f, F⟩ (some c) = some ⟨.inField, f ++ [c], F⟩ := by
      simp [process, isEnd, hc, Parser.add]
    rw [this]
    show s.foldlM _ (⟨.inField, f ++ [c], F⟩ : Parser) = _
    rw [inField_run F s (f ++ [c]) (fun d hd => h d (List.mem_cons_of_mem _ hd))]
    simp

theorem field_run {f : Str} (hf : PlainField f) (F : List Str) :
    f.foldlM (fun p c => process p (some c)) ⟨.startField, [], F⟩ =
      some (if f = [] then ⟨.startField, [], F⟩ else ⟨.inField, f, F⟩) := by
  match f, hf with
  | [], _ => rfl
  | c :: s, hf =>
    have hc := hf.1 c List.mem_cons_self
    have hq : c ≠ 34 := fun e => hf.2 (by rw [e]; rfl)
    rw [List.foldlM_cons]
    have : process ⟨.startField, [], F⟩ (some c) = some ⟨.inField, [c], F⟩ := by
      simp [process, startField, isEnd, hc, hq, Parser.add]
    rw [this]
    show s.foldlM _ (⟨.inField, [c], F⟩ : Parser) = _
    rw [inField_run F s [c] (fun d hd => hf.1 d (List.mem_cons_of_mem _ hd))]
    simp

/-- A field is saved by the semicolon after it. -/
theorem process_sep (f : Str) (F : List Str) :
    process (if f = [] then ⟨.startField, [], F⟩ else ⟨.inField, f, F⟩) (some 59) = some ⟨.startField, [], F ++ [f]⟩ := by
  by_cases h : f = []
  · subst h; simp [process, startField, isEnd, Parser.save]
  · simp [process, isEnd, Parser.save, h]

/-- The last field is saved by the end of the line. -/
theorem process_end (f : Str) (F : List Str) {e : Str} (he : e = [] ∨ IsEnd e) :
    processLine (if f = [] then ⟨.startField, [], F⟩ else ⟨.inField, f, F⟩) e = some ⟨.startRecord, [], F ++ [f]⟩ := by
  rcases he with rfl | rfl | rfl <;> by_cases h : f = [] <;>
    simp [h, processLine, process, startField, isEnd, Parser.save, afterEnd, bind, Option.bind, List.foldlM]

theorem processLine_append (p : Parser) (s t : Str) :
    processLine p (s ++ t) = (s.foldlM (fun p c => process p (some c)) p) >>= fun p => processLine p t := by
  unfold processLine
  rw [List.foldlM_append]
  cases s.foldlM (fun p c => process p (some c)) p <;> rfl

theorem line_run {e : Str} (he : e = [] ∨ IsEnd e) : ∀ {fs : List Str} (F : List Str), fs ≠ [] → (∀ f ∈ fs, PlainField f) →
    processLine ⟨.startField, [], F⟩ (lineText fs ++ e) = some ⟨.startRecord, [], F ++ fs⟩
  | [], _, h, _ => absurd rfl h
  | [f], F, _, hf => by
    show processLine _ (f ++ e) = _
    rw [processLine_append, field_run (hf f (by simp))]
    exact process_end f F he
  | f :: g :: fs, F, _, hf => by
    show processLine _ ((f ++ 59 :: lineText (g :: fs)) ++ e) = _
    rw [List.append_assoc, processLine_append, field_run (hf f (by simp))]
    show processLine (if f = [] then ⟨.startField, [], F⟩ else ⟨.inField, f, F⟩ : Parser) ([59] ++ (lineText (g :: fs) ++ e)) = _
    rw [processLine_append]
    simp only [List.foldlM_cons, List.foldlM_nil, process_sep]
    have := line_run he (fs := g :: fs) (F ++ [f]) (by simp) (fun x hx => hf x (List.mem_cons_of_mem _ hx))
    simpa [bind, Option.bind, pure] using this

theorem start_run {c : Nat} (hc : c ≠ 10 ∧ c ≠ 13) (s : Str) : processLine .start (c :: s) = processLine ⟨.startField, [], []⟩ (c :: s) := by
  have : process .start (some c) = process ⟨.startField, [], []⟩ (some c) := by
    simp only [process, Parser.start, hc.1, hc.2, or_self, if_false, startField, isEnd]
    by_cases h1 : c = 34
    · simp [h1]
    · by_cases h2 : c = 59 <;> simp [h1, h2, Parser.save, Parser.add, hc]
  unfold processLine
  rw [List.foldlM_cons, List.foldlM_cons, this]

/-- A line is a row. -/
theorem processLine_start {fs : List Str} {e : Str} (he : e = [] ∨ IsEnd e) (hf : ∀ f ∈ fs, PlainField f) :
    processLine .start (lineText fs ++ e) = some ⟨.startRecord, [], row fs⟩ := by
  unfold row
  by_cases h : lineText fs = []
  · rw [if_pos h, h]
    rcases he with rfl | rfl | rfl <;> rfl
  · rw [if_neg h]
    have hne : fs ≠ [] := fun e => h (by rw [e]; rfl)
    have hl := line_run he (F := []) hne hf
    have hc := lineText_chars hf
    cases hs : lineText fs with
    | nil => exact absurd hs h
    | cons c s =>
      rw [hs] at hl hc
      rw [List.cons_append] at hl ⊢
      rw [start_run (hc c List.mem_cons_self), hl]
      rfl

/-- C123. In a file of lines with plain fields every line is a row, split at the semicolons; an empty line is a row without fields, and a
last line without an end is a row if it is not empty. -/
theorem rows_partial {ls : List (List Str × Str)} {last : List Str} (he : ∀ l ∈ ls, IsEnd l.2) (hf : ∀ l ∈ ls, ∀ f ∈ l.1, PlainField f)
    (hl : ∀ f ∈ last, PlainField f) :
    rows (fileText ls last) = some (ls.map (fun l => row l.1) ++ if lineText last = [] then [] else [last]) := by
  unfold rows
  induction ls with
  | nil =>
    show readRows .start (fileLines (lineText last)) = _
    rw [fileLines_plain (lineText_chars hl)]
    by_cases h : lineText last = []
    · rw [if_pos h, if_pos h]; rfl
    · rw [if_neg h, if_neg h]
      have := processLine_start (e := []) (.inl rfl) hl
      rw [List.append_nil] at this
      simp only [readRows, this, row, if_neg h]
      rfl
  | cons l ls ih =>
    obtain ⟨fs, e⟩ := l
    have h1 : ∀ f ∈ fs, PlainField f := hf (fs, e) List.mem_cons_self
    have h2 : IsEnd e := he (fs, e) List.mem_cons_self
    show readRows .start (fileLines (lineText fs ++ e ++ fileText ls last)) = _
    rw [fileLines_cons (lineText_chars h1) h2]
    unfold readRows
    rw [processLine_start (.inr h2) h1]
    have := ih (fun l hl => he l (List.mem_cons_of_mem _ hl)) (fun l hl => hf l (List.mem_cons_of_mem _ hl))
    simp only [bind, Option.bind, if_true, this]
    rfl

example : (∀ f ∈ [txt "value", txt "gc", txt "Lu", txt "Uppercase_Letter"], PlainField f) ∧
    fileText [([txt "ucd", txt "13.0.0"], txt "\r\n"), ([], txt "\n"), ([txt "value", txt "gc", txt "Lu", txt "Uppercase_Letter"], txt "\n")]
      [txt "block", []] = txt "ucd;13.0.0\r\n\nvalue;gc;Lu;Uppercase_Letter\nblock;" ∧
    row [txt "ucd", txt "13.0.0"] = [txt "ucd", txt "13.0.0"] := by
  refine ⟨?_, by decide, by decide⟩
  intro f hf
  simp only [List.mem_cons, List.not_mem_nil, or_false] at hf
  rcases hf with rfl | rfl | rfl | rfl <;> exact ⟨by decide, by decide⟩

/-! ## No file makes the reader fail -/

theorem fileLines_shape : ∀ {s : Str}, ∀ l ∈ fileLines s, ∃ a b, l = a ++ b ∧ (∀ c ∈ a, c ≠ 10 ∧ c ≠ 13) ∧ ∀ c ∈ b, c = 10 ∨ c = 13 := by
  intro s
  fun_induction fileLines s with
  | case1 => intro l h; cases h
  | case2 cs ih =>
    intro l h
    rcases List.mem_cons.1 h with rfl | h
    · exact ⟨[], [10], rfl, by simp, by simp⟩
    · exact ih l h
  | case3 cs hc ih =>
    intro l h
    rcases List.mem_cons.1 h with rfl | h
    · exact ⟨[], [13, 10], rfl, by simp, by simp⟩
    · exact ih l h
  | case4 cs hc hn ih =>
    intro l h
    rcases List.mem_cons.1 h with rfl | h
    · exact ⟨[], [13], rfl, by simp, by simp⟩
    · exact ih l h
  | case5 c cs h1 h2 he ih =>
    intro l h
    rw [List.mem_singleton] at h
    exact ⟨[c], [], by rw [h]; rfl, by simp [h1, h2], by simp⟩
  | case6 c cs h1 h2 l0 ls he ih =>
    intro l h
    rcases List.mem_cons.1 h with rfl | h
    · obtain ⟨a, b, e, ha, hb⟩ := ih l0 (by rw [he]; simp)
      exact ⟨c :: a, b, by rw [e]; rfl, by simpa [h1, h2] using ha, hb⟩
    · exact ih l (by rw [he]; exact List.mem_cons_of_mem _ h)

theorem process_plain {p : Parser} {c : Nat} (hp : p.state ≠ .eatCrnl) (hc : c ≠ 10 ∧ c ≠ 13) :
    ∃ q, process p (some c) = some q ∧ q.state ≠ .eatCrnl := by
  unfold process
  cases hs : p.state <;> simp only [hc.1, hc.2, or_self, if_false, startField, isEnd, Bool.or_self, Bool.false_eq_true, beq_eq_false_iff_ne.2 hc.1, beq_eq_false_iff_ne.2 hc.2]
  all_goals first
    | exact absurd hs hp
    | (by_cases h1 : c = 34 <;> by_cases h2 : c = 59 <;> simp [h1, h2, Parser.save, Parser.add])

theorem process_crlf (p : Parser) {c : Nat} (hc : c = 10 ∨ c = 13) : ∃ q, process p (some c) = some q := by
  unfold process
  cases hs : p.state <;> rcases hc with rfl | rfl <;> simp [startField, isEnd]

theorem process_none (p : Parser) : ∃ q, process p none = some q ∧ q.state ≠ .eatCrnl := by
  unfold process
  cases hs : p.state <;> simp [startField, isEnd, Parser.save, afterEnd, hs]

theorem plain_total : ∀ (a : Str) {p : Parser}, p.state ≠ .eatCrnl → (∀ c ∈ a, c ≠ 10 ∧ c ≠ 13) →
    ∃ q, a.foldlM (fun p c => process p (some c)) p = some q
  | [], p, _, _ => ⟨p, rfl⟩
  | c :: a, p, hp, h => by
    obtain ⟨q, h1, h2⟩ := process_plain hp (h c List.mem_cons_self)
    rw [List.foldlM_cons, h1]
    exact plain_total a h2 (fun d hd => h d (List.mem_cons_of_mem _ hd))

theorem crlf_total : ∀ (b : Str) (p : Parser), (∀ c ∈ b, c = 10 ∨ c = 13) → ∃ q, b.foldlM (fun p c => process p (some c)) p = some q
  | [], p, _ => ⟨p, rfl⟩
  | c :: b, p, h => by
    obtain ⟨q, h1⟩ := process_crlf p (h c List.mem_cons_self)
    rw [List.foldlM_cons, h1]
    exact crlf_total b q (fun d hd => h d (List.mem_cons_of_mem _ hd))

theorem readRows_total : ∀ (ls : List Str) {p : Parser}, p.state ≠ .eatCrnl →
    (∀ l ∈ ls, ∃ a b, l = a ++ b ∧ (∀ c ∈ a, c ≠ 10 ∧ c ≠ 13) ∧ ∀ c ∈ b, c = 10 ∨ c = 13) → ∃ r, readRows p ls = some r
  | [], p, _, _ => by
    unfold readRows
    split <;> exact ⟨_, rfl⟩
  | l :: ls, p, hp, h => by
    obtain ⟨a, b, rfl, ha, hb⟩ := h l List.mem_cons_self
    obtain ⟨q1, h1⟩ := plain_total a hp ha
    obtain ⟨q2, h2⟩ := crlf_total b q1 hb
    obtain ⟨q3, h3, h4⟩ := process_none q2
    have hl : processLine p (a ++ b) = some q3 := by
      unfold processLine
      rw [List.foldlM_append, h1]
      show (b.foldlM _ q1 >>= fun p => process p none) = _
      rw [h2]
      exact h3
    unfold readRows
    rw [hl]
    have hrest := fun q (hq : Parser.state q ≠ .eatCrnl) => readRows_total ls hq (fun l hl => h l (List.mem_cons_of_mem _ hl))
    simp only [bind, Option.bind]
    split
    · obtain ⟨r, hr⟩ := hrest .start (by decide)
      rw [hr]
      exact ⟨_, rfl⟩
    · exact hrest q3 h4

/-- C123. No file makes the reader raise `csv.Error`. -/
theorem rows_total (text : Str) : ∃ r, rows text = some r := readRows_total _ (by decide) fileLines_shape

end Verif.Csv.Props

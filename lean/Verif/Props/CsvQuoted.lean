import Verif.Spec.CsvQuoted
import Verif.Props.Csv
/-! # Rows of a file with fields between quotation marks (C123) -/
namespace Verif.Csv.Props
open Verif.Csv.Spec

/-- The rows that come from a place inside a line. -/
def inLine (p : Parser) (t : Str) : Option (List (List Str)) :=
  readRows p (match fileLines t with | [] => [[]] | ls => ls)

theorem fileLines_ne {t : Str} (h : t ≠ []) : fileLines t ≠ [] := by
  match t, h with
  | c :: cs, _ =>
    unfold fileLines
    split
    · simp
    · split
      · split <;> simp
      · split <;> simp

theorem inLine_ne {p : Parser} {t : Str} (h : t ≠ []) : inLine p t = readRows p (fileLines t) := by
  unfold inLine
  split
  · next e => exact absurd e (fileLines_ne h)
  · rfl

theorem readRows_cons {p q : Parser} {l m : Str} {ls : List Str} (h : processLine p l = processLine q m) :
    readRows p (l :: ls) = readRows q (m :: ls) := by
  simp only [readRows, h]

theorem inLine_char {p q : Parser} {c : Nat} (hc : c ≠ 10 ∧ c ≠ 13) (h : process p (some c) = some q) (t : Str) :
    inLine p (c :: t) = inLine q t := by
  have hp : ∀ l, processLine p (c :: l) = processLine q l := by
    intro l
    unfold processLine
    rw [List.foldlM_cons, h]
    rfl
  rw [inLine_ne (by simp)]
  conv => lhs; unfold fileLines
  rw [if_neg hc.1, if_neg hc.2]
  unfold inLine
  cases fileLines t with
  | nil => exact readRows_cons (hp _)
  | cons l ls => exact readRows_cons (hp _)

/-- Between quotation marks every other character is part of the field, ends of lines too. -/
theorem inLine_quoted_char {c : Nat} (hc : c ≠ 34) (f : Str) (F : List Str) (t : Str) :
    inLine ⟨.inQuotedField, f, F⟩ (c :: t) = inLine ⟨.inQuotedField, f ++ [c], F⟩ t := by
  have hp : ∀ f, process ⟨.inQuotedField, f, F⟩ (some c) = some ⟨.inQuotedField, f ++ [c], F⟩ := by
    intro f
    simp [process, hc, Parser.add]
  have hnil : ∀ f, inLine ⟨.inQuotedField, f, F⟩ [] = readRows ⟨.inQuotedField, f, F⟩ [] := by
    intro f
    rfl
  have hin : ∀ f t, inLine ⟨.inQuotedField, f, F⟩ t = readRows ⟨.inQuotedField, f, F⟩ (fileLines t) := by
    intro f t
    by_cases h : t = []
    · subst h; exact hnil f
    · exact inLine_ne h
  by_cases h10 : c = 10
  · subst h10
    rw [hin, hin]
    conv => lhs; unfold fileLines
    rw [if_pos rfl]
    rfl
  · by_cases h13 : c = 13
    · subst h13
      rw [hin, hin]
      conv => lhs; unfold fileLines
      rw [if_neg (by decide), if_pos rfl]
      split
      · next t' =>
        rw [show fileLines (10 :: t') = [10] :: fileLines t' from fileLines_end (.inl rfl) t']
        simp [readRows, processLine, process, Parser.add, bind, Option.bind, List.foldlM, pure]
      · rfl
    · exact inLine_char ⟨h10, h13⟩ (hp f) t

/-- What is written between quotation marks. -/
theorem inLine_quoted (F : List Str) (t : Str) : ∀ (s f : Str),
    inLine ⟨.inQuotedField, f, F⟩ (doubled s ++ t) = inLine ⟨.inQuotedField, f ++ s, F⟩ t
  | [], f => by simp [doubled]
  | c :: s, f => by
    unfold doubled
    by_cases h : c = 34
    · subst h
      rw [if_pos rfl]
      show inLine _ (34 :: 34 :: (doubled s ++ t)) = _
      rw [inLine_char (q := ⟨.quoteInQuotedField, f, F⟩) (by decide) (by simp [process]),
        inLine_char (q := ⟨.inQuotedField, f ++ [34], F⟩) (by decide) (by simp [process, isEnd, Parser.add]),
        inLine_quoted F t s (f ++ [34])]
      simp
    · rw [if_neg h]
      show inLine _ (c :: (doubled s ++ t)) = _
      rw [inLine_quoted_char h, inLine_quoted F t s (f ++ [c])]
      simp

theorem inLine_run {t : Str} : ∀ (s : Str) {p q : Parser}, (∀ c ∈ s, c ≠ 10 ∧ c ≠ 13) →
    s.foldlM (fun p c => process p (some c)) p = some q → inLine p (s ++ t) = inLine q t
  | [], p, q, _, h => by
    rw [List.foldlM_nil] at h
    cases h
    rfl
  | c :: s, p, q, hs, h => by
    rw [List.foldlM_cons] at h
    cases hp : process p (some c) with
    | none => rw [hp] at h; cases h
    | some p' =>
      rw [hp] at h
      rw [List.cons_append, inLine_char (hs c List.mem_cons_self) hp]
      exact inLine_run s (fun d hd => hs d (List.mem_cons_of_mem _ hd)) h

/-- The parser behind a field. -/
def Behind (p : Parser) (f : Str) (F : List Str) : Prop :=
  (p = ⟨.startField, [], F⟩ ∧ f = []) ∨ p = ⟨.inField, f, F⟩ ∨ p = ⟨.quoteInQuotedField, f, F⟩

theorem inLine_field {x : Field} (hx : x.Ok) (F : List Str) (t : Str) :
    ∃ p, Behind p x.value F ∧ inLine ⟨.startField, [], F⟩ (x.text ++ t) = inLine p t := by
  cases x with
  | plain f =>
    refine ⟨if f = [] then ⟨.startField, [], F⟩ else ⟨.inField, f, F⟩, ?_, inLine_run f (fun c hc => (hx.1 c hc).2) (field_run hx F)⟩
    by_cases h : f = []
    · rw [if_pos h]; exact .inl ⟨rfl, h⟩
    · rw [if_neg h]; exact .inr (.inl rfl)
  | quoted f =>
    refine ⟨⟨.quoteInQuotedField, f, F⟩, .inr (.inr rfl), ?_⟩
    show inLine _ (34 :: ((doubled f ++ [34]) ++ t)) = _
    rw [inLine_char (q := ⟨.inQuotedField, [], F⟩) (by decide) (by simp [process, startField, isEnd]), List.append_assoc, inLine_quoted]
    exact inLine_char (by decide) (by simp [process]) t

theorem behind_sep {p : Parser} {f : Str} {F : List Str} (h : Behind p f F) : process p (some 59) = some ⟨.startField, [], F ++ [f]⟩ := by
  rcases h with ⟨rfl, rfl⟩ | rfl | rfl <;> simp [process, startField, isEnd, Parser.save]

theorem behind_end {p : Parser} {f : Str} {F : List Str} (h : Behind p f F) {e : Str} (he : e = [] ∨ IsEnd e) :
    processLine p e = some ⟨.startRecord, [], F ++ [f]⟩ := by
  rcases he with rfl | rfl | rfl <;> rcases h with ⟨rfl, rfl⟩ | rfl | rfl <;>
    simp [processLine, process, startField, isEnd, Parser.save, afterEnd, bind, Option.bind, List.foldlM]

/-- A line to its end. -/
theorem inLine_fields : ∀ {fs : List Field} (F : List Str) (t : Str), fs ≠ [] → (∀ x ∈ fs, x.Ok) →
    ∃ p f G, Behind p f G ∧ G ++ [f] = F ++ fs.map Field.value ∧ inLine ⟨.startField, [], F⟩ (fieldsText fs ++ t) = inLine p t
  | [], _, _, h, _ => absurd rfl h
  | [x], F, t, _, h => by
    obtain ⟨p, h1, h2⟩ := inLine_field (h x (by simp)) F t
    exact ⟨p, x.value, F, h1, rfl, h2⟩
  | x :: y :: fs, F, t, _, h => by
    obtain ⟨p, h1, h2⟩ := inLine_field (h x (by simp)) F (59 :: (fieldsText (y :: fs) ++ t))
    obtain ⟨p', f, G, h3, h4, h5⟩ := inLine_fields (fs := y :: fs) (F ++ [x.value]) t (by simp) (fun z hz => h z (List.mem_cons_of_mem _ hz))
    refine ⟨p', f, G, h3, by rw [h4]; simp, ?_⟩
    have e : fieldsText (x :: y :: fs) ++ t = x.text ++ (59 :: (fieldsText (y :: fs) ++ t)) := by
      show (x.text ++ 59 :: fieldsText (y :: fs)) ++ t = _
      simp
    rw [e, h2, inLine_char (by decide) (behind_sep h1), h5]

theorem inLine_start {c : Nat} (hc : c ≠ 10 ∧ c ≠ 13) (t : Str) : inLine .start (c :: t) = inLine ⟨.startField, [], []⟩ (c :: t) := by
  have : process .start (some c) = process ⟨.startField, [], []⟩ (some c) := by
    simp only [process, Parser.start, hc.1, hc.2, or_self, if_false, startField, isEnd]
    by_cases h1 : c = 34
    · simp [h1]
    · by_cases h2 : c = 59 <;> simp [h1, h2, Parser.save, Parser.add, hc]
  obtain ⟨q, hq, _⟩ := process_plain (p := ⟨.startField, [], []⟩) (by decide) hc
  rw [inLine_char hc (this.trans hq), inLine_char hc hq]

theorem field_head {x : Field} (h : x.Ok) : ∀ c ∈ x.text.head?, c ≠ 10 ∧ c ≠ 13 := by
  cases x with
  | plain f => intro c hc; exact (h.1 c (List.mem_of_mem_head? hc)).2
  | quoted f => intro c hc; cases hc; decide

theorem fields_head {fs : List Field} (h : ∀ x ∈ fs, x.Ok) : ∀ c ∈ (fieldsText fs).head?, c ≠ 10 ∧ c ≠ 13 := by
  match fs, h with
  | [], _ => intro c hc; cases hc
  | [x], h => exact field_head (h x (by simp))
  | x :: y :: fs, h =>
    have := field_head (h x (by simp))
    show ∀ c ∈ (x.text ++ 59 :: fieldsText (y :: fs)).head?, _
    cases hx : x.text with
    | nil => intro c hc; cases hc; decide
    | cons d s => rw [hx] at this; exact this

theorem inLine_fields_start {fs : List Field} (h : ∀ x ∈ fs, x.Ok) (hne : fieldsText fs ≠ []) (t : Str) :
    inLine .start (fieldsText fs ++ t) = inLine ⟨.startField, [], []⟩ (fieldsText fs ++ t) := by
  have := fields_head h
  cases hs : fieldsText fs with
  | nil => exact absurd hs hne
  | cons c s =>
    rw [hs] at this
    exact inLine_start (this c rfl) _

/-- A line with its end is a row. -/
theorem readRows_line {fs : List Field} (h : ∀ x ∈ fs, x.Ok) {e : Str} (he : IsEnd e) (t : Str) :
    readRows .start (fileLines (fieldsText fs ++ e ++ t)) = (readRows .start (fileLines t)).map (fieldsRow fs :: ·) := by
  have hne : e ++ t ≠ [] := by rcases he with rfl | rfl <;> simp
  unfold fieldsRow
  by_cases h0 : fieldsText fs = []
  · rw [if_pos h0, h0, List.nil_append, fileLines_end he]
    rcases he with rfl | rfl
    all_goals
      show (readRows .start (fileLines t) >>= fun r => some ([] :: r)) = _
      cases readRows .start (fileLines t) <;> rfl
  · have hfs : fs ≠ [] := fun e => h0 (by rw [e]; rfl)
    rw [if_neg h0, List.append_assoc, ← inLine_ne (by simp [h0]), inLine_fields_start h h0]
    obtain ⟨p, f, G, h1, h2, h3⟩ := inLine_fields [] (e ++ t) hfs h
    rw [h3, inLine_ne hne, fileLines_end he]
    simp only [readRows, behind_end h1 (.inr he), bind, Option.bind, if_true, h2, List.nil_append]
    cases readRows .start (fileLines t) <;> rfl

theorem readRows_lines : ∀ {ls : List (List Field × Str)}, (∀ l ∈ ls, IsEnd l.2) → (∀ l ∈ ls, ∀ x ∈ l.1, x.Ok) → ∀ t,
    readRows .start (fileLines (linesText ls ++ t)) = (readRows .start (fileLines t)).map (ls.map (fun l => fieldsRow l.1) ++ ·)
  | [], _, _, t => by
    show readRows .start (fileLines t) = _
    cases readRows .start (fileLines t) <;> rfl
  | (fs, e) :: ls, he, hf, t => by
    have e1 : linesText ((fs, e) :: ls) ++ t = fieldsText fs ++ e ++ (linesText ls ++ t) := by
      show (fieldsText fs ++ e ++ linesText ls) ++ t = _
      simp
    rw [e1, readRows_line (hf _ List.mem_cons_self) (he (fs, e) List.mem_cons_self),
      readRows_lines (fun l hl => he l (List.mem_cons_of_mem _ hl)) (fun l hl => hf l (List.mem_cons_of_mem _ hl)) t]
    cases readRows .start (fileLines t) <;> rfl

/-- C123. Fields between quotation marks are read back whatever is in them: semicolons, doubled quotation marks and ends of lines. -/
theorem rows_quoted {ls : List (List Field × Str)} {last : List Field} (he : ∀ l ∈ ls, IsEnd l.2) (hf : ∀ l ∈ ls, ∀ x ∈ l.1, x.Ok)
    (hl : ∀ x ∈ last, x.Ok) :
    rows (linesText ls ++ fieldsText last) =
      some (ls.map (fun l => fieldsRow l.1) ++ if fieldsText last = [] then [] else [last.map Field.value]) := by
  unfold rows
  rw [readRows_lines he hf]
  by_cases h0 : fieldsText last = []
  · rw [if_pos h0, h0]; rfl
  · have hfs : last ≠ [] := fun e => h0 (by rw [e]; rfl)
    obtain ⟨p, f, G, h1, h2, h3⟩ := inLine_fields [] [] hfs hl
    rw [List.append_nil] at h3
    have h4 := inLine_fields_start hl h0 []
    rw [List.append_nil] at h4
    rw [if_neg h0, ← inLine_ne h0, h4, h3]
    show (readRows p [[]]).map _ = _
    simp only [readRows, behind_end h1 (.inl rfl), bind, Option.bind, if_true, h2, List.nil_append]
    rfl

/-- C123 is violated for a field that begins with a quotation mark and has no second one: all that follows in the file, with its
semicolons and lines, becomes part of the field. -/
theorem rows_open {ls : List (List Field × Str)} {fs : List Field} (he : ∀ l ∈ ls, IsEnd l.2) (hf : ∀ l ∈ ls, ∀ x ∈ l.1, x.Ok)
    (hl : ∀ x ∈ fs, x.Ok) (hne : fs ≠ []) {s : Str} (hs : 34 ∉ s) :
    rows (linesText ls ++ (fieldsText fs ++ 59 :: 34 :: s)) = some (ls.map (fun l => fieldsRow l.1) ++ [fs.map Field.value ++ [s]]) := by
  unfold rows
  have hd : ∀ {s : Str}, 34 ∉ s → doubled s = s := by
    intro s
    induction s with
    | nil => intro _; rfl
    | cons c s ih =>
      intro h
      rw [List.mem_cons, not_or] at h
      rw [doubled, if_neg (fun e => h.1 e.symm), ih h.2]
  rw [readRows_lines he hf, ← inLine_ne (by simp)]
  have hst : inLine .start (fieldsText fs ++ 59 :: 34 :: s) = inLine ⟨.startField, [], []⟩ (fieldsText fs ++ 59 :: 34 :: s) := by
    by_cases h0 : fieldsText fs = []
    · rw [h0]
      exact inLine_start (by decide) _
    · exact inLine_fields_start hl h0 _
  obtain ⟨p, f, G, h1, h2, h3⟩ := inLine_fields [] (59 :: 34 :: s) hne hl
  rw [hst, h3, inLine_char (by decide) (behind_sep h1), inLine_char (q := ⟨.inQuotedField, [], G ++ [f]⟩) (by decide)
    (by simp [process, startField, isEnd])]
  have h5 := inLine_quoted (G ++ [f]) [] s []
  rw [hd hs, List.append_nil] at h5
  rw [h5, h2]
  show (readRows ⟨.inQuotedField, s, fs.map Field.value⟩ []).map _ = _
  rw [readRows, if_pos (.inr rfl)]
  rfl

/-- C123 is violated for fields that begin with a quotation mark: the lines that follow become part of the field. -/
theorem rows_refuted : rows (txt "value;\"x;y\nucd;13.0.0\n") = some [[txt "value", txt "x;y\nucd;13.0.0\n"]] :=
  rows_open (ls := []) (fs := [.plain (txt "value")]) (s := txt "x;y\nucd;13.0.0\n") (by simp) (by simp)
    (fun x hx => by rw [List.mem_singleton.1 hx]; exact ⟨by decide, by decide⟩) (by simp) (by decide)

example : (∀ x ∈ [Field.plain (txt "value"), .quoted (txt "x;y \"z\"\nw")], x.Ok) ∧
    linesText [([.plain (txt "value"), .quoted (txt "x;y \"z\"\nw")], txt "\n")] ++ fieldsText [.plain (txt "ucd"), .plain (txt "13.0.0")] =
      txt "value;\"x;y \"\"z\"\"\nw\"\nucd;13.0.0" ∧
    fieldsRow [.plain (txt "value"), .quoted (txt "x;y \"z\"\nw")] = [txt "value", txt "x;y \"z\"\nw"] := by
  refine ⟨?_, by decide, by decide⟩
  intro x hx
  simp only [List.mem_cons, List.not_mem_nil, or_false] at hx
  rcases hx with rfl | rfl
  · exact ⟨by decide, by decide⟩
  · trivial

example : 34 ∉ txt "x;y\nucd;13.0.0\n" ∧
    linesText [] ++ (fieldsText [.plain (txt "value")] ++ 59 :: 34 :: txt "x;y\nucd;13.0.0\n") = txt "value;\"x;y\nucd;13.0.0\n" := by decide

end Verif.Csv.Props

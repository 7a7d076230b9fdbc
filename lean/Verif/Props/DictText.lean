import Verif.Spec.DictText
import Verif.Props.UCDReader
import Verif.Props.CsvQuoted
/-! # The generated module of dictionaries, read as Python (C126) -/
namespace Verif.UCDReader.Props
open Verif.UCDReader.Spec

/-- The line of an entry. -/
def entryLine (e : Str × Str) : Str := txt "    " ++ e.1 ++ txt ": \"" ++ e.2 ++ txt "\""

theorem rowLine_entry (upper lower : Str → Str) (type : Str) (row : List Str) :
    rowLine upper lower type row = (rowEntry upper lower type row).map entryLine := by
  match row with
  | [] => rfl
  | [_] => rfl
  | [_, _] => rfl
  | [_, _, _] => rfl
  | k :: type' :: s :: l :: rest =>
    simp only [rowLine, rowEntry]
    by_cases h : k = txt "value" ∧ type' = type
    · rw [if_pos h, if_pos h]
      cases prefixes.find? (fun p => p.1 = type) with
      | none => rfl
      | some p =>
        obtain ⟨_, t⟩ := p
        dsimp only
        cases constantName upper t l with
        | none => rfl
        | some key => simp [entryLine]
    · rw [if_neg h, if_neg h]
      rfl

/-! ## Reading -/

/-- What can stand at the head of a name. -/
def Head (n : Str) : Prop := ∃ c s, n = c :: s ∧ ¬ (48 ≤ c ∧ c ≤ 57)

theorem readName_append {n : Str} (hh : Head n) (hn : ∀ c ∈ n, isNameChar c = true) {d : Nat} (hd : isNameChar d = false) (t : Str) :
    readName (n ++ d :: t) = some (n, d :: t) := by
  obtain ⟨c, s, rfl, hc⟩ := hh
  have h1 : (c :: s ++ d :: t).takeWhile isNameChar = c :: s := by
    rw [List.takeWhile_append_of_pos hn]; simp [hd]
  have h2 : (c :: s ++ d :: t).dropWhile isNameChar = d :: t := by
    rw [List.dropWhile_append_of_pos hn]; simp [hd]
  simp only [readName, h1, h2, if_neg hc]

theorem readText_append (t : Str) : ∀ {v : Str}, (∀ c ∈ v, c ≠ 34 ∧ c ≠ 92 ∧ c ≠ 10 ∧ c ≠ 13) → readText (v ++ 34 :: t) = some (v, t)
  | [], _ => by simp [readText]
  | c :: v, h => by
    have hc := h c List.mem_cons_self
    rw [List.cons_append, readText, if_neg hc.1, if_neg (by simp [hc]), readText_append t (fun d hd => h d (List.mem_cons_of_mem _ hd))]
    rfl

theorem name_not_blank {c : Nat} (h : isNameChar c = true) : isBlank c = false := by
  unfold isBlank
  rw [Bool.or_eq_false_iff]
  constructor <;> rw [beq_eq_false_iff_ne] <;> rintro rfl <;> exact absurd h (by decide)

theorem dropWhile_name {n : Str} (hh : Head n) (hn : ∀ c ∈ n, isNameChar c = true) (t : Str) : (n ++ t).dropWhile isBlank = n ++ t := by
  obtain ⟨c, s, rfl, _⟩ := hh
  rw [List.cons_append, List.dropWhile_cons, name_not_blank (hn c List.mem_cons_self)]
  rfl

theorem readEntry_append {e : Str × Str} (hh : Head e.1) (he : PlainEntry e) (b : Str) (hb : ∀ c ∈ b, isBlank c = true) (t : Str) :
    readEntry (b ++ (entryLine e ++ t)) = some (e, t) := by
  have e1 : entryLine e ++ t = txt "    " ++ (e.1 ++ 58 :: 32 :: 34 :: (e.2 ++ 34 :: t)) := by
    show (txt "    " ++ e.1 ++ [58, 32, 34] ++ e.2 ++ [34]) ++ t = _
    simp
  unfold readEntry
  rw [e1, List.dropWhile_append_of_pos hb, List.dropWhile_append_of_pos (by decide), dropWhile_name hh he.1,
    readName_append hh he.1 (by decide)]
  simp only [bind, Option.bind, List.dropWhile_cons, show isBlank 32 = true from rfl, show isBlank 34 = false from rfl, if_true,
    Bool.false_eq_true, if_false, readText_append t he.2]

/-- The head of an entry is not a brace. -/
theorem entry_head {e : Str × Str} (hh : Head e.1) (he : PlainEntry e) (b : Str) (hb : ∀ c ∈ b, isBlank c = true) (t : Str) :
    ∃ c s, (b ++ (entryLine e ++ t)).dropWhile isBlank = c :: s ∧ isNameChar c = true := by
  have e1 : entryLine e ++ t = txt "    " ++ (e.1 ++ (txt ": \"" ++ e.2 ++ txt "\"" ++ t)) := by
    unfold entryLine
    simp
  rw [e1, List.dropWhile_append_of_pos hb, List.dropWhile_append_of_pos (by decide), dropWhile_name hh he.1]
  obtain ⟨c, s, e2, _⟩ := hh
  refine ⟨c, _, by rw [e2]; rfl, he.1 c (by rw [e2]; simp)⟩

theorem readEntries_step {n : Nat} {e : Str × Str} (hh : Head e.1) (he : PlainEntry e) (t : Str) :
    readEntries (n + 1) (10 :: (entryLine e ++ t)) =
      match t.dropWhile isBlank with
      | 125 :: s => some ([e], s)
      | 44 :: s => (readEntries n s).map (fun p => (e :: p.1, p.2))
      | _ => none := by
  have h1 := readEntry_append hh he [10] (by decide) t
  obtain ⟨c, s, h2, h3⟩ := entry_head hh he [10] (by decide) t
  have hc : c ≠ 125 := by rintro rfl; exact absurd h3 (by decide)
  rw [List.singleton_append] at h1 h2
  rw [readEntries, h2, h1]
  split
  · next hx => cases hx; exact absurd rfl hc
  · simp only [bind, Option.bind]
    generalize t.dropWhile isBlank = u
    split
    · rfl
    · next s' =>
      show _ = (readEntries n s').map (fun p => (e :: p.1, p.2))
      cases readEntries n s' <;> rfl
    · next h4 h5 =>
      split
      · next hx => exact absurd rfl (h4 _)
      · next hx => exact absurd rfl (h5 _)
      · rfl

/-- The entries between the braces are read back. -/
theorem readEntries_append (t : Str) : ∀ {es : List (Str × Str)} {n : Nat}, (∀ e ∈ es, Head e.1 ∧ PlainEntry e) → es.length < n →
    readEntries n (10 :: ((txt ",\n").intercalate (es.map entryLine) ++ 10 :: 125 :: t)) = some (es, t)
  | [], n + 1, _, _ => by
    simp [readEntries, isBlank]
  | [e], n + 1, h, _ => by
    have he := h e (by simp)
    have : (txt ",\n").intercalate ([e].map entryLine) = entryLine e := by simp
    rw [this, readEntries_step he.1 he.2]
    simp [isBlank]
  | e :: f :: es, n + 1, h, hn => by
    have he := h e (by simp)
    have e1 : (txt ",\n").intercalate ((e :: f :: es).map entryLine) = entryLine e ++ (44 :: 10 :: (txt ",\n").intercalate ((f :: es).map entryLine)) := by
      rw [List.map_cons, List.map_cons, List.intercalate_cons_cons]
      show entryLine e ++ [44, 10] ++ _ = _
      simp
    rw [e1, List.append_assoc, readEntries_step he.1 he.2]
    have ih := readEntries_append t (es := f :: es) (n := n) (fun x hx => h x (List.mem_cons_of_mem _ hx)) (by simp at hn ⊢; omega)
    show Option.map _ (readEntries n (10 :: ((txt ",\n").intercalate ((f :: es).map entryLine) ++ 10 :: 125 :: t))) = _
    rw [ih]
    rfl

/-- The text of an assignment. -/
def assignment (d : Str × List (Str × Str)) : Str :=
  d.1 ++ txt " = {\n" ++ (txt ",\n").intercalate (d.2.map entryLine) ++ txt "\n}\n\n"

/-- What an assignment must be like. -/
def GoodDict (d : Str × List (Str × Str)) : Prop :=
  Head d.1 ∧ (∀ c ∈ d.1, isNameChar c = true) ∧ ∀ e ∈ d.2, Head e.1 ∧ PlainEntry e

theorem intercalate_length : ∀ es : List (Str × Str), es.length ≤ ((txt ",\n").intercalate (es.map entryLine)).length
  | [] => Nat.zero_le _
  | [e] => by simp [entryLine, txt]
  | e :: f :: es => by
    have := intercalate_length (f :: es)
    rw [List.map_cons, List.map_cons, List.intercalate_cons_cons]
    simp only [List.length_append, List.length_cons, List.map_cons] at this ⊢
    have h2 : (txt ",\n").length = 2 := rfl
    omega

theorem readAssignments_step {d : Str × List (Str × Str)} (hd : GoodDict d) (b : Str) (hb : ∀ c ∈ b, isBlank c = true) (n : Nat) (t : Str) :
    readAssignments (n + 1) (b ++ (assignment d ++ t)) = (readAssignments n (10 :: 10 :: t)).map (d :: ·) := by
  obtain ⟨h1, h2, h3⟩ := hd
  have e1 : assignment d ++ t = d.1 ++ 32 :: 61 :: 32 :: 123 :: 10 :: ((txt ",\n").intercalate (d.2.map entryLine) ++ 10 :: 125 :: 10 :: 10 :: t) := by
    show (d.1 ++ [32, 61, 32, 123, 10] ++ _ ++ [10, 125, 10, 10]) ++ t = _
    simp
  have h4 := readName_append h1 h2 (d := 32) (by decide)
    (61 :: 32 :: 123 :: 10 :: ((txt ",\n").intercalate (d.2.map entryLine) ++ 10 :: 125 :: 10 :: 10 :: t))
  have h5 : ∀ u : Str, (b ++ (d.1 ++ u)).dropWhile isBlank = d.1 ++ u := by
    intro u
    rw [List.dropWhile_append_of_pos hb, dropWhile_name h1 h2]
  have h6 := readEntries_append (10 :: 10 :: t) (es := d.2)
    (n := (10 :: ((txt ",\n").intercalate (d.2.map entryLine) ++ 10 :: 125 :: 10 :: 10 :: t)).length) h3
    (by have := intercalate_length d.2; simp only [List.length_cons, List.length_append]; omega)
  rw [e1, readAssignments, h5]
  split
  · next hx =>
    obtain ⟨c, s, e2, _⟩ := h1
    rw [e2] at hx
    cases hx
  · rw [h4]
    simp only [bind, Option.bind, List.dropWhile_cons, show isBlank 32 = true from rfl, show isBlank 61 = false from rfl,
      show isBlank 123 = false from rfl, if_true, Bool.false_eq_true, if_false, h6]
    cases readAssignments n (10 :: 10 :: t) <;> rfl

theorem readAssignments_all : ∀ {ds : List (Str × List (Str × Str))} {b : Str} {n : Nat}, (∀ d ∈ ds, GoodDict d) →
    (∀ c ∈ b, isBlank c = true) → ds.length < n → readAssignments n (b ++ (ds.map assignment).flatten) = some ds
  | [], b, n + 1, _, hb, _ => by
    have : (b ++ ([] : List Str).flatten).dropWhile isBlank = [] := by
      rw [List.dropWhile_append_of_pos hb]; rfl
    rw [readAssignments, List.map_nil, this]
  | d :: ds, b, n + 1, h, hb, hn => by
    rw [List.map_cons, List.flatten_cons, readAssignments_step (h d List.mem_cons_self) b hb]
    have := readAssignments_all (ds := ds) (b := [10, 10]) (n := n) (fun x hx => h x (List.mem_cons_of_mem _ hx)) (by decide)
      (by simpa using hn)
    rw [show (10 :: 10 :: (ds.map assignment).flatten) = [10, 10] ++ (ds.map assignment).flatten from rfl, this]
    rfl

/-- A text of assignments is read back. -/
theorem readDictionaries_all {ds : List (Str × List (Str × Str))} (h : ∀ d ∈ ds, GoodDict d) :
    readDictionaries (ds.map assignment).flatten = some ds := by
  have hl : ∀ ds : List (Str × List (Str × Str)), ds.length ≤ (ds.map assignment).flatten.length := by
    intro ds
    induction ds with
    | nil => exact Nat.zero_le _
    | cons d ds ih =>
      simp only [List.map_cons, List.flatten_cons, List.length_append, List.length_cons]
      have : 1 ≤ (assignment d).length := by
        unfold assignment
        simp only [List.length_append]
        have : (txt "\n}\n\n").length = 4 := rfl
        omega
      omega
  have := readAssignments_all (b := []) (n := (ds.map assignment).flatten.length + 1) h (by simp) (by have := hl ds; omega)
  simpa [readDictionaries] using this

/-! ## The generated module -/

theorem dictionaries_assignment (upper lower : Str → Str) (rows : List (List Str)) :
    (dictionaries upper lower rows).map Spec.dictionaryText = (entriesOf upper lower rows).map assignment := by
  unfold dictionaries entriesOf
  rw [List.map_map, List.map_map]
  apply List.map_congr_left
  intro type _
  have h : rows.filterMap (rowLine upper lower type) = (rows.filterMap (rowEntry upper lower type)).map entryLine := by
    rw [List.map_filterMap]
    congr 1
    funext row
    exact rowLine_entry upper lower type row
  simp only [Function.comp, Spec.dictionaryText, assignment, h]

theorem name_head {type : Str} (h : type ∈ prefixes.map (·.1)) :
    Head (dictionaryName type) ∧ ∀ c ∈ dictionaryName type, isNameChar c = true := by
  have : ∀ p ∈ prefixes, (∃ c ∈ (dictionaryName p.1).head?, ¬ (48 ≤ c ∧ c ≤ 57)) ∧ ∀ c ∈ dictionaryName p.1, isNameChar c = true := by
    decide +kernel
  obtain ⟨p, hp, rfl⟩ := List.mem_map.1 h
  obtain ⟨⟨c, h1, h2⟩, h3⟩ := this p hp
  refine ⟨?_, h3⟩
  cases hn : dictionaryName p.1 with
  | nil => rw [hn] at h1; cases h1
  | cons d s => rw [hn] at h1; cases h1; exact ⟨_, _, rfl, h2⟩

theorem pre_head : ∀ p ∈ prefixes, ∃ s, p.2.pre = 85 :: s := by
  have : ∀ p ∈ prefixes, p.2.pre.head? = some 85 := by decide +kernel
  intro p hp
  have := this p hp
  cases h : p.2.pre with
  | nil => rw [h] at this; cases this
  | cons c s => rw [h] at this; cases this; exact ⟨s, rfl⟩

theorem entry_good {upper lower : Str → Str} {type : Str} {row : List Str} {e : Str × Str} (h : rowEntry upper lower type row = some e) :
    Head e.1 := by
  unfold rowEntry at h
  split at h
  · split at h
    · split at h
      · cases h
      · next t ht =>
        obtain ⟨s, hs⟩ := pre_head _ (List.mem_of_find?_eq_some ht)
        obtain ⟨k, _, rfl⟩ := Option.map_eq_some_iff.1 h
        exact ⟨85, s ++ txt "_" ++ k, by rw [show t.pre = 85 :: s from hs]; simp, by decide⟩
    · cases h
  · cases h

theorem known_mem {row : List Str} {type : Str} (e : knownType row = some type) : type ∈ prefixes.map (·.1) := by
  unfold knownType at e
  split at e
  · split at e
    · cases e; rename_i h; exact h.2
    · cases e
  · cases e

/-- C126. The module of type dictionaries, read as Python behind its header, has for each known type of the rows, in the order of first
occurrence, the dictionary of that type with one entry for each value row: its constant and its short name. Missing: rows with constants that
are no names or texts that would need escapes. -/
theorem module_partial (upper lower : Str → Str) (rows : List (List Str)) (header : List Str) (h : ∀ row ∈ rows, ¬ Short row)
    (hp : ∀ d ∈ entriesOf upper lower rows, ∀ e ∈ d.2, PlainEntry e) :
    ∃ body, (generateDictionaries upper lower rows >>= fileText header) = .ok ((header.map (· ++ txt "\n")).flatten ++ body) ∧
      readDictionaries body = some (entriesOf upper lower rows) := by
  refine ⟨_, fileText_ok upper lower rows header h, ?_⟩
  rw [dictionaries_assignment]
  apply readDictionaries_all
  intro d hd
  have hd' := hd
  unfold entriesOf at hd'
  obtain ⟨type, hm, rfl⟩ := List.mem_map.1 hd'
  obtain ⟨r, _, e⟩ := List.mem_filterMap.1 (mem_firsts.1 hm)
  obtain ⟨h1, h2⟩ := name_head (known_mem e)
  refine ⟨h1, h2, fun x hx => ⟨?_, hp _ hd x hx⟩⟩
  obtain ⟨row, _, hrow⟩ := List.mem_filterMap.1 hx
  exact entry_good hrow

open Verif.Csv.Spec in
/-- C126, from the text of the property file to the text of the module. -/
theorem module_of_file (upper lower : Str → Str) {ls : List (List Field × Str)} (he : ∀ l ∈ ls, IsEnd l.2)
    (hf : ∀ l ∈ ls, ∀ x ∈ l.1, x.Ok) (header : List Str) (h : ∀ l ∈ ls, ¬ Short (fieldsRow l.1))
    (hp : ∀ d ∈ entriesOf upper lower (ls.map fun l => fieldsRow l.1), ∀ e ∈ d.2, PlainEntry e) :
    ∃ rows body, Csv.rows (linesText ls) = some rows ∧
      (generateDictionaries upper lower rows >>= fileText header) = .ok ((header.map (· ++ txt "\n")).flatten ++ body) ∧
      readDictionaries body = some (entriesOf upper lower (ls.map fun l => fieldsRow l.1)) := by
  have hr : ∀ row ∈ ls.map (fun l => fieldsRow l.1), ¬ Short row := by
    intro row hrow
    obtain ⟨l, hl, rfl⟩ := List.mem_map.1 hrow
    exact h l hl
  obtain ⟨body, h1, h2⟩ := module_partial upper lower _ header hr hp
  refine ⟨_, body, ?_, h1, h2⟩
  have := Csv.Props.rows_quoted he hf (last := []) (by simp)
  simpa [fieldsText, lineText] using this

/-- Rows of two types, with an unmapped value and a replaced constant. -/
def demoRows : List (List Str) := [[txt "ucd", txt "13.0.0"], [], [txt "value", txt "gc", txt "Lu", txt "Uppercase_Letter"],
  [txt "value", txt "sc", txt "Zsym", txt "Zsym"], [txt "value", txt "gc", txt "C", txt "Other"],
  [txt "value", txt "gc", txt "Cc", txt "Control", txt "cntrl"], [txt "value", txt "blk", txt "Latin_1", txt "LATIN_1_SUPPLEMENT"]]

example : (∀ row ∈ demoRows, ¬ Short row) ∧ (∀ d ∈ entriesOf id id demoRows, ∀ e ∈ d.2, PlainEntry e) ∧
    entriesOf id id demoRows = [
      (txt "generalCategoryNames", [(txt "U_Uppercase_Letter", txt "Lu"), (txt "U_CONTROL_CHAR", txt "Cc")]),
      (txt "scriptNames", [(txt "USCRIPT_SYMBOLS", txt "Zsym")]),
      (txt "blockNames", [(txt "UBLOCK_LATIN_1_SUPPLEMENT", txt "Latin 1")])] := by
  refine ⟨by unfold Short; decide +kernel, by unfold PlainEntry; decide +kernel, by decide +kernel⟩

open Verif.Csv.Spec in
example : (∀ x ∈ [Field.plain (txt "value"), .plain (txt "gc"), .quoted (txt "Lu"), .plain (txt "Uppercase_Letter")], x.Ok) ∧
    linesText [([.plain (txt "value"), .plain (txt "gc"), .quoted (txt "Lu"), .plain (txt "Uppercase_Letter")], txt "\n"), ([], txt "\r\n")] =
      txt "value;gc;\"Lu\";Uppercase_Letter\n\r\n" := by
  refine ⟨?_, by decide⟩
  intro x hx
  simp only [List.mem_cons, List.not_mem_nil, or_false] at hx
  rcases hx with rfl | rfl | rfl | rfl
  · exact ⟨by decide, by decide⟩
  · exact ⟨by decide, by decide⟩
  · trivial
  · exact ⟨by decide, by decide⟩

/-- C126 is violated by short names with quotation marks: here one row makes two entries. -/
theorem module_refuted :
    (generateDictionaries id id [[txt "value", txt "gc", txt "x\", UY: \"y", txt "Z"]] >>= fileText []) =
      .ok (txt "generalCategoryNames = {\n    U_Z: \"x\", UY: \"y\"\n}\n\n") ∧
    readDictionaries (txt "generalCategoryNames = {\n    U_Z: \"x\", UY: \"y\"\n}\n\n") =
      some [(txt "generalCategoryNames", [(txt "U_Z", txt "x"), (txt "UY", txt "y")])] := by
  refine ⟨by decide +kernel, by decide +kernel⟩

end Verif.UCDReader.Props

import Verif.Props.Build
import Verif.Props.BuilderArgs
import Verif.Props.HeaderTranslate
import Verif.Props.ModuleText
/-! # The module made from a header (C117), and the command line of `build` (C115) -/
namespace Verif.Header.Props
open Verif.Header.Spec

/-- A line that opens the include guard of the header with the given name: `#ifndef`, spaces, and the name with or without two
underscores before and behind it, up to the end of the line. -/
def GuardLine (name line : Str) : Prop :=
  ∃ pre sp a b sp', line = pre ++ txt "#ifndef" ++ sp ++ a ++ name ++ b ++ sp' ∧ sp ≠ [] ∧ Spaces sp ∧ Spaces sp' ∧
    (a = [] ∨ a = txt "__") ∧ (b = [] ∨ b = txt "__")

theorem strip_middle {sp x sp' : Str} (hs : Spaces sp) (hs' : Spaces sp') (hx : x ≠ []) (h1 : isSpace (x.head hx) = false)
    (h2 : isSpace (x.getLast hx) = false) : strip (sp ++ x ++ sp') = x := by
  unfold strip
  have e1 : (sp ++ x ++ sp').dropWhile isSpace = x ++ sp' := by
    rw [List.append_assoc, List.dropWhile_append_of_pos hs]
    cases x with
    | nil => exact absurd rfl hx
    | cons c x =>
      rw [List.cons_append, List.dropWhile_cons_of_neg]
      rw [List.head_cons] at h1
      simp [h1]
  rw [e1, List.reverse_append, List.dropWhile_append_of_pos (by intro c hc; exact hs' c (List.mem_reverse.1 hc))]
  have : x.reverse.dropWhile isSpace = x.reverse := by
    have hr : x.reverse ≠ [] := by simpa using hx
    cases e : x.reverse with
    | nil => exact absurd e hr
    | cons c t =>
      rw [List.dropWhile_cons_of_neg]
      have : x.getLast hx = c := by
        have := List.head_reverse hr
        simp only [e, List.head_cons] at this
        exact this.symm
      rw [this] at h2
      simp [h2]
  rw [this, List.reverse_reverse]

theorem strip_split (t : Str) : ∃ sp sp', t = sp ++ strip t ++ sp' ∧ Spaces sp ∧ Spaces sp' := by
  refine ⟨t.takeWhile isSpace, ((t.dropWhile isSpace).reverse.takeWhile isSpace).reverse, ?_, ?_, ?_⟩
  · unfold strip
    rw [List.append_assoc, ← List.reverse_append, List.takeWhile_append_dropWhile, List.reverse_reverse, List.takeWhile_append_dropWhile]
  · intro c hc
    exact List.all_eq_true.1 (List.all_takeWhile (p := isSpace) (l := t)) c hc
  · intro c hc
    exact List.all_eq_true.1 (List.all_takeWhile (p := isSpace)) c (List.mem_reverse.1 hc)

/-- C117. `guardMatch` accepts exactly the lines that open the include guard of the header. -/
theorem guardMatch_iff {name : Str} (hn : Name name) (line : Str) : guardMatch name line = true ↔ GuardLine name line := by
  have inner : ∀ x : Str, ([name, txt "__" ++ name, name ++ txt "__", txt "__" ++ name ++ txt "__"].contains x) = true ↔
      ∃ a b, x = a ++ name ++ b ∧ (a = [] ∨ a = txt "__") ∧ (b = [] ∨ b = txt "__") := by
    intro x
    rw [List.contains_iff_mem]
    simp only [List.mem_cons, List.not_mem_nil, or_false]
    constructor
    · rintro (rfl | rfl | rfl | rfl)
      · exact ⟨[], [], by simp, .inl rfl, .inl rfl⟩
      · exact ⟨txt "__", [], by simp, .inr rfl, .inl rfl⟩
      · exact ⟨[], txt "__", by simp, .inl rfl, .inr rfl⟩
      · exact ⟨txt "__", txt "__", by simp, .inr rfl, .inr rfl⟩
    · rintro ⟨a, b, rfl, rfl | rfl, rfl | rfl⟩ <;> simp
  have ends : ∀ a b : Str, (a = [] ∨ a = txt "__") → (b = [] ∨ b = txt "__") → ∀ c ∈ a ++ name ++ b, isSpace c = false := by
    intro a b ha hb c hc
    have us : ∀ c ∈ txt "__", isSpace c = false := by decide
    simp only [List.mem_append] at hc
    rcases hc with (hc | hc) | hc
    · rcases ha with rfl | rfl
      · cases hc
      · exact us c hc
    · exact word_not_space (by rw [← wordChar_eq]; exact hn.2 c hc)
    · rcases hb with rfl | rfl
      · cases hc
      · exact us c hc
  have here : ∀ s : Str, (if startsWith (txt "#ifndef") s then
      ((s.drop 7).head?.any isSpace) && ([name, txt "__" ++ name, name ++ txt "__", txt "__" ++ name ++ txt "__"].contains (strip (s.drop 7)))
      else false) = true ↔ ∃ sp a b sp', s = txt "#ifndef" ++ sp ++ a ++ name ++ b ++ sp' ∧ sp ≠ [] ∧ Spaces sp ∧ Spaces sp' ∧
        (a = [] ∨ a = txt "__") ∧ (b = [] ∨ b = txt "__") := by
    intro s
    constructor
    · intro h
      split at h
      · next h0 =>
        rw [Bool.and_eq_true, inner] at h
        obtain ⟨h1, a, b, e, ha, hb⟩ := h
        obtain ⟨u, hu⟩ := List.isPrefixOf_iff_prefix.1 h0
        have hd : s.drop 7 = u := by rw [← hu]; rfl
        rw [hd] at h1 e
        obtain ⟨sp, sp', e1, hs, hs'⟩ := strip_split u
        rw [e] at e1
        refine ⟨sp, a, b, sp', by rw [← hu, e1]; simp, ?_, hs, hs', ha, hb⟩
        rintro rfl
        rw [List.nil_append] at e1
        cases hx : a ++ name ++ b with
        | nil =>
          have := hn.1
          simp at hx
          exact this hx.2.1
        | cons c t =>
          rw [e1, hx] at h1
          have := ends a b ha hb c (by rw [hx]; simp)
          simp [this] at h1
      · cases h
    · rintro ⟨sp, a, b, sp', rfl, hne, hs, hs', ha, hb⟩
      have hp : startsWith (txt "#ifndef") (txt "#ifndef" ++ sp ++ a ++ name ++ b ++ sp') = true := by
        rw [startsWith, List.isPrefixOf_iff_prefix]
        exact ⟨sp ++ a ++ name ++ b ++ sp', by simp⟩
      have hd : (txt "#ifndef" ++ sp ++ a ++ name ++ b ++ sp').drop 7 = sp ++ (a ++ name ++ b) ++ sp' := by
        rw [show txt "#ifndef" ++ sp ++ a ++ name ++ b ++ sp' = txt "#ifndef" ++ (sp ++ (a ++ name ++ b) ++ sp') by simp]
        rfl
      have hx : a ++ name ++ b ≠ [] := by
        have := hn.1
        simp [this]
      rw [if_pos hp, hd, Bool.and_eq_true, inner, strip_middle hs hs' hx (ends a b ha hb _ (List.head_mem hx)) (ends a b ha hb _ (List.getLast_mem hx))]
      refine ⟨?_, a, b, rfl, ha, hb⟩
      cases sp with
      | nil => exact absurd rfl hne
      | cons c sp => simpa using hs c (by simp)
  induction line with
  | nil =>
    refine ⟨fun h => (by cases h), fun ⟨pre, sp, a, b, sp', h, _⟩ => ?_⟩
    have := congrArg List.length h
    have h7 : (txt "#ifndef").length = 7 := rfl
    simp only [List.length_append, List.length_nil] at this
    omega
  | cons c cs ih =>
    rw [guardMatch, Bool.or_eq_true]
    refine (or_congr (here (c :: cs)) ih).trans ?_
    constructor
    · rintro (⟨sp, a, b, sp', h⟩ | ⟨pre, sp, a, b, sp', h, r⟩)
      · exact ⟨[], sp, a, b, sp', h⟩
      · exact ⟨c :: pre, sp, a, b, sp', by rw [h]; simp, r⟩
    · rintro ⟨pre, sp, a, b, sp', h, r⟩
      cases pre with
      | nil => exact .inl ⟨sp, a, b, sp', h, r⟩
      | cons x pre =>
        simp only [List.cons_append, List.cons.injEq] at h
        exact .inr ⟨pre, sp, a, b, sp', h.2, r⟩

end Verif.Header.Props

namespace Verif.Build.Props
open Verif.Build.Spec Verif.Header.Spec

/-- The lines of a text: each but the last ends with a line feed, and has no other; the last may lack it, but is not empty. -/
def LinesOf (source : Str) (ls : List Str) : Prop :=
  ∃ (full : List Str) (last : Str), (∀ l ∈ full, 10 ∉ l) ∧ 10 ∉ last ∧ source = (full.map (· ++ [10])).flatten ++ last ∧
    ls = full.map (· ++ [10]) ++ if last = [] then [] else [last]

theorem fileLines_last : ∀ {last : Str}, 10 ∉ last → fileLines last = if last = [] then [] else [last]
  | [], _ => rfl
  | c :: last, h => by
    rw [List.mem_cons, not_or] at h
    unfold fileLines
    rw [if_neg (fun e => h.1 e.symm), fileLines_last h.2]
    by_cases hl : last = []
    · subst hl; rfl
    · rw [if_neg hl]; rfl

theorem fileLines_line : ∀ {l : Str}, 10 ∉ l → ∀ t, fileLines (l ++ [10] ++ t) = (l ++ [10]) :: fileLines t
  | [], _, t => by
    show fileLines (10 :: t) = _
    conv => lhs; unfold fileLines
    rw [if_pos rfl]
    rfl
  | c :: l, h, t => by
    rw [List.mem_cons, not_or] at h
    show fileLines (c :: (l ++ [10] ++ t)) = _
    conv => lhs; unfold fileLines
    rw [if_neg (fun e => h.1 e.symm), fileLines_line h.2]
    rfl

theorem fileLines_of {source : Str} {ls : List Str} (h : LinesOf source ls) : fileLines source = ls := by
  obtain ⟨full, last, h1, h2, rfl, rfl⟩ := h
  induction full with
  | nil => exact fileLines_last h2
  | cons l full ih =>
    rw [List.map_cons, List.flatten_cons, List.append_assoc, fileLines_line (h1 l List.mem_cons_self),
      ih (fun x hx => h1 x (List.mem_cons_of_mem _ hx))]
    rfl

/-- C117. The module made from the header `stem.h`: a docstring with the names and the date, the extra code, and then the lines
for the constants and enumerators of the header (C77). Lines that open the include guard of the header do not hide it. -/
theorem headerModule_text_partial {w : World} (hw : AsciiCase w) (hdec : ∀ env n, w.eval env (decimal n) = .ok n) {stem : Str}
    (hs : ∀ c ∈ stem, (97 ≤ c ∧ c ≤ 122) ∨ (48 ≤ c ∧ c ≤ 57)) {guard : Str → Bool}
    (hg : ∀ l, guard l = true ↔ Header.Props.GuardLine (stem.map (fun c => if 97 ≤ c ∧ c ≤ 122 then c - 32 else c) ++ txt "_H") l)
    {source : Str} {ls extraCode ignore ts out : List Str} (hls : LinesOf source ls) (hr : Reads guard ls ts)
    (ht : Translates w.eval ignore (ts.map Header.getTrailingComment) out) :
    headerModule w (stem ++ txt ".h") extraCode ignore source = .ok (join (txt "\n")
      ([txt "\"\"\"/", stem ++ txt "_h.py, based on " ++ stem ++ txt ".h from ICU\n",
        txt "Generated by HeaderToPtyhon.py on " ++ w.today, txt "\"\"\"\n"] ++ extraCode ++ out)) := by
  have hrep : replace 46 (txt "_") (stem ++ txt ".h") = stem ++ txt "_h" := by
    clear hg
    induction stem with
    | nil => decide
    | cons c stem ih =>
      have hc := hs c (by simp)
      rw [List.cons_append, replace, ih (fun x hx => hs x (by simp [hx])), if_neg (by omega)]
      rfl
  have hlow : headerName w (stem ++ txt ".h") = stem ++ txt "_h" := by
    unfold headerName
    rw [hrep, (hw _ ?_).1]
    · rw [List.map_append]
      congr 1
      conv => rhs; rw [← List.map_id stem]
      refine List.map_congr_left (fun c hc => ?_)
      have := hs c hc
      rw [if_neg (by omega)]; rfl
    · intro c hc
      rcases List.mem_append.1 hc with hc' | hc'
      · have := hs c hc'; omega
      · clear hc; revert c; decide
  have hup : w.upper (stem ++ txt "_h") = stem.map (fun c => if 97 ≤ c ∧ c ≤ 122 then c - 32 else c) ++ txt "_H" := by
    rw [(hw _ ?_).2, List.map_append]
    · rfl
    · intro c hc
      rcases List.mem_append.1 hc with hc' | hc'
      · have := hs c hc'; omega
      · clear hc; revert c; decide
  have hgm : guard = Header.guardMatch (stem.map (fun c => if 97 ≤ c ∧ c ≤ 122 then c - 32 else c) ++ txt "_H") := by
    funext l
    rw [Bool.eq_iff_iff, hg, Header.Props.guardMatch_iff]
    refine ⟨by simp [txt], fun x hx => ?_⟩
    rw [Header.Props.wordChar_eq]
    unfold Header.isWord
    rcases List.mem_append.1 hx with hx | hx
    · obtain ⟨c, hc, rfl⟩ := List.mem_map.1 hx
      have := hs c hc
      split <;> simp <;> omega
    · rename_i hx0
      clear hx0; revert x; decide
  unfold headerModule headerLines
  rw [fileLines_of hls, hlow, hup, ← hgm, Header.Props.translate_header_partial hdec _ _ _ _ _ hr ht]
  have e1 : stem ++ txt "_h" ++ txt ".py, based on " = stem ++ txt "_h.py, based on " := by
    rw [List.append_assoc]; rfl
  have e2 : stem ++ txt "_h.py, based on " ++ (stem ++ txt ".h") ++ txt " from ICU\n" = stem ++ txt "_h.py, based on " ++ stem ++ txt ".h from ICU\n" := by
    simp only [List.append_assoc]; rfl
  rw [e1, e2]
  rfl

/-- The hypotheses are met by a header with an include guard. -/
example : headerModule demoWorld (txt "uprops.h") [] [] (txt "#ifndef UPROPS_H\n#define U_MAX 7 // last\n#endif\n") =
    .ok (txt "\"\"\"/\nuprops_h.py, based on uprops.h from ICU\n\nGenerated by HeaderToPtyhon.py on June 1, 2021\n\"\"\"\n\nU_MAX = 7  # last") := by
  have := headerModule_text_partial demoWorld_ascii (fun _ n => Header.Props.pyInt_decimal n) (stem := txt "uprops") (by decide)
    (guard := Header.guardMatch (txt "UPROPS_H"))
    (fun l => Header.Props.guardMatch_iff ⟨by decide, by decide⟩ l)
    (source := txt "#ifndef UPROPS_H\n#define U_MAX 7 // last\n#endif\n") (extraCode := []) (ignore := [])
    (ls := [txt "#ifndef UPROPS_H\n", txt "#define U_MAX 7 // last\n", txt "#endif\n"])
    (ts := [txt "#define U_MAX 7 // last"]) (out := [txt "U_MAX = 7  # last"]) ?_ ?_ ?_
  · rw [show txt "uprops.h" = txt "uprops" ++ txt ".h" from rfl, this]
    decide +kernel
  · exact ⟨[txt "#ifndef UPROPS_H", txt "#define U_MAX 7 // last", txt "#endif"], [], by decide, by decide, by decide, by decide⟩
  · refine .guard (by decide +kernel) (by decide +kernel) (.code (l := txt "#define U_MAX 7 // last\n") ?_ (by decide +kernel) (.endif (by decide +kernel) .nil))
    constructor <;> decide +kernel
  · rw [show [txt "#define U_MAX 7 // last"].map Header.getTrailingComment = [(txt "#define U_MAX 7", txt "last")] by decide +kernel]
    exact .value (n := txt "U_MAX") (sp := txt " ") (v := txt "7") (c := txt "last") (by unfold Name; decide) (by unfold Spaces; decide) (by decide)
      ⟨55, _, rfl, by decide⟩ (by decide) (by decide) .nil

/-! ## The command line -/

/-- C115. Without the three options, or with anything else (C58), nothing is written and the exit status is 1. -/
theorem buildMain_refused (w : World) (okExtra : Str → Bool) (program : Str) (args : List Str) (d : Disk)
    (h : ¬ ∃ s b o, BuilderArgs.Props.Complete okExtra args s b o) : buildMain w okExtra (program :: args) d = ([], .error .exit) := by
  unfold buildMain
  have hf := BuilderArgs.Props.forArguments_error okExtra args h
  rw [List.drop_succ_cons, List.drop_zero]
  cases args with
  | nil => rfl
  | cons a args => simp only [hf]

/-- C115. With the three options, `build` runs on the three directories. -/
theorem buildMain_runs (w : World) (okExtra : Str → Bool) (program : Str) (args : List Str) {s b o : Str}
    (h : BuilderArgs.Props.Complete okExtra args s b o) :
    buildMain w okExtra (program :: args) = build w (w.path s) (w.path b) (w.path o) := by
  unfold buildMain
  have hf := (BuilderArgs.Props.forArguments_ok okExtra args ⟨s, b, o⟩).2 h
  rw [List.drop_succ_cons, List.drop_zero]
  cases args with
  | nil => exact absurd hf (by rintro ⟨⟩)
  | cons a args => simp only [hf]

/-- Arguments of both kinds. -/
example : ¬ ∃ s b o, BuilderArgs.Props.Complete (fun _ => true) [txt "--sourceDir", txt "icu/source"] s b o := by
  rintro ⟨s, b, o, h⟩
  have := (BuilderArgs.Props.forArguments_ok (fun _ => true) _ ⟨s, b, o⟩).2 h
  rw [show BuilderArgs.forArguments (fun _ => true) [txt "--sourceDir", txt "icu/source"] = .error .valueError by decide +kernel] at this
  cases this

example : BuilderArgs.Props.Complete (fun _ => true)
    [txt "--outputDir", txt "out", txt "--sourceDir", txt "icu/source", txt "--buildDir", txt "b"] (txt "icu/source") (txt "b") (txt "out") :=
  (BuilderArgs.Props.forArguments_ok (fun _ => true) _ ⟨txt "icu/source", txt "b", txt "out"⟩).1 (by decide +kernel)

end Verif.Build.Props

import Verif.Lemmas.ModuleText
/-!
# The generated data modules (C84–C87)
-/
namespace Verif.ModuleText.Props
open Verif.ModuleText Verif.Spec

/-- A pattern that starts with a literal does not match where the literal is not. -/
theorem none_before {β : Type} {p source pre rest : Str} {m : Str → Option β} (hm : ∀ s, (∀ t, s ≠ p ++ t) → m s = none)
    (h : FirstIn p source pre rest) {b : β} (hb : m (p ++ rest) = some b) : findFirst m source = .ok b := by
  obtain ⟨hs, hn⟩ := h
  subst hs
  unfold findFirst
  rw [List.append_assoc, search_first (b := b) (fun n hl => ?_) hb]
  apply hm
  intro t ht
  apply hn n hl
  rw [List.append_assoc, ht]
  exact List.prefix_append _ _

theorem txt_nl : txt "\n};" = [10, 125, 59] ∧ txt ",\n" = [44, 10] ∧ txt "={\n" = [61, 123, 10] ∧ txt "{\n" = [123, 10] ∧ txt "[" = [91] ∧
    txt "]={" = [93, 61, 123] ∧ txt "};" = [125, 59] ∧ txt "=" = [61] ∧ txt ";" = [59] ∧ txt "}" = [125] := by decide

theorem two_lits_none {β : Type} {p q s : Str} {k : Str → Option β} (h : ∀ t, s ≠ p ++ q ++ t) :
    (lit p s >>= fun s => lit q s >>= k) = none := by
  cases h1 : lit p s with
  | none => rfl
  | some t =>
    cases h2 : lit q t with
    | none => simp [h2]
    | some t' =>
      rw [lit_some] at h1 h2
      subst h2
      exact absurd (by rw [h1, List.append_assoc]) (h t')

theorem getArray {b : Builder} {name body : Str} (h : DefinesArray b.source name body) : getArrayDeclaration b name = .ok body := by
  obtain ⟨pre, dims, post, hf, hd, hd', hb, hb'⟩ := h
  unfold getArrayDeclaration
  refine none_before (m := arrayAt name) (fun s hs => two_lits_none hs) hf ?_
  have e1 : lit name (name ++ txt "[" ++ (dims ++ txt "]={" ++ body ++ txt "};" ++ post)) =
      some (txt "[" ++ (dims ++ txt "]={" ++ body ++ txt "};" ++ post)) := by rw [List.append_assoc]; exact lit_append _ _
  have e2 : lazyPlus (lit (txt "};")) (body ++ (txt "};" ++ post)) = some (body, post) := by
    refine lazyPlus_first hb (fun n _ hn => ?_) (lit_append _ _)
    rw [txt_nl.2.2.2.2.2.2.1]
    exact lit_inside hb' hn
  have e3 : lazyPlus (fun s => do
      let s ← lit (txt "]={") s
      lazyPlus (lit (txt "};")) s) (dims ++ (txt "]={" ++ (body ++ (txt "};" ++ post)))) = some (dims, (body, post)) := by
    refine lazyPlus_first hd (fun n _ hn => ?_) ?_
    · rw [txt_nl.2.2.2.2.2.1, lit_inside hd' hn]; rfl
    · rw [lit_append]; exact e2
  unfold arrayAt
  rw [e1]
  simp only [Option.bind_eq_bind, Option.bind_some]
  rw [lit_append]
  simp only [Option.bind_some]
  simp only [List.append_assoc] at e3 ⊢
  simp only [Option.bind_eq_bind] at e3
  rw [e3]
  rfl

/-- C84. For an array the C source defines, `arrayToPython` adds the line `name = [inner]`, where `inner` has the same words as
the initialiser: the elements and commas are unchanged, only white space may differ. Missing: sources where the name occurs before
the definition and other layouts, see `array_refuted`. -/
theorem array_partial {b : Builder} {name body : Str} (h : DefinesArray b.source name body) :
    ∃ inner, words inner = words body ∧
      arrayToPython b name = .ok { b with outputLines := b.outputLines ++ [name ++ txt " = [" ++ inner ++ txt "]\n"] } :=
  ⟨formatArray body, words_formatArray body, by
    unfold arrayToPython
    rw [getArray h]
    rfl⟩

/-- A source with two arrays. -/
example : DefinesArray (txt "static const int b_x[1]={0};\nstatic const int a[2]={\n1,\n2\n};\n") (txt "a") (txt "\n1,\n2\n") :=
  ⟨txt "static const int b_x[1]={0};\nstatic const int ", txt "2", txt "\n",
    ⟨by decide +kernel, fun n hn => by
      have hl : (txt "static const int b_x[1]={0};\nstatic const int ").length = 46 := by decide +kernel
      rw [hl] at hn
      revert n
      decide +kernel⟩, by decide, by decide, by decide, by decide⟩

/-- The lines added for the source `s` and the array `name`. -/
def lineOf (s name : String) : Py (List Str) := do
  let b ← arrayToPython ⟨txt s, []⟩ (txt name)
  .ok b.outputLines

/-- C84 fails for other sources. An array whose name ends with the name wanted is taken for it; an array without dimension gets
the elements of the next array; a declaration before the definition also leads to the elements of another array; a comment in
the initialiser is copied into the Python list. -/
theorem array_refuted :
    lineOf "int xa[1]={5};\nint a[1]={6};\n" "a" = .ok [txt "a = [5]\n"] ∧
    lineOf "int a[]={1};\nint b[1]={2};\n" "a" = .ok [txt "a = [2]\n"] ∧
    lineOf "extern int a[1];\nint b[1]={2};\nint a[1]={1};\n" "a" = .ok [txt "a = [2]\n"] ∧
    lineOf "int a[2]={1, /* one */ 2};\n" "a" = .ok [txt "a = [1, /* one */ 2]\n"] := by decide +kernel

/-- C84, errors: without any `name[` in the source there is an error, no line. -/
theorem array_missing {b : Builder} {name : Str} (h : ¬ name ++ txt "[" <:+: b.source) : arrayToPython b name = .error .indexError := by
  have hs : ∀ s : Str, (¬ name ++ txt "[" <:+: s) → search (arrayAt name) s = none := by
    intro s
    induction s with
    | nil => intro hs; exact two_lits_none (fun t ht => hs ⟨[], t, ht.symm⟩)
    | cons c s ih =>
      intro hs
      have h1 : arrayAt name (c :: s) = none := two_lits_none (fun t ht => hs ⟨[], t, ht.symm⟩)
      rw [search, h1]
      exact ih (fun hi => hs (hi.trans (List.suffix_cons c s).isInfix))
  unfold arrayToPython getArrayDeclaration findFirst
  rw [hs _ h]
  rfl

example : ¬ txt "a" ++ txt "[" <:+: txt "int b[1]={2};" := by decide +kernel

/-! ## Tries -/

theorem lit_cross {x post : Str} (h : ¬ [10, 125, 59] <:+: x) {n : Nat} (hn : n < x.length) :
    lit [10, 125, 59] ((x ++ ([10, 125, 59] ++ post)).drop n) = none := by
  apply lit_none
  rw [List.drop_append_of_le_length (by omega)]
  intro hp
  have hd : x.drop n ≠ [] := by simp; omega
  match hx : x.drop n with
  | [] => exact hd hx
  | [a] => rw [hx] at hp; simp at hp
  | [a, c] => rw [hx] at hp; simp at hp
  | a :: c :: d :: t =>
    rw [hx] at hp
    simp at hp
    apply h
    exact ⟨x.take n, t, by
      have := List.take_append_drop n x
      rw [hx, ← hp.1, ← hp.2.1, ← hp.2.2] at this
      simpa using this⟩

theorem mem_join {c : Nat} {sep : Str} : ∀ {fs : List Str}, c ∈ join sep fs → c ∈ sep ∨ ∃ f ∈ fs, c ∈ f := by
  intro fs
  induction fs with
  | nil => intro h; simp [join, List.intercalate] at h
  | cons f fs ih =>
    intro h
    cases fs with
    | nil =>
      simp [join, List.intercalate, List.intersperse] at h
      exact Or.inr ⟨f, by simp, h⟩
    | cons g fs =>
      have e : join sep (f :: g :: fs) = f ++ (sep ++ join sep (g :: fs)) := by
        simp [join, List.intercalate, List.intersperse]
      rw [e, List.mem_append, List.mem_append] at h
      rcases h with h | h | h
      · exact Or.inr ⟨f, by simp, h⟩
      · exact Or.inl h
      · rcases ih h with h | ⟨x, hx, h⟩
        · exact Or.inl h
        · exact Or.inr ⟨x, by simp at hx ⊢; exact Or.inr hx, h⟩

theorem join_no_brace {fields : List Str} (h : FieldTexts fields) : 125 ∉ join (txt ",\n") fields := by
  intro hm
  rcases mem_join hm with h1 | ⟨f, hf, h1⟩
  · exact absurd h1 (by decide)
  · exact (h f hf).2 h1

theorem join_ne_nil {fields : List Str} (h : 1 < fields.length) : join (txt ",\n") fields ≠ [] := by
  match fields, h with
  | f :: g :: fs, _ => simp [join, List.intercalate, List.intersperse, txt_nl.2.1]

/-- The lines for a trie. -/
def trieLines (name a b c d e : Str) : List Str :=
  [name ++ txt "_index_length = " ++ strip a, name ++ txt "_index_2_null_offset = " ++ strip b,
    name ++ txt "_data_null_offset = " ++ strip c, name ++ txt "_high_start = " ++ strip d, name ++ txt "_high_value_index = " ++ strip e, []]

theorem trieValues_fields {b : Builder} {fields : List Str} (hf : FieldTexts fields) {pre v3 v5 v6 v9 v10 : Str}
    (h3 : fields[3]? = some v3) (h5 : fields[5]? = some v5) (h6 : fields[6]? = some v6) (h9 : fields[9]? = some v9)
    (h10 : fields[10]? = some v10) :
    trieValues b (join (txt ",\n") fields) pre = .ok { b with outputLines := b.outputLines ++ trieLines pre v3 v5 v6 v9 v10 } := by
  have hne : fields ≠ [] := by intro h; rw [h] at h3; simp at h3
  unfold trieValues
  rw [splitFields_join hne (fun f hf' => by rw [← txt_nl.2.1]; exact (hf f hf').1)]
  simp only [trieFields, trieLoop, h3, h5, h6, h9, h10, bind, Except.bind, Builder.append, trieLines]
  have e : ∀ (s : String) (r : Str), txt "_" ++ (txt s ++ (txt " = " ++ r)) = txt ("_" ++ s ++ " = ") ++ r := by
    intro s r; simp [txt]
  simp only [List.append_assoc, List.cons_append, List.nil_append, e]
  rfl

theorem getProps {b : Builder} {name decl pre post : Str} (hf : FirstIn (name ++ txt "={\n") b.source pre (decl ++ txt "\n};" ++ post))
    (hd : decl ≠ []) (hn : ¬ txt "\n};" <:+: decl) : getPropsDeclaration b name = .ok decl := by
  unfold getPropsDeclaration
  refine none_before (m := propsAt name) (fun s hs => two_lits_none hs) hf ?_
  have e2 : lazyPlus (lit (txt "\n};")) (decl ++ (txt "\n};" ++ post)) = some (decl, post) := by
    refine lazyPlus_first hd (fun n _ hl => ?_) (lit_append _ _)
    rw [txt_nl.1] at hn ⊢
    exact lit_cross hn hl
  unfold propsAt
  rw [List.append_assoc, lit_append]
  simp only [Option.bind_eq_bind, Option.bind_some]
  rw [lit_append]
  simp only [Option.bind_some]
  rw [List.append_assoc, e2]
  rfl

/-- C85, a trie of its own: the five lines hold, under the names of the builder, the fields 3, 5, 6, 9 and 10 of the initialiser,
without the white space around them. -/
theorem trie_values {b : Builder} {name pre : Str} {fields : List Str} (h : DefinesTrie b.source name fields) {v3 v5 v6 v9 v10 : Str}
    (h3 : fields[3]? = some v3) (h5 : fields[5]? = some v5) (h6 : fields[6]? = some v6) (h9 : fields[9]? = some v9)
    (h10 : fields[10]? = some v10) :
    trieValuesFromTrieDeclaration b name pre =
      .ok { b with outputLines := b.outputLines ++ trieLines pre v3 v5 v6 v9 v10 } := by
  obtain ⟨p, post, hf, ht⟩ := h
  have hl : 1 < fields.length := by
    have := (List.getElem?_eq_some_iff.mp h3).1; omega
  unfold trieValuesFromTrieDeclaration
  rw [getProps hf (join_ne_nil hl) (fun hi => join_no_brace ht (hi.subset (by rw [txt_nl.1]; simp)))]
  exact trieValues_fields ht h3 h5 h6 h9 h10

/-- C85, a trie within a structure: the same, for the first inner structure. -/
theorem trie_values_inner {b : Builder} {name pre : Str} {fields : List Str} (h : DefinesTrieIn b.source name fields)
    {v3 v5 v6 v9 v10 : Str} (h3 : fields[3]? = some v3) (h5 : fields[5]? = some v5) (h6 : fields[6]? = some v6)
    (h9 : fields[9]? = some v9) (h10 : fields[10]? = some v10) :
    trieValuesFromPropsDeclaration b name pre =
      .ok { b with outputLines := b.outputLines ++ trieLines pre v3 v5 v6 v9 v10 } := by
  obtain ⟨p, before, behind, post, hf, hn, hb, ht⟩ := h
  have hl : 1 < fields.length := by
    have := (List.getElem?_eq_some_iff.mp h3).1; omega
  unfold trieValuesFromPropsDeclaration
  rw [getProps hf (by simp [txt_nl.2.2.2.1]) hn]
  have e : findFirst innerAt (before ++ txt "{\n" ++ join (txt ",\n") fields ++ txt "}" ++ behind) = .ok (join (txt ",\n") fields) := by
    unfold findFirst
    have e2 : lazyPlus (lit (txt "}")) (join (txt ",\n") fields ++ (txt "}" ++ behind)) = some (join (txt ",\n") fields, behind) := by
      refine lazyPlus_first (join_ne_nil hl) (fun n _ hl => ?_) (lit_append _ _)
      rw [txt_nl.2.2.2.2.2.2.2.2.2]
      exact lit_inside (join_no_brace ht) hl
    have e3 : innerAt (txt "{\n" ++ (join (txt ",\n") fields ++ (txt "}" ++ behind))) = some (join (txt ",\n") fields) := by
      unfold innerAt
      rw [lit_append]
      simp only [Option.bind_eq_bind, Option.bind_some]
      rw [e2]
      rfl
    simp only [List.append_assoc]
    rw [search_first (fun n hl => ?_) e3]
    unfold innerAt
    rw [txt_nl.2.2.2.1]
    rw [lit_inside hb hl]
    rfl
  simp only [bind, Except.bind]
  rw [e]
  exact trieValues_fields ht h3 h5 h6 h9 h10

/-- The fields of a trie as ICU writes them. -/
def demoFields : List Str :=
  ["  x_index", "  x_index+4", "  NULL", "  12", "  8", "  0x1a0", "  0xe70", "  0x0", "  0x0", "  0x110000", "  0x30f4",
    "  NULL, 0, FALSE, FALSE, 0, NULL"].map txt

theorem demoFields_texts : FieldTexts demoFields := by unfold FieldTexts; decide +kernel

def demoTrie : Str := txt "static const UTrie2 x={\n" ++ join (txt ",\n") demoFields ++ txt "\n};\n"

def demoProps : Str :=
  txt "static const Props p={\n  NULL,\n  {\n" ++ join (txt ",\n") (demoFields.dropLast ++ [txt "  NULL, 0\n  "]) ++ txt "},\n  { 2,2,0,0 }\n};\n"

example : DefinesTrie demoTrie (txt "x") demoFields :=
  ⟨txt "static const UTrie2 ", txt "\n",
    ⟨by decide +kernel, fun n hn => by
      have hl : (txt "static const UTrie2 ").length = 20 := by decide +kernel
      rw [hl] at hn
      revert n
      decide +kernel⟩, demoFields_texts⟩

example : DefinesTrieIn demoProps (txt "p") (demoFields.dropLast ++ [txt "  NULL, 0\n  "]) :=
  ⟨txt "static const Props ", txt "  NULL,\n  ", txt ",\n  { 2,2,0,0 }", txt "\n",
    ⟨by decide +kernel, fun n hn => by
      have hl : (txt "static const Props ").length = 19 := by decide +kernel
      rw [hl] at hn
      revert n
      decide +kernel⟩, by decide +kernel, by decide +kernel, by unfold FieldTexts; decide +kernel⟩

/-! ## Scalars -/

theorem getScalar {b : Builder} {name v : Str} (h : DefinesScalar b.source name v) : getScalarDeclaration b name = .ok v := by
  obtain ⟨pre, tail, rest, hf, hv, hv', ht, hr⟩ := h
  unfold getScalarDeclaration
  refine none_before (m := scalarAt name) (fun s hs => two_lits_none hs) hf ?_
  have hrest : ∀ n, n ≤ rest.length → lit [59] (rest.drop n) = none ∨ 10 ∈ rest.take n := by
    intro n hn
    rcases hr with rfl | hr
    · left; simp; rfl
    · cases rest with
      | nil => simp at hr
      | cons c t =>
        simp at hr; subst hr
        cases n with
        | zero => left; exact lit_none (by simp)
        | succ n => right; simp
  have hnone := greedyPlus_none (c := 59) (x := tail) (y := rest) ht hrest
  have hk : lit [59] (tail ++ rest) = none := by
    cases tail with
    | nil => rcases hrest 0 (by omega) with h | h
             · simpa using h
             · simp at h
    | cons c t => exact lit_inside (n := 0) ht (by simp)
  have e2 : greedyPlus (lit [59]) (v ++ ([59] ++ (tail ++ rest))) = some (v, tail ++ rest) := by
    refine greedyPlus_last hv hv' (lit_append _ _) ?_
    simp only [List.cons_append, List.nil_append, greedyPlus]
    rw [if_neg (by decide), hnone, hk]
    rfl
  unfold scalarAt
  rw [List.append_assoc, lit_append]
  simp only [Option.bind_eq_bind, Option.bind_some]
  rw [lit_append]
  simp only [Option.bind_some, List.append_assoc]
  rw [txt_nl.2.2.2.2.2.2.2.2.1, e2]
  rfl

/-- C86. For a variable the C source defines, `scalarToPython` adds the line `name = v`. Missing: lines with a semicolon behind the
definition and sources where `name=` occurs before, see `scalar_refuted`. -/
theorem scalar_partial {b : Builder} {name v : Str} (h : DefinesScalar b.source name v) :
    scalarToPython b name = .ok { b with outputLines := b.outputLines ++ [name ++ txt " = " ++ v ++ txt "\n"] } := by
  unfold scalarToPython
  rw [getScalar h]
  rfl

example : DefinesScalar (txt "int x[1]={1};\nint n=3; // columns\nint m=4;\n") (txt "n") (txt "3") :=
  ⟨txt "int x[1]={1};\nint ", txt " // columns", txt "\nint m=4;\n",
    ⟨by decide +kernel, fun n hn => by
      have hl : (txt "int x[1]={1};\nint ").length = 18 := by decide +kernel
      rw [hl] at hn
      revert n
      decide +kernel⟩, by decide, by decide, by decide, Or.inr (by decide)⟩

/-- C86 fails when a semicolon follows on the line: two definitions on a line, or a comment that ends with one. -/
theorem scalar_refuted :
    (scalarToPython ⟨txt "int n=3; int m=4;\n", []⟩ (txt "n")).map Builder.outputLines = .ok [txt "n = 3; int m=4\n"] ∧
    (scalarToPython ⟨txt "int n=3; // columns;\n", []⟩ (txt "n")).map Builder.outputLines = .ok [txt "n = 3; // columns\n"] := by
  decide +kernel

/-! ## Whole modules -/

/-- The text that starts a module. -/
def header (moduleName fromName today : String) : List Str :=
  [txt "\"\"\"/", txt (moduleName ++ ", based on " ++ fromName ++ " from ICU\n"), txt ("Generated by ModuleBuilder.py on " ++ today),
    txt "\"\"\"\n"]

theorem init_header (source : Str) (moduleName fromName today : String) :
    init source (txt moduleName) (txt fromName) (txt "ModuleBuilder.py") (txt today) = ⟨source, header moduleName fromName today⟩ := by
  simp [init, header, txt]

/-- A line that defines an array with the elements of the initialiser `body`. -/
def ArrayLine (name : String) (body line : Str) : Prop := ∃ inner, words inner = words body ∧ line = txt name ++ txt " = [" ++ inner ++ txt "]\n"

theorem array_step {source : Str} {lines : List Str} {name : String} {body : Str} (h : DefinesArray source (txt name) body) :
    ∃ line, ArrayLine name body line ∧ arrayToPython ⟨source, lines⟩ (txt name) = .ok ⟨source, lines ++ [line]⟩ := by
  obtain ⟨inner, h1, h2⟩ := array_partial (b := ⟨source, lines⟩) h
  exact ⟨_, ⟨inner, h1, rfl⟩, h2⟩

/-- C87. From a C source that defines the five arrays and the structure, the module `BidiPropsData.py` is made: the header, the
arrays and the values of the trie, in this order, each with the elements and values of the C source. -/
theorem bidiModule_text {source b1 b2 b3 b4 b5 : Str} {fields : List Str} (today : String)
    (h1 : DefinesArray source (txt "ubidi_props_indexes") b1) (h2 : DefinesArray source (txt "ubidi_props_trieIndex") b2)
    (h3 : DefinesArray source (txt "ubidi_props_mirrors") b3) (h4 : DefinesArray source (txt "ubidi_props_jgArray") b4)
    (h5 : DefinesArray source (txt "ubidi_props_jgArray2") b5) (ht : DefinesTrieIn source (txt "ubidi_props_singleton") fields)
    {v3 v5 v6 v9 v10 : Str} (f3 : fields[3]? = some v3) (f5 : fields[5]? = some v5) (f6 : fields[6]? = some v6)
    (f9 : fields[9]? = some v9) (f10 : fields[10]? = some v10) :
    ∃ l1 l2 l3 l4 l5, ArrayLine "ubidi_props_indexes" b1 l1 ∧ ArrayLine "ubidi_props_trieIndex" b2 l2 ∧
      ArrayLine "ubidi_props_mirrors" b3 l3 ∧ ArrayLine "ubidi_props_jgArray" b4 l4 ∧ ArrayLine "ubidi_props_jgArray2" b5 l5 ∧
      bidiModule source (txt today) = .ok (join (txt "\n") (header "BidiPropsData.py" "ubidi_props_data.h" today ++
        [l1, l2, l3, l4, l5] ++ trieLines (txt "ubidi_props_trie") v3 v5 v6 v9 v10)) := by
  obtain ⟨l1, a1, e1⟩ := array_step (lines := header "BidiPropsData.py" "ubidi_props_data.h" today) h1
  obtain ⟨l2, a2, e2⟩ := array_step (lines := header "BidiPropsData.py" "ubidi_props_data.h" today ++ [l1]) h2
  obtain ⟨l3, a3, e3⟩ := array_step (lines := header "BidiPropsData.py" "ubidi_props_data.h" today ++ [l1] ++ [l2]) h3
  obtain ⟨l4, a4, e4⟩ := array_step (lines := header "BidiPropsData.py" "ubidi_props_data.h" today ++ [l1] ++ [l2] ++ [l3]) h4
  obtain ⟨l5, a5, e5⟩ := array_step (lines := header "BidiPropsData.py" "ubidi_props_data.h" today ++ [l1] ++ [l2] ++ [l3] ++ [l4]) h5
  have e6 := trie_values_inner (b := ⟨source, header "BidiPropsData.py" "ubidi_props_data.h" today ++ [l1] ++ [l2] ++ [l3] ++ [l4] ++ [l5]⟩)
    (pre := txt "ubidi_props_trie") ht f3 f5 f6 f9 f10
  refine ⟨l1, l2, l3, l4, l5, a1, a2, a3, a4, a5, ?_⟩
  unfold bidiModule
  rw [init_header]
  simp only [e1, e2, e3, e4, e5, e6, bind, Except.bind, writeFile]
  simp

/-- A check of `FirstIn` by evaluation. -/
theorem firstIn_check {p s pre rest : Str} (h : (decide (s = pre ++ p ++ rest) && (List.range pre.length).all fun n => !p.isPrefixOf (s.drop n)) = true) :
    FirstIn p s pre rest := by
  simp only [Bool.and_eq_true, decide_eq_true_eq, List.all_eq_true, List.mem_range, Bool.not_eq_true'] at h
  exact ⟨h.1, fun n hn hp => by
    have := h.2 n hn
    rw [List.isPrefixOf_iff_prefix.mpr hp] at this
    exact absurd this (by decide)⟩

/-- A C source for the example. -/
def demoBidi : Str :=
  txt "static const int32_t ubidi_props_indexes[2]={0x10,2};\n" ++ txt "static const uint16_t ubidi_props_trieIndex[2]={\n1,2\n};\n" ++
  txt "static const uint32_t ubidi_props_mirrors[1]={\n3\n};\n" ++ txt "static const uint8_t ubidi_props_jgArray[1]={\n4\n};\n" ++
  txt "static const uint8_t ubidi_props_jgArray2[1]={\n5\n};\n" ++
  (txt "static const UBiDiProps ubidi_props_singleton={\n  NULL,\n  {\n" ++
    join (txt ",\n") (demoFields.dropLast ++ [txt "  NULL, 0\n  "]) ++ txt "},\n  { 2,2,0,0 }\n};\n")

/-- The hypotheses of `bidiModule_text` are met. -/
theorem demoBidi_defines : DefinesArray demoBidi (txt "ubidi_props_indexes") (txt "0x10,2") ∧
    DefinesArray demoBidi (txt "ubidi_props_trieIndex") (txt "\n1,2\n") ∧
    DefinesArray demoBidi (txt "ubidi_props_mirrors") (txt "\n3\n") ∧ DefinesArray demoBidi (txt "ubidi_props_jgArray") (txt "\n4\n") ∧
    DefinesArray demoBidi (txt "ubidi_props_jgArray2") (txt "\n5\n") ∧
    DefinesTrieIn demoBidi (txt "ubidi_props_singleton") (demoFields.dropLast ++ [txt "  NULL, 0\n  "]) := by
  refine ⟨⟨demoBidi.take 21, txt "2", demoBidi.drop 53, firstIn_check (by decide +kernel), by decide, by decide, by decide, by decide⟩,
    ⟨demoBidi.take 76, txt "2", demoBidi.drop 109, firstIn_check (by decide +kernel), by decide, by decide, by decide, by decide⟩,
    ⟨demoBidi.take 132, txt "1", demoBidi.drop 161, firstIn_check (by decide +kernel), by decide, by decide, by decide, by decide⟩,
    ⟨demoBidi.take 183, txt "1", demoBidi.drop 212, firstIn_check (by decide +kernel), by decide, by decide, by decide, by decide⟩,
    ⟨demoBidi.take 234, txt "1", demoBidi.drop 264, firstIn_check (by decide +kernel), by decide, by decide, by decide, by decide⟩,
    ⟨demoBidi.take 289, txt "  NULL,\n  ", txt ",\n  { 2,2,0,0 }", txt "\n", firstIn_check (by decide +kernel), by decide +kernel,
      by decide +kernel, by unfold FieldTexts; decide +kernel⟩⟩

/-- C87 for the module `CharPropsData.py`. -/
theorem charModule_text {source b1 b2 b3 b4 v : Str} {fields gields : List Str} (today : String)
    (h1 : DefinesArray source (txt "propsTrie_index") b1) (ht : DefinesTrie source (txt "propsTrie") fields)
    (h2 : DefinesArray source (txt "propsVectorsTrie_index") b2) (hu : DefinesTrie source (txt "propsVectorsTrie") gields)
    (h3 : DefinesArray source (txt "propsVectors") b3) (hv : DefinesScalar source (txt "propsVectorsColumns") v)
    (h4 : DefinesArray source (txt "scriptExtensions") b4)
    {v3 v5 v6 v9 v10 w3 w5 w6 w9 w10 : Str} (f3 : fields[3]? = some v3) (f5 : fields[5]? = some v5) (f6 : fields[6]? = some v6)
    (f9 : fields[9]? = some v9) (f10 : fields[10]? = some v10) (g3 : gields[3]? = some w3) (g5 : gields[5]? = some w5)
    (g6 : gields[6]? = some w6) (g9 : gields[9]? = some w9) (g10 : gields[10]? = some w10) :
    ∃ l1 l2 l3 l4, ArrayLine "propsTrie_index" b1 l1 ∧ ArrayLine "propsVectorsTrie_index" b2 l2 ∧ ArrayLine "propsVectors" b3 l3 ∧
      ArrayLine "scriptExtensions" b4 l4 ∧
      charModule source (txt today) = .ok (join (txt "\n") (header "CharPropsData.py" "uchar_props_data.h" today ++
        [l1] ++ trieLines (txt "propsTrie") v3 v5 v6 v9 v10 ++ [l2] ++ trieLines (txt "propsVectorsTrie") w3 w5 w6 w9 w10 ++
        [l3, txt "propsVectorsColumns = " ++ v ++ txt "\n", l4])) := by
  obtain ⟨l1, a1, e1⟩ := array_step (lines := header "CharPropsData.py" "uchar_props_data.h" today) h1
  have t1 := trie_values (b := ⟨source, header "CharPropsData.py" "uchar_props_data.h" today ++ [l1]⟩) (pre := txt "propsTrie") ht f3 f5 f6 f9 f10
  simp only at t1
  obtain ⟨l2, a2, e2⟩ := array_step (lines := header "CharPropsData.py" "uchar_props_data.h" today ++ [l1] ++
    trieLines (txt "propsTrie") v3 v5 v6 v9 v10) h2
  have t2 := trie_values (b := ⟨source, header "CharPropsData.py" "uchar_props_data.h" today ++ [l1] ++
    trieLines (txt "propsTrie") v3 v5 v6 v9 v10 ++ [l2]⟩) (pre := txt "propsVectorsTrie") hu g3 g5 g6 g9 g10
  simp only at t2
  obtain ⟨l3, a3, e3⟩ := array_step (lines := header "CharPropsData.py" "uchar_props_data.h" today ++ [l1] ++
    trieLines (txt "propsTrie") v3 v5 v6 v9 v10 ++ [l2] ++ trieLines (txt "propsVectorsTrie") w3 w5 w6 w9 w10) h3
  have s1 := scalar_partial (b := ⟨source, header "CharPropsData.py" "uchar_props_data.h" today ++ [l1] ++
    trieLines (txt "propsTrie") v3 v5 v6 v9 v10 ++ [l2] ++ trieLines (txt "propsVectorsTrie") w3 w5 w6 w9 w10 ++ [l3]⟩) hv
  simp only at s1
  obtain ⟨l4, a4, e4⟩ := array_step (lines := header "CharPropsData.py" "uchar_props_data.h" today ++ [l1] ++
    trieLines (txt "propsTrie") v3 v5 v6 v9 v10 ++ [l2] ++ trieLines (txt "propsVectorsTrie") w3 w5 w6 w9 w10 ++ [l3] ++
    [txt "propsVectorsColumns" ++ txt " = " ++ v ++ txt "\n"]) h4
  refine ⟨l1, l2, l3, l4, a1, a2, a3, a4, ?_⟩
  unfold charModule
  rw [init_header]
  simp only [e1, e2, e3, e4, t1, t2, s1, bind, Except.bind, writeFile]
  have : txt "propsVectorsColumns" ++ txt " = " = txt "propsVectorsColumns = " := by decide +kernel
  rw [this]
  simp

/-- C87 for the module `CasePropsData.py`. -/
theorem caseModule_text {source b1 b2 b3 b4 : Str} {fields : List Str} (today : String)
    (h1 : DefinesArray source (txt "ucase_props_indexes") b1) (h2 : DefinesArray source (txt "ucase_props_trieIndex") b2)
    (h3 : DefinesArray source (txt "ucase_props_exceptions") b3) (h4 : DefinesArray source (txt "ucase_props_unfold") b4)
    (ht : DefinesTrieIn source (txt "ucase_props_singleton") fields)
    {v3 v5 v6 v9 v10 : Str} (f3 : fields[3]? = some v3) (f5 : fields[5]? = some v5) (f6 : fields[6]? = some v6)
    (f9 : fields[9]? = some v9) (f10 : fields[10]? = some v10) :
    ∃ l1 l2 l3 l4, ArrayLine "ucase_props_indexes" b1 l1 ∧ ArrayLine "ucase_props_trieIndex" b2 l2 ∧
      ArrayLine "ucase_props_exceptions" b3 l3 ∧ ArrayLine "ucase_props_unfold" b4 l4 ∧
      caseModule source (txt today) = .ok (join (txt "\n") (header "CasePropsData.py" "ucase_props_data.h" today ++
        [l1, l2, l3, l4] ++ trieLines (txt "ucase_props_trie") v3 v5 v6 v9 v10)) := by
  obtain ⟨l1, a1, e1⟩ := array_step (lines := header "CasePropsData.py" "ucase_props_data.h" today) h1
  obtain ⟨l2, a2, e2⟩ := array_step (lines := header "CasePropsData.py" "ucase_props_data.h" today ++ [l1]) h2
  obtain ⟨l3, a3, e3⟩ := array_step (lines := header "CasePropsData.py" "ucase_props_data.h" today ++ [l1] ++ [l2]) h3
  obtain ⟨l4, a4, e4⟩ := array_step (lines := header "CasePropsData.py" "ucase_props_data.h" today ++ [l1] ++ [l2] ++ [l3]) h4
  have e5 := trie_values_inner (b := ⟨source, header "CasePropsData.py" "ucase_props_data.h" today ++ [l1] ++ [l2] ++ [l3] ++ [l4]⟩)
    (pre := txt "ucase_props_trie") ht f3 f5 f6 f9 f10
  refine ⟨l1, l2, l3, l4, a1, a2, a3, a4, ?_⟩
  unfold caseModule
  rw [init_header]
  simp only [e1, e2, e3, e4, e5, bind, Except.bind, writeFile]
  simp

/-! ## Versions -/

theorem classPlus_all {β : Type} {ok : Nat → Bool} {k : Str → Option β} {b : β} : ∀ {x y : Str}, x ≠ [] → (∀ c ∈ x, ok c = true) →
    k y = some b → (∀ c, y.head? = some c → ok c = false) → classPlus ok k (x ++ y) = some (x, b) := by
  intro x
  induction x with
  | nil => intro y h; exact absurd rfl h
  | cons c t ih =>
    intro y _ hx hk hy
    rw [List.cons_append, classPlus, if_pos (hx c (by simp))]
    cases t with
    | nil =>
      have : classPlus ok k y = none := by
        cases y with
        | nil => rfl
        | cons d y => rw [classPlus, if_neg (by simp [hy d rfl])]
      simp [this, hk]
    | cons d t => rw [ih (by simp) (fun c hc => hx c (by simp at hc ⊢; exact Or.inr hc)) hk hy]

/-- C87, versions. The versions are those of the first `#define` lines of the header, and the data file copied has the short
version in its name. -/
theorem icuVersions_exact {uv v s pre post pre' post' : Str} (hv : v ≠ []) (hv' : ∀ c ∈ v, (48 ≤ c ∧ c ≤ 57) ∨ c = 46) (hs : s ≠ [])
    (hs' : ∀ c ∈ s, 48 ≤ c ∧ c ≤ 57) (h1 : FirstIn (txt "#define U_ICU_VERSION \"") uv pre (v ++ txt "\"" ++ post))
    (h2 : FirstIn (txt "#define U_ICU_VERSION_SHORT \"") uv pre' (s ++ txt "\"" ++ post')) :
    icuVersions uv = .ok (v, s, txt "data/out/icudt" ++ s ++ txt "l.dat") := by
  have key : ∀ {d : Str} {ok : Nat → Bool} {w p q : Str}, w ≠ [] → (∀ c ∈ w, ok c = true) → ok 34 = false →
      FirstIn (txt "#define " ++ d ++ txt " \"") uv p (w ++ txt "\"" ++ q) → findFirst (versionAt d ok) uv = .ok w := by
    intro d ok w p q hw hok hq hf
    refine none_before (m := versionAt d ok) (fun s hs => ?_) hf ?_
    · unfold versionAt
      rw [lit_none (fun ⟨t, ht⟩ => hs t ht.symm)]; rfl
    · unfold versionAt
      rw [lit_append]
      simp only [Option.bind_eq_bind, Option.bind_some, List.append_assoc]
      rw [classPlus_all hw hok (lit_append _ _) (fun c hc => by
        have : txt "\"" = [34] := by decide
        rw [this] at hc; simp at hc; rw [← hc]; exact hq)]
      rfl
  have d1 : txt "#define U_ICU_VERSION \"" = txt "#define " ++ txt "U_ICU_VERSION" ++ txt " \"" := by decide +kernel
  have d2 : txt "#define U_ICU_VERSION_SHORT \"" = txt "#define " ++ txt "U_ICU_VERSION_SHORT" ++ txt " \"" := by decide +kernel
  rw [d1] at h1; rw [d2] at h2
  unfold icuVersions
  rw [key (ok := fun c => isDigit c || c == 46) hv (fun c hc => by
      have := hv' c hc; simp only [isDigit, Bool.or_eq_true, Bool.and_eq_true, decide_eq_true_eq, beq_iff_eq]; exact this) (by decide) h1,
    key (ok := isDigit) hs (fun c hc => by
      have := hs' c hc; simp only [isDigit, Bool.and_eq_true, decide_eq_true_eq]; exact this) (by decide) h2]
  rfl

example : icuVersions (txt "#define U_ICU_VERSION_SHORT \"69\"\n#define U_ICU_VERSION \"69.1\"\n") =
    .ok (txt "69.1", txt "69", txt "data/out/icudt69l.dat") := by decide +kernel

end Verif.ModuleText.Props

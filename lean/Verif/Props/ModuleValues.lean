import Verif.Props.ModuleText
import Verif.Props.HeaderModule
import Verif.Lemmas.PyLists
import Verif.Model.DataModules
import Verif.Props.Utrie2
/-!
# The values of the generated data modules (C132)

`DefinesArray`, `DefinesScalar`, `DefinesTrie` and `DefinesTrieIn` (Spec/ModuleText.lean) say what a C source defines, `Elements` and
`Value` (Spec/CInit.lean) what numbers are written there. `importModule` is the model of Python in Model/PyLists.lean.
-/
namespace Verif.ModuleValues
open Verif.ModuleText Verif.ModuleText.Props Verif.Spec Verif.CHeader.Spec Verif.PyLists

theorem elements_format {b : Str} {ns : List Nat} (h : Elements b ns) : Elements (formatArray b) ns := by
  have repl : ∀ s r : Str, replace 10 r s = s.flatMap fun c => if c = 10 then r else [c] := by
    intro s r
    induction s with
    | nil => rfl
    | cons c s ih => rw [replace, ih, List.flatMap_cons]
  have hsp : Space (txt "\n    ") := by unfold Space; decide
  have hd : Elements (if b.getLast? = some 10 then b.dropLast else b) ns := by
    split
    · rename_i e
      refine elements_dropLast ?_
      obtain ⟨l, rfl⟩ := List.getLast?_eq_some_iff.1 e
      simpa using h
    · exact h
  unfold formatArray
  simp only
  by_cases hn : 10 ∈ b
  · rw [if_pos hn, if_pos (by decide), repl]
    exact elements_newline (elements_replace hd hsp)
  · rw [if_neg hn, if_neg (by decide), List.append_nil]
    exact hd

/-- The line that defines an array. -/
def arrLine (name body : Str) : Str := name ++ txt " = [" ++ formatArray body ++ txt "]\n"

theorem array_line {source : Str} {lines : List Str} {name body : Str} (h : DefinesArray source name body) :
    arrayToPython ⟨source, lines⟩ name = .ok ⟨source, lines ++ [arrLine name body]⟩ := by
  unfold arrayToPython
  rw [getArray (b := ⟨source, lines⟩) h]
  rfl

theorem strip_value {v : Str} {n : Nat} (h : Value v n) : Numeral (strip v) n := by
  cases h with
  | @mk a x b _ ha hn hb =>
    obtain ⟨h1, h2, -⟩ := PyExpr.numeral_word hn
    have sp : ∀ {a : Str}, Space a → ∀ x ∈ a, isSpace x = true := by
      intro a ha x hx
      rcases ha x hx with rfl | rfl | rfl <;> rfl
    have nw : ∀ x, Header.isWord x = true → isSpace x = false := by
      intro x hx
      unfold Header.isWord at hx
      simp only [Bool.or_eq_true, Bool.and_eq_true, decide_eq_true_eq, beq_iff_eq] at hx
      unfold isSpace
      simp
      omega
    have : strip (a ++ (x ++ b)) = x := by
      rw [← List.append_assoc]
      exact Header.Props.strip_middle (sp ha) (sp hb) h1 (nw _ (h2 _ (List.head_mem h1))) (nw _ (h2 _ (List.getLast_mem h1)))
    rw [this]
    exact hn

/-- The five constants of a trie. -/
def trieConstants (pre : Str) (a b c d e : Nat) : List (Str × Val) :=
  [(pre ++ txt "_index_length", .int a), (pre ++ txt "_index_2_null_offset", .int b), (pre ++ txt "_data_null_offset", .int c),
   (pre ++ txt "_high_start", .int d), (pre ++ txt "_high_value_index", .int e)]

def triePieces (pre v3 v5 v6 v9 v10 : Str) (a b c d e : Nat) : List Piece :=
  [.scalar (pre ++ txt "_index_length") (strip v3) a, .scalar (pre ++ txt "_index_2_null_offset") (strip v5) b,
   .scalar (pre ++ txt "_data_null_offset") (strip v6) c, .scalar (pre ++ txt "_high_start") (strip v9) d,
   .scalar (pre ++ txt "_high_value_index") (strip v10) e]

/-- A text whose lines each end with a line feed. -/
def ended (lines : List Str) : Str := lines.flatMap (· ++ [10])

theorem join_ended : ∀ lines : List Str, join (txt "\n") (lines ++ [[]]) = ended lines
  | [] => rfl
  | [l] => by simp [join, List.intercalate, List.intersperse, ended, txt]
  | l :: m :: ls => by
    have ih := join_ended (m :: ls)
    have e : join (txt "\n") (l :: m :: ls ++ [[]]) = l ++ 10 :: join (txt "\n") (m :: ls ++ [[]]) := by
      simp only [join, List.cons_append]; rw [List.intercalate_cons_cons]; simp [txt]
    rw [e, ih]
    simp [ended]

/-- The definition of an array with an empty line behind it. -/
theorem array_text (name body : Str) (ns : List Nat) :
    [Piece.array name (formatArray body) ns, .blank].flatMap Piece.text = ended [arrLine name body] := by
  simp [arrLine, Piece.text, ended, txt]

theorem trie_text (pre v3 v5 v6 v9 v10 : Str) (a b c d e : Nat) :
    (triePieces pre v3 v5 v6 v9 v10 a b c d e).flatMap Piece.text = ended (trieLines pre v3 v5 v6 v9 v10).dropLast := by
  simp [triePieces, trieLines, Piece.text, ended, txt]

theorem blank_text : [Piece.blank].flatMap Piece.text = ended [[]] := rfl

theorem scalar_text (name v : Str) (n : Nat) : [Piece.scalar name v n, .blank].flatMap Piece.text = ended [name ++ txt " = " ++ v ++ txt "\n"] := by
  simp [Piece.text, ended, txt]

theorem last_text (name v : Str) (ns : List Nat) : [Piece.array name v ns].flatMap Piece.text = ended [name ++ txt " = [" ++ v ++ txt "]"] := by
  simp [Piece.text, ended, txt]

theorem trieLines_last (pre v3 v5 v6 v9 v10 : Str) :
    trieLines pre v3 v5 v6 v9 v10 = (trieLines pre v3 v5 v6 v9 v10).dropLast ++ [[]] := rfl

theorem ended_append (a b : List Str) : ended (a ++ b) = ended a ++ ended b := List.flatMap_append

theorem quotes_of : ∀ {a : Str}, 34 ∉ a → 92 ∉ a → ∀ b : Str, PyExpr.afterQuotes (a ++ 34 :: 34 :: 34 :: b) = some b
  | [], _, _, _ => rfl
  | c :: a, h, h', b => by
    rw [List.mem_cons, not_or] at h h'
    rw [List.cons_append, PyExpr.afterQuotes.eq_def]
    split
    · rename_i e
      exact absurd (List.cons.inj e).1.symm h.1
    · rename_i e
      exact absurd (List.cons.inj e).1.symm h'.1
    · rename_i e
      rw [← (List.cons.inj e).2]
      exact quotes_of h.2 h'.2 b
    · rename_i e
      cases e

/-- A text in which no quotation mark and no backslash occurs. -/
def Quiet (s : Str) : Prop := 34 ∉ s ∧ 92 ∉ s

/-- A module made of a header and pieces. -/
theorem import_built {m f today : String} (hm : Quiet (txt m)) (hf : Quiet (txt f)) (ht : Quiet (txt today)) {lines : List Str} {ps : List Piece}
    (h : ∀ p ∈ ps, p.Ok) (hp : ps.flatMap Piece.text = ended lines) :
    importModule (join (txt "\n") (header m f today ++ lines ++ [[]])) = .ok (ps.filterMap Piece.binding).reverse := by
  have e : join (txt "\n") (header m f today ++ lines ++ [[]]) = 34 :: 34 :: 34 ::
      ((txt "/\n" ++ (txt m ++ (txt ", based on " ++ (txt f ++ (txt " from ICU\n\nGenerated by ModuleBuilder.py on " ++ (txt today ++ txt "\n")))))) ++
        34 :: 34 :: 34 :: 10 :: (Piece.blank :: ps).flatMap Piece.text) := by
    rw [join_ended, ended_append, List.flatMap_cons, hp]
    simp [ended, header, txt, Piece.text]
  rw [e]
  refine (import_pieces (ps := .blank :: ps) (quotes_of ?_ ?_ _) ?_).trans ?_
  · simp only [List.mem_append, not_or]
    exact ⟨by decide, hm.1, by decide, hf.1, by decide, ht.1, by decide⟩
  · simp only [List.mem_append, not_or]
    exact ⟨by decide, hm.2, by decide, hf.2, by decide, ht.2, by decide⟩
  · intro p hp
    rcases List.mem_cons.1 hp with rfl | hp
    · trivial
    · exact h p hp
  · rfl

instance (n : Str) : Decidable (Ident n) := by unfold Ident Header.Spec.Name; infer_instance
instance (s : Str) : Decidable (Quiet s) := by unfold Quiet; infer_instance

theorem array_ok {name body : Str} {ns : List Nat} (h : Elements body ns) (hn : Ident name ∧ name ∉ PyExpr.keywords) :
    (Piece.array name (formatArray body) ns).Ok := ⟨hn.1, hn.2, elements_format h⟩

theorem numeral_value {s : Str} {n : Nat} (h : Numeral s n) : Value s n ∧ 10 ∉ s :=
  ⟨by simpa using Value.mk (a := []) (b := []) (by simp [Space]) h (by simp [Space]), numeral_no h rfl⟩

theorem scalar_ok {name v : Str} {n : Nat} (h : Value v n) (hn : Ident name ∧ name ∉ PyExpr.keywords) :
    (Piece.scalar name (strip v) n).Ok :=
  ⟨hn.1, hn.2, numeral_value (strip_value h)⟩

/-! ## Lookups -/

/-- The trie written in a C source: its array and its constants. -/
def trieWritten (l : List Nat) (a b c d e : Nat) : UTrie2 :=
  { index := Arr.ofList l, indexLength := a, index2NullOffset := b, dataNullOffset := c, highStart := d, highValueIndex := e }

/-- The trie that is made from the module returns for every code point but the last one (C25) what the trie written in the C source
stores. -/
def Serves (env : List (Str × Val)) (index pre : Str) (written : UTrie2) : Prop :=
  ∀ f err, Represents written f err → ∃ t, DataModules.trieOf env index pre = some t ∧ ∀ c < 0x10FFFF, t.get c = .ok (f c)

theorem serves_of {env : List (Str × Val)} {index pre : Str} {t : UTrie2} (h : DataModules.trieOf env index pre = some t) :
    Serves env index pre t := fun _ _ hf => ⟨t, h, (UTrie2.Props.get_correct_partial hf).1⟩

/-! ## The modules -/

/-- C132. From a C source that defines the five arrays and the structure, a module `BidiPropsData.py` is made which, when it is imported,
defines exactly the ten names, each with the numbers of the C source; the trie made from them looks up what the C source stores. `partial`: numbers are decimal or hexadecimal ones without
suffixes, see `octal_refuted`, and the layout is that of C87. -/
theorem bidi_values_partial {source b1 b2 b3 b4 b5 : Str} {fields : List Str} {today : String} (hq : Quiet (txt today))
    (h1 : DefinesArray source (txt "ubidi_props_indexes") b1) (h2 : DefinesArray source (txt "ubidi_props_trieIndex") b2)
    (h3 : DefinesArray source (txt "ubidi_props_mirrors") b3) (h4 : DefinesArray source (txt "ubidi_props_jgArray") b4)
    (h5 : DefinesArray source (txt "ubidi_props_jgArray2") b5) (ht : DefinesTrieIn source (txt "ubidi_props_singleton") fields)
    {v3 v5 v6 v9 v10 : Str} (f3 : fields[3]? = some v3) (f5 : fields[5]? = some v5) (f6 : fields[6]? = some v6)
    (f9 : fields[9]? = some v9) (f10 : fields[10]? = some v10)
    {l1 l2 l3 l4 l5 : List Nat} (n1 : Elements b1 l1) (n2 : Elements b2 l2) (n3 : Elements b3 l3) (n4 : Elements b4 l4) (n5 : Elements b5 l5)
    {x3 x5 x6 x9 x10 : Nat} (y3 : Value v3 x3) (y5 : Value v5 x5) (y6 : Value v6 x6) (y9 : Value v9 x9) (y10 : Value v10 x10) :
    ∃ text env, bidiModule source (txt today) = .ok text ∧ importModule text = .ok env ∧
      env.reverse = [(txt "ubidi_props_indexes", .list l1), (txt "ubidi_props_trieIndex", .list l2), (txt "ubidi_props_mirrors", .list l3),
        (txt "ubidi_props_jgArray", .list l4), (txt "ubidi_props_jgArray2", .list l5)] ++
        trieConstants (txt "ubidi_props_trie") x3 x5 x6 x9 x10 ∧
      Serves env (txt "ubidi_props_trieIndex") (txt "ubidi_props_trie") (trieWritten l2 x3 x5 x6 x9 x10) := by
  have e6 := fun ls => trie_values_inner (b := ⟨source, ls⟩) (pre := txt "ubidi_props_trie") ht f3 f5 f6 f9 f10
  have hi := import_built (m := "BidiPropsData.py") (f := "ubidi_props_data.h") (by decide) (by decide) hq
    (lines := [arrLine (txt "ubidi_props_indexes") b1] ++ ([arrLine (txt "ubidi_props_trieIndex") b2] ++
      ([arrLine (txt "ubidi_props_mirrors") b3] ++ ([arrLine (txt "ubidi_props_jgArray") b4] ++ ([arrLine (txt "ubidi_props_jgArray2") b5] ++
      (trieLines (txt "ubidi_props_trie") v3 v5 v6 v9 v10).dropLast)))))
    (ps := [.array (txt "ubidi_props_indexes") (formatArray b1) l1, .blank] ++ ([.array (txt "ubidi_props_trieIndex") (formatArray b2) l2, .blank] ++
      ([.array (txt "ubidi_props_mirrors") (formatArray b3) l3, .blank] ++ ([.array (txt "ubidi_props_jgArray") (formatArray b4) l4, .blank] ++
      ([.array (txt "ubidi_props_jgArray2") (formatArray b5) l5, .blank] ++ triePieces (txt "ubidi_props_trie") v3 v5 v6 v9 v10 x3 x5 x6 x9 x10)))))
    (by
      simp only [triePieces, List.cons_append, List.nil_append, List.forall_mem_cons, List.not_mem_nil, false_imp_iff, implies_true, and_true]
      exact ⟨array_ok n1 (by decide), trivial, array_ok n2 (by decide), trivial, array_ok n3 (by decide), trivial, array_ok n4 (by decide), trivial,
        array_ok n5 (by decide), trivial, scalar_ok y3 (by decide), scalar_ok y5 (by decide), scalar_ok y6 (by decide), scalar_ok y9 (by decide),
        scalar_ok y10 (by decide)⟩)
    (by simp only [List.flatMap_append, array_text, trie_text, ended_append])
  refine ⟨_, _, ?_, hi, ?_, ?_⟩
  · unfold bidiModule
    rw [init_header]
    simp only [array_line h1, array_line h2, array_line h3, array_line h4, array_line h5, e6, bind, Except.bind, writeFile]
    simp [trieLines]
  · rw [List.reverse_reverse]
    rfl
  · exact serves_of rfl

/-- C132 for the module `CasePropsData.py`. -/
theorem case_values_partial {source b1 b2 b3 b4 : Str} {fields : List Str} {today : String} (hq : Quiet (txt today))
    (h1 : DefinesArray source (txt "ucase_props_indexes") b1) (h2 : DefinesArray source (txt "ucase_props_trieIndex") b2)
    (h3 : DefinesArray source (txt "ucase_props_exceptions") b3) (h4 : DefinesArray source (txt "ucase_props_unfold") b4)
    (ht : DefinesTrieIn source (txt "ucase_props_singleton") fields)
    {v3 v5 v6 v9 v10 : Str} (f3 : fields[3]? = some v3) (f5 : fields[5]? = some v5) (f6 : fields[6]? = some v6)
    (f9 : fields[9]? = some v9) (f10 : fields[10]? = some v10)
    {l1 l2 l3 l4 : List Nat} (n1 : Elements b1 l1) (n2 : Elements b2 l2) (n3 : Elements b3 l3) (n4 : Elements b4 l4)
    {x3 x5 x6 x9 x10 : Nat} (y3 : Value v3 x3) (y5 : Value v5 x5) (y6 : Value v6 x6) (y9 : Value v9 x9) (y10 : Value v10 x10) :
    ∃ text env, caseModule source (txt today) = .ok text ∧ importModule text = .ok env ∧
      env.reverse = [(txt "ucase_props_indexes", .list l1), (txt "ucase_props_trieIndex", .list l2), (txt "ucase_props_exceptions", .list l3),
        (txt "ucase_props_unfold", .list l4)] ++ trieConstants (txt "ucase_props_trie") x3 x5 x6 x9 x10 ∧
      Serves env (txt "ucase_props_trieIndex") (txt "ucase_props_trie") (trieWritten l2 x3 x5 x6 x9 x10) := by
  have e6 := fun ls => trie_values_inner (b := ⟨source, ls⟩) (pre := txt "ucase_props_trie") ht f3 f5 f6 f9 f10
  have hi := import_built (m := "CasePropsData.py") (f := "ucase_props_data.h") (by decide) (by decide) hq
    (lines := [arrLine (txt "ucase_props_indexes") b1] ++ ([arrLine (txt "ucase_props_trieIndex") b2] ++
      ([arrLine (txt "ucase_props_exceptions") b3] ++ ([arrLine (txt "ucase_props_unfold") b4] ++
      (trieLines (txt "ucase_props_trie") v3 v5 v6 v9 v10).dropLast))))
    (ps := [.array (txt "ucase_props_indexes") (formatArray b1) l1, .blank] ++ ([.array (txt "ucase_props_trieIndex") (formatArray b2) l2, .blank] ++
      ([.array (txt "ucase_props_exceptions") (formatArray b3) l3, .blank] ++ ([.array (txt "ucase_props_unfold") (formatArray b4) l4, .blank] ++
      triePieces (txt "ucase_props_trie") v3 v5 v6 v9 v10 x3 x5 x6 x9 x10))))
    (by
      simp only [triePieces, List.cons_append, List.nil_append, List.forall_mem_cons, List.not_mem_nil, false_imp_iff, implies_true, and_true]
      exact ⟨array_ok n1 (by decide), trivial, array_ok n2 (by decide), trivial, array_ok n3 (by decide), trivial, array_ok n4 (by decide), trivial,
        scalar_ok y3 (by decide), scalar_ok y5 (by decide), scalar_ok y6 (by decide), scalar_ok y9 (by decide), scalar_ok y10 (by decide)⟩)
    (by simp only [List.flatMap_append, array_text, trie_text, ended_append])
  refine ⟨_, _, ?_, hi, ?_, ?_⟩
  · unfold caseModule
    rw [init_header]
    simp only [array_line h1, array_line h2, array_line h3, array_line h4, e6, bind, Except.bind, writeFile]
    simp [trieLines]
  · rw [List.reverse_reverse]
    rfl
  · exact serves_of rfl

/-- C132 for the module `CharPropsData.py`. -/
theorem char_values_partial {source b1 b2 b3 b4 v : Str} {fields gields : List Str} {today : String} (hq : Quiet (txt today))
    (h1 : DefinesArray source (txt "propsTrie_index") b1) (ht : DefinesTrie source (txt "propsTrie") fields)
    (h2 : DefinesArray source (txt "propsVectorsTrie_index") b2) (hu : DefinesTrie source (txt "propsVectorsTrie") gields)
    (h3 : DefinesArray source (txt "propsVectors") b3) (hv : DefinesScalar source (txt "propsVectorsColumns") v)
    (h4 : DefinesArray source (txt "scriptExtensions") b4)
    {v3 v5 v6 v9 v10 w3 w5 w6 w9 w10 : Str} (f3 : fields[3]? = some v3) (f5 : fields[5]? = some v5) (f6 : fields[6]? = some v6)
    (f9 : fields[9]? = some v9) (f10 : fields[10]? = some v10) (g3 : gields[3]? = some w3) (g5 : gields[5]? = some w5)
    (g6 : gields[6]? = some w6) (g9 : gields[9]? = some w9) (g10 : gields[10]? = some w10)
    {l1 l2 l3 l4 : List Nat} (n1 : Elements b1 l1) (n2 : Elements b2 l2) (n3 : Elements b3 l3) (n4 : Elements b4 l4) {x : Nat} (y : Value v x)
    {x3 x5 x6 x9 x10 : Nat} (y3 : Value v3 x3) (y5 : Value v5 x5) (y6 : Value v6 x6) (y9 : Value v9 x9) (y10 : Value v10 x10)
    {z3 z5 z6 z9 z10 : Nat} (u3 : Value w3 z3) (u5 : Value w5 z5) (u6 : Value w6 z6) (u9 : Value w9 z9) (u10 : Value w10 z10) :
    ∃ text env, charModule source (txt today) = .ok text ∧ importModule text = .ok env ∧
      env.reverse = [(txt "propsTrie_index", .list l1)] ++ trieConstants (txt "propsTrie") x3 x5 x6 x9 x10 ++
        [(txt "propsVectorsTrie_index", .list l2)] ++ trieConstants (txt "propsVectorsTrie") z3 z5 z6 z9 z10 ++
        [(txt "propsVectors", .list l3), (txt "propsVectorsColumns", .int x), (txt "scriptExtensions", .list l4)] ∧
      Serves env (txt "propsTrie_index") (txt "propsTrie") (trieWritten l1 x3 x5 x6 x9 x10) ∧
      Serves env (txt "propsVectorsTrie_index") (txt "propsVectorsTrie") (trieWritten l2 z3 z5 z6 z9 z10) := by
  have t1 := fun ls => trie_values (b := ⟨source, ls⟩) (pre := txt "propsTrie") ht f3 f5 f6 f9 f10
  have t2 := fun ls => trie_values (b := ⟨source, ls⟩) (pre := txt "propsVectorsTrie") hu g3 g5 g6 g9 g10
  have s1 := fun ls => scalar_partial (b := ⟨source, ls⟩) hv
  have hn : 10 ∉ v := by
    obtain ⟨_, _, _, _, _, h, _⟩ := hv
    exact h
  have hi := import_built (m := "CharPropsData.py") (f := "uchar_props_data.h") (by decide) (by decide) hq
    (lines := [arrLine (txt "propsTrie_index") b1] ++ (trieLines (txt "propsTrie") v3 v5 v6 v9 v10 ++
      ([arrLine (txt "propsVectorsTrie_index") b2] ++ (trieLines (txt "propsVectorsTrie") w3 w5 w6 w9 w10 ++
      ([arrLine (txt "propsVectors") b3] ++ ([txt "propsVectorsColumns" ++ txt " = " ++ v ++ txt "\n"] ++
      [txt "scriptExtensions" ++ txt " = [" ++ formatArray b4 ++ txt "]"]))))))
    (ps := [.array (txt "propsTrie_index") (formatArray b1) l1, .blank] ++ (triePieces (txt "propsTrie") v3 v5 v6 v9 v10 x3 x5 x6 x9 x10 ++
      ([.blank] ++ [.array (txt "propsVectorsTrie_index") (formatArray b2) l2, .blank] ++
      (triePieces (txt "propsVectorsTrie") w3 w5 w6 w9 w10 z3 z5 z6 z9 z10 ++
      ([.blank] ++ [.array (txt "propsVectors") (formatArray b3) l3, .blank] ++ ([.scalar (txt "propsVectorsColumns") v x, .blank] ++
      [.array (txt "scriptExtensions") (formatArray b4) l4]))))))
    (by
      simp only [triePieces, List.cons_append, List.nil_append, List.forall_mem_cons, List.not_mem_nil, false_imp_iff, implies_true, and_true]
      exact ⟨array_ok n1 (by decide), trivial, scalar_ok y3 (by decide), scalar_ok y5 (by decide), scalar_ok y6 (by decide), scalar_ok y9 (by decide),
        scalar_ok y10 (by decide), trivial, array_ok n2 (by decide), trivial, scalar_ok u3 (by decide), scalar_ok u5 (by decide),
        scalar_ok u6 (by decide), scalar_ok u9 (by decide), scalar_ok u10 (by decide), trivial, array_ok n3 (by decide), trivial,
        ⟨by decide, by decide, y, hn⟩, trivial, array_ok n4 (by decide)⟩)
    (by
      rw [trieLines_last, trieLines_last (txt "propsVectorsTrie")]
      simp only [List.flatMap_append, array_text, trie_text, blank_text, scalar_text, last_text, ended_append, List.append_assoc])
  refine ⟨_, _, ?_, hi, ?_, ?_, ?_⟩
  · unfold charModule
    rw [init_header]
    simp only [array_line h1, array_line h2, array_line h3, array_line h4, t1, t2, s1, bind, Except.bind, writeFile]
    rw [join_ended]
    have : ∀ (a : List Str) (b : Str), join (txt "\n") (a ++ [b ++ txt "\n"]) = ended (a ++ [b]) := by
      intro a b
      rw [← join_ended]
      induction a with
      | nil => simp [join, List.intercalate, List.intersperse, txt]
      | cons c a ih => 
        cases a with
        | nil => simp [join, List.intercalate, List.intersperse, txt]
        | cons d a =>
          simp only [join, List.cons_append] at ih ⊢
          rw [List.intercalate_cons_cons, List.intercalate_cons_cons, ih]
    rw [show arrLine (txt "scriptExtensions") b4 = txt "scriptExtensions" ++ txt " = [" ++ formatArray b4 ++ txt "]" ++ txt "\n" by
      simp [arrLine, txt], this]
    simp
  · rw [List.reverse_reverse]
    rfl
  · exact serves_of rfl
  · exact serves_of rfl

/-! ## A source -/

theorem value_hex {a ds : Str} (ha : Space a) (h : ds ≠ []) (hd : ∀ c ∈ ds, c ∈ txt "0123456789abcdefABCDEF") :
    Value (a ++ (48 :: 120 :: ds ++ [])) (ds.foldl (fun n c => n * 16 + hexDigit c) 0) :=
  .mk ha (.hex (by decide) h hd) (by simp [Space])

instance (s : Str) : Decidable (Space s) := by unfold Space; infer_instance

/-- The hypotheses are met by the source `demoBidi`. -/
example : ∃ text env, bidiModule demoBidi (txt "today") = .ok text ∧ importModule text = .ok env ∧
    lookup env (txt "ubidi_props_indexes") = some (.list [16, 2]) ∧ lookup env (txt "ubidi_props_trie_high_start") = some (.int 0x110000) := by
  obtain ⟨h1, h2, h3, h4, h5, ht⟩ := demoBidi_defines
  obtain ⟨text, env, e1, e2, e3, -⟩ := bidi_values_partial (today := "today") (by decide) h1 h2 h3 h4 h5 ht
    (v3 := txt "  12") (v5 := txt "  0x1a0") (v6 := txt "  0xe70") (v9 := txt "  0x110000") (v10 := txt "  0x30f4") rfl rfl rfl rfl rfl
    (l1 := [16, 2]) (l2 := [1, 2]) (l3 := [3]) (l4 := [4]) (l5 := [5])
    (.cons (a := []) (s := txt "0x10") (b := []) (by decide) (.hex (ds := txt "10") (by decide) (by decide) (by decide)) (by decide)
      (.one (a := []) (b := []) (by decide) (.dec 2) (by decide)))
    (.cons (a := txt "\n") (b := []) (by decide) (.dec 1) (by decide) (.one (a := []) (b := txt "\n") (by decide) (.dec 2) (by decide)))
    (.one (a := txt "\n") (b := txt "\n") (by decide) (.dec 3) (by decide)) (.one (a := txt "\n") (b := txt "\n") (by decide) (.dec 4) (by decide))
    (.one (a := txt "\n") (b := txt "\n") (by decide) (.dec 5) (by decide))
    (.mk (a := txt "  ") (b := []) (by decide) (.dec 12) (by decide)) (value_hex (a := txt "  ") (ds := txt "1a0") (by decide) (by decide) (by decide))
    (value_hex (a := txt "  ") (ds := txt "e70") (by decide) (by decide) (by decide))
    (value_hex (a := txt "  ") (ds := txt "110000") (by decide) (by decide) (by decide))
    (value_hex (a := txt "  ") (ds := txt "30f4") (by decide) (by decide) (by decide))
  refine ⟨text, env, e1, e2, ?_, ?_⟩
  · rw [← List.reverse_reverse env, e3]; decide +kernel
  · rw [← List.reverse_reverse env, e3]; decide +kernel

theorem get_list (a : Arr) (i : Nat) : (Arr.ofList ((List.range a.size).map a.at')).get i = a.get i := by
  unfold Arr.get Arr.ofList
  simp only [List.length_map, List.length_range]
  split
  · rename_i h
    simp [List.getD_eq_getElem?_getD, h]
  · rfl

/-- Any function is stored by the trie written in some source, as `Serves` demands. -/
example (f : Nat → Nat) (err : Nat) : ∃ l a b c d e, Represents (trieWritten l a b c d e) f err := by
  have h := (UTrie2.Props.get_build f err).1
  refine ⟨(List.range (Spec.build f err).index.size).map (Spec.build f err).index.at', (Spec.build f err).indexLength,
    (Spec.build f err).index2NullOffset, (Spec.build f err).dataNullOffset, (Spec.build f err).highStart, (Spec.build f err).highValueIndex, ?_⟩
  constructor
  · intro b hb hb'
    simpa only [BlockAt, trieWritten, get_list] using h.bmp b hb hb'
  · intro k hk
    simpa only [BlockAt, trieWritten, get_list] using h.lead k hk
  · intro g h1 h2 h3
    simpa only [BlockAt, trieWritten, get_list] using h.supp g h1 h2 h3
  · intro c h1 h2 h3
    simpa only [trieWritten, get_list] using h.high c h1 h2 h3
  · simpa only [trieWritten, get_list] using h.error
  · exact h.aligned

/-! ## Other ways to write numbers -/

/-- The module for the definition of `a` in `source`, imported. -/
def importArray (source : String) : Py (List (Str × Val)) := do
  let b ← arrayToPython ⟨txt source, []⟩ (txt "a")
  importModule (writeFile b)

/-- C132 fails for other numbers: the text of the initialiser is copied, and a number of C in octal or with a suffix is none in Python, so
that the module cannot be imported. -/
theorem octal_refuted : importArray "int a[2]={010,1};\n" = .error .valueError ∧ importArray "int a[2]={1u,2};\n" = .error .valueError ∧
    importArray "int a[2]={8,1};\n" = .ok [(txt "a", .list [8, 1])] := by decide +kernel

end Verif.ModuleValues

import Verif.Lemmas.RunRange
import Verif.Lemmas.RunChar
import Verif.Lemmas.RunUtilities
/-! # `AlgorithmicRange.getName`, `CharNames.getCharCat`, `getCharCatName` and `getCharName`, executed from the text of CharNames.py -/
namespace Verif.PyRun.Names
open Verif.PySyntax Verif.Library Verif.Data
open Verif.CharNames (AlgorithmicRange)
set_option maxRecDepth 4000

variable {w : World} {N : Verif.CharNames.Names}

theorem word_code : word [99, 111, 100, 101] = n% "code" := by decide
theorem word_cls : word [99, 108, 115] = n% "cls" := by decide
theorem word_getCharCatName : word [103, 101, 116, 67, 104, 97, 114, 67, 97, 116, 78, 97, 109, 101] = n% "getCharCatName" := by decide

theorem fstr4 (call : Call) {env : Env} {c : Nat} (h : getVar (n% "code") env = some (.int c)) :
    formats w call env 11 [123, 99, 111, 100, 101, 58, 48, 52, 88, 125] = .ok (paddedHex 4 c) := by
  simp only [formats, format, upTo, Nat.reduceEqDiff, ↓reduceIte, word_code, h, hexFormat_eq, bind, Except.bind, true_or, Nat.reduceSub, List.append_nil]

theorem fstr5 (call : Call) {env : Env} {c : Nat} (h : getVar (n% "code") env = some (.int c)) :
    formats w call env 11 [123, 99, 111, 100, 101, 58, 48, 53, 88, 125] = .ok (paddedHex 5 c) := by
  simp only [formats, format, upTo, Nat.reduceEqDiff, ↓reduceIte, word_code, h, hexFormat_eq, bind, Except.bind, true_or, false_or, Nat.reduceSub, List.append_nil]

theorem fstr6 (call : Call) {env : Env} {c : Nat} (h : getVar (n% "code") env = some (.int c)) :
    formats w call env 11 [123, 99, 111, 100, 101, 58, 48, 54, 88, 125] = .ok (paddedHex 6 c) := by
  simp only [formats, format, upTo, Nat.reduceEqDiff, ↓reduceIte, word_code, h, hexFormat_eq, bind, Except.bind, false_or, Nat.reduceSub, List.append_nil]

theorem extended_fstr (call : Call) {env : Env} {c : Nat} {v : Val} (h : getVar (n% "code") env = some (.int c)) (h' : getVar (n% "cls") env = some v) {x : Py Str}
    (hx : callMethod w call v (n% "getCharCatName") (.cons (.int c) .nil) = lift (x.map .str)) :
    formats w call env 40 [60, 123, 99, 108, 115, 46, 103, 101, 116, 67, 104, 97, 114, 67, 97, 116, 78, 97, 109, 101, 40, 99, 111, 100, 101, 41, 125, 45, 123, 99, 111, 100, 101, 58, 48, 52, 88, 125, 62] =
      lift (x.map fun t => [60] ++ t ++ [45] ++ paddedHex 4 c ++ [62]) := by
  cases x with
  | error e =>
    simp only [formats, format, upTo, Nat.reduceEqDiff, ↓reduceIte, word_code, word_cls, word_getCharCatName, h, h', hx, bind, Except.bind, Except.map, lift]
  | ok t =>
    simp only [formats, format, upTo, Nat.reduceEqDiff, ↓reduceIte, word_code, word_cls, word_getCharCatName, h, h', hx, hexFormat_eq, bind, Except.bind, Except.map, lift, true_or, Nat.reduceSub,
      List.append_assoc, List.cons_append, List.nil_append]

theorem getName_run (H : Imported w N) {n : Nat} (r : AlgorithmicRange) (c ch : Nat) (hc : r.start ≤ c) :
    callMethod w (run w (n + 2)) (rangeObject r) (n% "getName") (.cons (.int c) (.cons (.int ch) .nil)) = lift ((r.getName c ch).map .str) := by
  rw [range_call (Names.getName H), AlgorithmicRange.getName]
  by_cases h01 : ch ≠ 0 ∧ ch ≠ 2
  · rw [if_pos (show ch ≠ Verif.CharNames.U_UNICODE_CHAR_NAME ∧ ch ≠ Verif.CharNames.U_EXTENDED_CHAR_NAME from h01)]
    py_run [Syntax.CharNames.AlgorithmicRange.getName, Names.U_UNICODE_CHAR_NAME H, Names.U_EXTENDED_CHAR_NAME H, decide_eq_false h01.1, decide_eq_false h01.2, Bool.not_false, Bool.and_self, Except.map]
  · rw [if_neg (show ¬(ch ≠ Verif.CharNames.U_UNICODE_CHAR_NAME ∧ ch ≠ Verif.CharNames.U_EXTENDED_CHAR_NAME) from h01)]
    have d : (!decide (ch = 0) && !decide (ch = 2)) = false := by
      by_cases h0 : ch = 0
      · rw [decide_eq_true h0]; rfl
      · by_cases h2 : ch = 2
        · rw [decide_eq_true h2, Bool.not_true, Bool.and_false]
        · exact absurd ⟨h0, h2⟩ h01
    by_cases k0 : r.kind = 0
    · rw [if_pos k0]
      have hv : getVar (n% "code") [(n% "self", rangeObject r), (n% "code", .int c), (n% "nameChoice", .int ch), (n% "name", .str r.string), (n% "digits", .int r.variant)] = some (.int c) := by
        simp only [getVar, Nat.reduceEqDiff, ↓reduceIte]
      by_cases v4 : r.variant = 4
      · rw [if_pos v4]
        py_run [Syntax.CharNames.AlgorithmicRange.getName, Names.U_UNICODE_CHAR_NAME H, Names.U_EXTENDED_CHAR_NAME H, d, type_field, decide_eq_true k0, string_field, variant_field, decide_eq_true v4,
          List.length_cons, List.length_nil, fstr4 _ hv, List.nil_append, Except.map]
      · rw [if_neg v4]
        by_cases v5 : r.variant = 5
        · rw [if_pos v5]
          py_run [Syntax.CharNames.AlgorithmicRange.getName, Names.U_UNICODE_CHAR_NAME H, Names.U_EXTENDED_CHAR_NAME H, d, type_field, decide_eq_true k0, string_field, variant_field, decide_eq_false v4,
            decide_eq_true v5, List.length_cons, List.length_nil, fstr5 _ hv, List.nil_append, Except.map]
        · rw [if_neg v5]
          py_run [Syntax.CharNames.AlgorithmicRange.getName, Names.U_UNICODE_CHAR_NAME H, Names.U_EXTENDED_CHAR_NAME H, d, type_field, decide_eq_true k0, string_field, variant_field, decide_eq_false v4,
            decide_eq_false v5, List.length_cons, List.length_nil, fstr6 _ hv, List.nil_append, Except.map]
    · rw [if_neg k0]
      by_cases k1 : r.kind = 1
      · rw [if_pos k1]
        have q := factorSuffix_run H (n := n) r c hc
        py_run [Syntax.CharNames.AlgorithmicRange.getName, Names.U_UNICODE_CHAR_NAME H, Names.U_EXTENDED_CHAR_NAME H, d, type_field, decide_eq_false k0, decide_eq_true k1, q]
        cases r.factorSuffix c <;> rfl
      · rw [if_neg k1]
        py_run [Syntax.CharNames.AlgorithmicRange.getName, Names.U_UNICODE_CHAR_NAME H, Names.U_EXTENDED_CHAR_NAME H, d, type_field, decide_eq_false k0, decide_eq_false k1, Except.map]

/-- A function of another module. -/
theorem other_call {m m' m'' f : Nat} {d b : Stmt} {x : Nat} {ps : Expr} (h : w.find m 0 f = fnOf m'' d) (h' : w.find m' 0 f = fnOf m'' d) (hd : d = .defn x ps b) (call : Call) (a : Val) :
    callName w call m f a = callName w call m' f a := by
  rw [fn_call h hd, fn_call h' hd]

/-- A world with all that CharNames.py uses. -/
structure Complete (w : World) (N : Verif.CharNames.Names) : Prop where
  names : Imported w N
  char : CharProps.Imported w
  utilities : w.scope (n% "Utilities") = PyRun.utilities

theorem getCharCat_run (H : Complete w N) (c n : Nat) : callMethod w (run w (n + 5)) (.cls (n% "CharNames") (n% "CharNames")) (n% "getCharCat") (.cons (.int c) .nil) =
    lift ((Verif.CharNames.getCharCat c).map fun (e : Nat) => .int (e : Int)) := by
  have q1 := (other_call (Names.isUnicodeNoncharacter H.names) ((Utilities.found H.utilities _).trans Utilities.facts.1) rfl (run w (n + 4)) (.cons (.int c) .nil)).trans
    (Utilities.isUnicodeNoncharacter_run H.utilities c (n + 3))
  have q2 := (other_call (Names.isLead H.names) ((Utilities.found H.utilities _).trans Utilities.facts.2.2.2.2.1) rfl (run w (n + 4)) (.cons (.int c) .nil)).trans
    (Utilities.isLead_run H.utilities c (n + 3))
  have q3 := (other_call (Names.getGeneralCategory H.names) (CharProps.Names.getGeneralCategory H.char) rfl (run w (n + 4)) (.cons (.int c) .nil)).trans
    (CharProps.getGeneralCategory_run H.char c n)
  rw [cls_call (Names.getCharCat H.names)]
  unfold Verif.CharNames.getCharCat
  by_cases h1 : Verif.Utilities.isUnicodeNoncharacter c = true
  · rw [if_pos h1]
    py_run [clsFnOf, Syntax.CharNames.CharNames.getCharCat, q1, h1, Names.GC_NONCHARACTER_CODEPOINT H.names, Except.map]
    rfl
  · rw [if_neg h1]
    have h1 := Bool.eq_false_iff.2 h1
    cases hg : Verif.Char.getGeneralCategory c with
    | error e => py_run [clsFnOf, Syntax.CharNames.CharNames.getCharCat, q1, h1, q3, hg, Except.map]
    | ok g =>
      by_cases h2 : g = 18
      · cases h3 : Verif.Utilities.isLead c
        · py_run [clsFnOf, Syntax.CharNames.CharNames.getCharCat, q1, h1, q2, h3, q3, hg, decide_eq_true h2, Names.GC_SURROGATE H.names, Names.GC_TRAIL_SURROGATE H.names, Except.map]
          rw [if_pos (show g = Verif.CharNames.GC_SURROGATE from h2)]; rfl
        · py_run [clsFnOf, Syntax.CharNames.CharNames.getCharCat, q1, h1, q2, h3, q3, hg, decide_eq_true h2, Names.GC_SURROGATE H.names, Names.GC_LEAD_SURROGATE H.names, Except.map]
          rw [if_pos (show g = Verif.CharNames.GC_SURROGATE from h2)]; rfl
      · py_run [clsFnOf, Syntax.CharNames.CharNames.getCharCat, q1, h1, q3, hg, decide_eq_false h2, Names.GC_SURROGATE H.names, Except.map]
        rw [if_neg (show ¬g = Verif.CharNames.GC_SURROGATE from h2)]

theorem getCharCatName_run (H : Complete w N) (c n : Nat) : callMethod w (run w (n + 6)) (.cls (n% "CharNames") (n% "CharNames")) (n% "getCharCatName") (.cons (.int c) .nil) =
    lift ((Verif.CharNames.getCharCatName c).map .str) := by
  have q := getCharCat_run H c n
  rw [cls_call (Names.getCharCatName H.names)]
  unfold Verif.CharNames.getCharCatName
  have hl : ∀ call, callName w call (n% "CharNames") (n% "len") (.cons catNames .nil) = .ok (.int (Verif.CharNames.charCatNames.length : Nat)) := fun call => by
    rw [catNames, len_list H.names, List.length_map]
  cases hg : Verif.CharNames.getCharCat c with
  | error e => py_run [clsFnOf, Syntax.CharNames.CharNames.getCharCatName, q, hg, Except.map]
  | ok g =>
    by_cases h : Verif.CharNames.charCatNames.length ≤ g
    · py_run [clsFnOf, Syntax.CharNames.CharNames.getCharCatName, q, hg, Names.charCatNames H.names, hl, decide_eq_true h, Except.map]
      rw [if_pos h]
      rfl
    · have hi : index w catNames (.int (g : Nat)) = .ok (.str (Verif.CharNames.codes (Verif.CharNames.charCatNames.getD g ""))) := by
        rw [catNames, list_at, List.getD_eq_getElem?_getD, List.getElem?_eq_getElem (Nat.not_le.1 h)]; rfl
      py_run [clsFnOf, Syntax.CharNames.CharNames.getCharCatName, q, hg, Names.charCatNames H.names, hl, decide_eq_false h, hi, Except.map]
      rw [if_neg h]

/-- CharNames.py:450-452 the body of the loop. -/
def rangeBody : Stmt := (.seq (.ifs (.call (.attr (.name (n% "algorithmicRange")) (n% "charInRange")) (.cons (.name (n% "code")) .nil)) (.seq (.ret (.call (.attr (.name (n% "algorithmicRange")) (n% "getName")) (.cons (.name (n% "code")) (.cons (.name (n% "nameChoice")) .nil)))) .skip) .skip) .skip)

theorem getCharName_text : Syntax.CharNames.CharNames.getCharName = (.deco (.name (n% "classmethod")) (.defn (n% "getCharName") (.cons (.name (n% "cls")) (.cons (.name (n% "code")) (.cons (.kwarg (n% "nameChoice") (.name (n% "U_UNICODE_CHAR_NAME"))) .nil))) (.seq (.for (.name (n% "algorithmicRange")) (.attr (.name (n% "cls")) (n% "_algorithmicRanges")) rangeBody) (.seq (.ifs (.bin .eq (.name (n% "nameChoice")) (.name (n% "U_EXTENDED_CHAR_NAME"))) (.seq (.ret (.fstr [60, 123, 99, 108, 115, 46, 103, 101, 116, 67, 104, 97, 114, 67, 97, 116, 78, 97, 109, 101, 40, 99, 111, 100, 101, 41, 125, 45, 123, 99, 111, 100, 101, 58, 48, 52, 88, 125, 62])) .skip) .skip) (.seq (.ret (.call (.attr (.name (n% "CharNames")) (n% "_getName")) (.cons (.name (n% "code")) (.cons (.name (n% "nameChoice")) .nil)))) .skip))))) := rfl

/-- What is known about the variables during the loop. -/
structure Looking (c ch : Nat) (env : Env) : Prop where
  cls : getVar (n% "cls") env = some (.cls (n% "CharNames") (n% "CharNames"))
  code : getVar (n% "code") env = some (.int c)
  choice : getVar (n% "nameChoice") env = some (.int ch)
  extended : getVar (n% "U_EXTENDED_CHAR_NAME") env = none
  names : getVar (n% "CharNames") env = none

theorem ranges_run (H : Imported w N) {n fuel c ch : Nat} : ∀ (l : List AlgorithmicRange) {env : Env}, Looking c ch env →
    match l.find? (·.charInRange c) with
    | some r =>
      match r.getName c ch with
      | .error e => each (.name (n% "algorithmicRange")) (exec w (run w (n + 2)) fuel (n% "CharNames") rangeBody) (l.map rangeObject) (env, []) = .error (.raised e)
      | .ok s => ∃ env', each (.name (n% "algorithmicRange")) (exec w (run w (n + 2)) fuel (n% "CharNames") rangeBody) (l.map rangeObject) (env, []) = .ok (.ret (.str s), (env', []))
    | none => ∃ env', each (.name (n% "algorithmicRange")) (exec w (run w (n + 2)) fuel (n% "CharNames") rangeBody) (l.map rangeObject) (env, []) = .ok (.next, (env', [])) ∧ Looking c ch env' := by
  intro l
  induction l with
  | nil => intro env h; exact ⟨env, rfl, h⟩
  | cons r l ih =>
    intro env h
    have q := charInRange_run H (n := n + 1) r c
    have h' : Looking c ch (setVar (n% "algorithmicRange") (rangeObject r) env) := by
      constructor <;> simp only [getVar_setVar, Nat.reduceEqDiff, ↓reduceIte, h.cls, h.code, h.choice, h.extended, h.names]
    rw [List.find?_cons]
    cases hr : r.charInRange c with
    | true =>
      rw [hr] at q
      have hc : r.start ≤ c := (of_decide_eq_true (show decide (r.start ≤ c ∧ c < r.stop) = true from hr)).1
      have q' := getName_run H (n := n) r c ch hc
      dsimp only
      cases hs : r.getName c ch with
      | error e =>
        show each _ _ _ _ = .error (.raised e)
        rw [List.map_cons, each]
        py_run [rangeBody, getVar_setVar, h.code, h.choice, q, q', hs, Except.map]
      | ok s =>
        refine ⟨setVar (n% "algorithmicRange") (rangeObject r) env, ?_⟩
        rw [List.map_cons, each]
        py_run [rangeBody, getVar_setVar, h.code, h.choice, q, q', hs, Except.map]
    | false =>
      rw [hr] at q
      have e' : each (.name (n% "algorithmicRange")) (exec w (run w (n + 2)) fuel (n% "CharNames") rangeBody) ((r :: l).map rangeObject) (env, []) =
          each (.name (n% "algorithmicRange")) (exec w (run w (n + 2)) fuel (n% "CharNames") rangeBody) (l.map rangeObject) (setVar (n% "algorithmicRange") (rangeObject r) env, []) := by
        rw [List.map_cons, each]
        py_run [rangeBody, getVar_setVar, h.code, q]
      rw [e']
      exact ih h'

theorem getCharName_run (H : Complete w N) {n : Nat} (S : Sized N n) (c ch : Nat) :
    callMethod w (run w (n + 8)) (.cls (n% "CharNames") (n% "CharNames")) (n% "getCharName") (.cons (.int c) (.cons (.int ch) .nil)) = lift ((N.getCharName c ch).map .str) := by
  rw [cls_call (Names.getCharName H.names), Verif.CharNames.Names.getCharName]
  have ha : attr w (.cls (n% "CharNames") (n% "CharNames")) (n% "_algorithmicRanges") = .ok (.list (chain (N.ranges.map rangeObject))) := by
    simp only [attr, H.names.ranges]
  have hb : yields rangeBody = false := rfl
  have q := ranges_run H.names (n := n + 5) (fuel := n + 7) (c := c) (ch := ch) N.ranges (env := [(n% "cls", .cls (n% "CharNames") (n% "CharNames")), (n% "code", .int c), (n% "nameChoice", .int ch)])
    (by constructor <;> simp only [getVar, Nat.reduceEqDiff, ↓reduceIte])
  cases hr : N.ranges.find? (·.charInRange c) with
  | some r =>
    rw [hr] at q
    dsimp only at q ⊢
    cases hs : r.getName c ch with
    | error e =>
      rw [hs] at q
      py_run [clsFnOf, getCharName_text, hb, ha, iter, elems_chain, show _ = _ from q, Except.map]
    | ok s =>
      rw [hs] at q
      obtain ⟨env', q⟩ := show ∃ env', _ from q
      py_run [clsFnOf, getCharName_text, hb, ha, iter, elems_chain, q, Except.map]
  | none =>
    rw [hr] at q
    obtain ⟨env', q, h⟩ := show ∃ env', _ from q
    dsimp only
    by_cases h2 : ch = 2
    · rw [if_pos (show ch = Verif.CharNames.U_EXTENDED_CHAR_NAME from h2)]
      have q' := extended_fstr (w := w) (run w (n + 7)) h.code h.cls (getCharCatName_run H c (n + 1))
      py_run [clsFnOf, getCharName_text, hb, ha, iter, elems_chain, q, h.choice, h.extended, Names.U_EXTENDED_CHAR_NAME H.names, decide_eq_true h2, List.length_cons, List.length_nil, q', Except.map]
      cases Verif.CharNames.getCharCatName c with
      | error e => rfl
      | ok t => rfl
    · rw [if_neg (show ¬ch = Verif.CharNames.U_EXTENDED_CHAR_NAME from h2)]
      have q' := groupName_run H.names (n := n + 4) ⟨S.strings, Nat.lt_add_right 4 S.tokens, Nat.lt_add_right 4 S.groups, fun g hg s hs => ⟨(S.group g hg s hs).1, Nat.lt_add_right 4 (S.group g hg s hs).2⟩⟩ c ch
      py_run [clsFnOf, getCharName_text, hb, ha, iter, elems_chain, q, h.choice, h.code, h.names, h.extended, Names.U_EXTENDED_CHAR_NAME H.names, Names.CharNamesClass H.names, decide_eq_false h2, q']
      cases N.groupName c ch <;> rfl

/-- `nameChoice` is `U_UNICODE_CHAR_NAME` unless a call gives another one. -/
theorem getCharName_default (H : Complete w N) {n : Nat} (S : Sized N n) (c : Nat) :
    callMethod w (run w (n + 8)) (.cls (n% "CharNames") (n% "CharNames")) (n% "getCharName") (.cons (.int c) .nil) = lift ((N.getCharName c 0).map .str) := by
  rw [← getCharName_run H S, cls_call (Names.getCharName H.names), cls_call (Names.getCharName H.names)]
  have hb : yields rangeBody = false := rfl
  py_run [clsFnOf, getCharName_text, hb, Names.U_UNICODE_CHAR_NAME H.names]

end Verif.PyRun.Names

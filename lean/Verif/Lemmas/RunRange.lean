import Verif.Lemmas.RunCharName
/-! # `AlgorithmicRange.charInRange`, `factorSuffix` and `getName`, executed from the text of CharNames.py -/
namespace Verif.PyRun.Names
open Verif.PySyntax Verif.Library Verif.Data
open Verif.CharNames (AlgorithmicRange splitCode appendElements)
set_option maxRecDepth 4000

variable {w : World} {N : Verif.CharNames.Names}

theorem hexDigits_eq (f n : Nat) (s : Str) : hexDigits f n s = hexLoop f n ++ s := by
  induction f generalizing n s with
  | zero => rfl
  | succ f ih =>
    rw [hexDigits, hexLoop]
    by_cases h : n < 16
    · rw [if_pos h, if_pos h]; rfl
    · rw [if_neg h, if_neg h, ih, List.append_assoc]; rfl

theorem hexFormat_eq (k n : Nat) : hexFormat k (n : Int) = paddedHex k n := by
  rw [hexFormat, if_pos (Int.natCast_nonneg n), Int.toNat_natCast, hexDigits_eq, List.append_nil]; rfl

section
variable (r : AlgorithmicRange)
theorem type_field : attr w (rangeObject r) (n% "type") = .ok (.int r.kind) := rfl
theorem variant_field : attr w (rangeObject r) (n% "variant") = .ok (.int r.variant) := rfl
theorem charRange_field : attr w (rangeObject r) (n% "charRange") = .ok (.range r.start r.stop) := rfl
theorem string_field : attr w (rangeObject r) (n% "string") = .ok (.str r.string) := rfl
theorem factors_field : attr w (rangeObject r) (n% "factors") = .ok (numbers r.factors) := rfl
theorem elements_field : attr w (rangeObject r) (n% "elements") = .ok (.list (chain (r.elements.map .str))) := rfl
theorem start_field (a b : Int) : attr w (.range a b) (n% "start") = .ok (.int a) := rfl
end

theorem range_call {f m : Nat} {d : Stmt} (h : w.find (n% "CharNames") (n% "AlgorithmicRange") f = fnOf m d) (call : Call) (r : AlgorithmicRange) (a : Val) :
    callMethod w call (rangeObject r) f a = match fnOf m d with
      | some (.fn m ps b false) => (call m ps b (.cons (rangeObject r) a)).map Prod.fst
      | some (.fn m ps b true) => (call m ps b (.cons (.cls (n% "CharNames") (n% "AlgorithmicRange")) a)).map Prod.fst
      | _ => .error .stuck := by
  rw [rangeObject, callMethod, h]; rfl

theorem charInRange_run (H : Imported w N) {n : Nat} (r : AlgorithmicRange) (c : Nat) :
    callMethod w (run w (n + 1)) (rangeObject r) (n% "charInRange") (.cons (.int c) .nil) = .ok (.bool (r.charInRange c)) := by
  rw [range_call (Names.charInRange H)]
  py_run [Syntax.CharNames.AlgorithmicRange.charInRange, charRange_field, Except.map]
  rw [AlgorithmicRange.charInRange, Bool.decide_and]

theorem fmod_nat (a b : Nat) : Int.fmod (a : Int) (b : Int) = ((a % b : Nat) : Int) := by
  rw [Int.fmod_eq_emod_of_nonneg _ (by omega)]; rfl

theorem fdiv_nat (a b : Nat) : Int.fdiv (a : Int) (b : Int) = ((a / b : Nat) : Int) := by
  rw [Int.fdiv_eq_ediv_of_nonneg _ (by omega)]; rfl

/-- Numbers as a list. -/
def ints (l : List Nat) : Val := .list (chain (l.map fun (n : Nat) => .int (n : Int)))

/-- CharNames.py:314-316 the body of the first loop. -/
def splitBody : Stmt := (.seq (.assign (.name (n% "factor")) (.index (.attr (.name (n% "self")) (n% "factors")) (.name (n% "i")))) (.seq (.expr (.call (.attr (.name (n% "indexes")) (n% "insert")) (.cons (.num 0) (.cons (.bin .mod (.name (n% "code")) (.name (n% "factor"))) .nil)))) (.seq (.aug .floorDiv (.name (n% "code")) (.name (n% "factor"))) .skip)))

/-- CharNames.py:321-324 the body of the second loop. -/
def suffixBody : Stmt := (.seq (.aug .add (.name (n% "elementIndex")) (.index (.name (n% "indexes")) (.name (n% "i")))) (.seq (.aug .add (.name (n% "suffix")) (.index (.attr (.name (n% "self")) (n% "elements")) (.name (n% "elementIndex")))) (.seq (.aug .add (.name (n% "elementIndex")) (.bin .sub (.index (.attr (.name (n% "self")) (n% "factors")) (.name (n% "i"))) (.index (.name (n% "indexes")) (.name (n% "i"))))) .skip)))

/-- What is known about the variables during the first loop. -/
structure Splitting (r : AlgorithmicRange) (c : Nat) (idx : List Nat) (env : Env) : Prop where
  self : getVar (n% "self") env = some (rangeObject r)
  code : getVar (n% "code") env = some (.int c)
  indexes : getVar (n% "indexes") env = some (ints idx)
  suffix : getVar (n% "suffix") env = some (.str r.string)
  count : getVar (n% "count") env = some (.int ((r.factors.length : Nat) - ((1 : Nat) : Int)))
  range : getVar (n% "range") env = none

theorem splitCode_snoc (a : List Nat) (f c : Nat) : splitCode (a ++ [f]) c = if f = 0 then .error .zeroDivisionError else
    (splitCode a (c / f)).map fun p => (p.1, p.2 ++ [c % f]) := by
  induction a with
  | nil =>
    rw [List.nil_append, splitCode, splitCode, splitCode]
    by_cases h : f = 0
    · rw [if_pos h]; simp only [bind, Except.bind, h, ↓reduceIte]
    · rw [if_neg h]; simp only [bind, Except.bind, h, ↓reduceIte]; rfl
  | cons g a ih =>
    rw [List.cons_append, splitCode, ih, splitCode]
    by_cases h : f = 0
    · rw [if_pos h, if_pos h]; rfl
    · rw [if_neg h, if_neg h]
      cases splitCode a (c / f) with
      | error e => rfl
      | ok p =>
        simp only [bind, Except.bind, Except.map]
        by_cases hg : g = 0
        · rw [if_pos hg, if_pos hg]
        · rw [if_neg hg, if_neg hg]; rfl

theorem split_run {n fuel : Nat} {r : AlgorithmicRange} : ∀ (j : Nat) {c : Nat} {idx : List Nat} {env : Env}, Splitting r c idx env → j + 1 ≤ r.factors.length →
    match splitCode ((r.factors.drop 1).take j) c with
    | .error e => each (.name (n% "i")) (exec w (run w n) fuel (n% "CharNames") splitBody) (steps (j : Nat) (-((1 : Nat) : Int)) j) (env, []) = .error (.raised e)
    | .ok (c', ia) => ∃ env', each (.name (n% "i")) (exec w (run w n) fuel (n% "CharNames") splitBody) (steps (j : Nat) (-((1 : Nat) : Int)) j) (env, []) = .ok (.next, (env', [])) ∧
        Splitting r c' (ia ++ idx) env' := by
  intro j
  induction j with
  | zero => intro c idx env h _; exact ⟨env, rfl, h⟩
  | succ j ih =>
    intro c idx env h hj
    have hg : (r.factors.drop 1)[j]? = r.factors[j + 1]? := by rw [List.getElem?_drop, Nat.add_comm]
    obtain ⟨f, hf⟩ : ∃ f, r.factors[j + 1]? = some f := ⟨_, List.getElem?_eq_getElem (by omega)⟩
    rw [List.take_add_one, hg, hf, Option.toList_some, splitCode_snoc]
    have e : ((j + 1 : Nat) : Int) + -((1 : Nat) : Int) = (j : Nat) := by omega
    by_cases h0 : f = 0
    · rw [if_pos h0]
      have d0 : (f : Int) = 0 := by omega
      show each _ _ _ _ = .error (.raised .zeroDivisionError)
      rw [steps, each]
      py_run [splitBody, getVar_setVar, h.self, h.indexes, h.code, factors_field, numbers_at, hf, ints, d0]
    · rw [if_neg h0]
      have d0 : ¬(f : Int) = 0 := by omega
      have i := ih (c := c / f) (idx := c % f :: idx) (env := setVar (n% "code") (.int (c / f : Nat)) (setVar (n% "indexes") (ints (c % f :: idx))
        (setVar (n% "factor") (.int f) (setVar (n% "i") (.int (j + 1 : Nat)) env))))
        (by constructor <;> simp only [getVar_setVar, Nat.reduceEqDiff, ↓reduceIte, h.self, h.suffix, h.count, h.range]) (by omega)
      have e' : each (.name (n% "i")) (exec w (run w n) fuel (n% "CharNames") splitBody) (steps (j + 1 : Nat) (-((1 : Nat) : Int)) (j + 1)) (env, []) = each (.name (n% "i")) (exec w (run w n) fuel (n% "CharNames") splitBody) (steps (j : Nat) (-((1 : Nat) : Int)) j)
            (setVar (n% "code") (.int (c / f : Nat)) (setVar (n% "indexes") (ints (c % f :: idx))
            (setVar (n% "factor") (.int f) (setVar (n% "i") (.int (j + 1 : Nat)) env))), []) := by
        rw [steps, each, e]
        py_run [splitBody, getVar_setVar, h.self, h.indexes, h.code, factors_field, numbers_at, hf, ints, d0, fmod_nat, fdiv_nat, List.map_cons, chain]
      rw [e']
      rcases hx : splitCode ((r.factors.drop 1).take j) (c / f) with e | ⟨c', ia⟩
      · rw [hx] at i; exact i
      · rw [hx] at i
        obtain ⟨env', i1, i2⟩ := show ∃ env', _ from i
        exact ⟨env', i1, by rw [List.append_assoc]; exact i2⟩

/-- What is known about the variables during the second loop. -/
structure Appending (r : AlgorithmicRange) (idx : List Nat) (ei : Nat) (s : Str) (env : Env) : Prop where
  self : getVar (n% "self") env = some (rangeObject r)
  indexes : getVar (n% "indexes") env = some (ints idx)
  element : getVar (n% "elementIndex") env = some (.int ei)
  suffix : getVar (n% "suffix") env = some (.str s)

theorem ints_at (l : List Nat) (i : Nat) : index w (ints l) (.int i) = match l[i]? with | some x => .ok (.int x) | none => .error (.raised .indexError) := bytes_at l i

theorem add_sub_nat (a b c : Nat) : ((a + b : Nat) : Int) + ((c : Int) - (b : Int)) = ((a + b + c - b : Nat) : Int) := by omega

theorem append_run {n fuel : Nat} {r : AlgorithmicRange} {idx : List Nat} : ∀ (m k : Nat) {ei : Nat} {s : Str} {env : Env}, Appending r idx ei s env → k + m = r.factors.length →
    match appendElements r.elements (r.factors.drop k) (idx.drop k) ei s with
    | .error e => each (.name (n% "i")) (exec w (run w n) fuel (n% "CharNames") suffixBody) ((List.range' k m).map fun (i : Nat) => .int (i : Int)) (env, []) = .error (.raised e)
    | .ok t => ∃ env', each (.name (n% "i")) (exec w (run w n) fuel (n% "CharNames") suffixBody) ((List.range' k m).map fun (i : Nat) => .int (i : Int)) (env, []) = .ok (.next, (env', [])) ∧
        getVar (n% "suffix") env' = some (.str t) := by
  intro m
  induction m with
  | zero =>
    intro k ei s env h hk
    rw [List.drop_eq_nil_of_le (by omega), appendElements]
    exact ⟨env, rfl, h.suffix⟩
  | succ m ih =>
    intro k ei s env h hk
    obtain ⟨f, hf⟩ : ∃ f, r.factors[k]? = some f := ⟨_, List.getElem?_eq_getElem (by omega)⟩
    obtain ⟨hl, hf'⟩ := List.getElem?_eq_some_iff.1 hf
    rw [List.drop_eq_getElem_cons hl, hf']
    cases hi : idx[k]? with
    | none =>
      rw [List.drop_eq_nil_of_le (List.getElem?_eq_none_iff.1 hi), appendElements]
      show each _ _ _ _ = .error (.raised .indexError)
      rw [List.range'_succ, List.map_cons, each]
      py_run [suffixBody, getVar_setVar, h.element, h.indexes, ints_at, hi]
    | some x =>
      obtain ⟨hl', hi'⟩ := List.getElem?_eq_some_iff.1 hi
      rw [List.drop_eq_getElem_cons hl', hi', appendElements]
      cases he : r.elements[ei + x]? with
      | none =>
        show each _ _ _ _ = .error (.raised .indexError)
        rw [List.range'_succ, List.map_cons, each]
        py_run [suffixBody, getVar_setVar, h.self, h.element, h.indexes, h.suffix, ints_at, hi, elements_field, list_at, he]
      | some t =>
        have i := ih (k + 1) (ei := ei + x + f - x) (s := s ++ t) (env := setVar (n% "elementIndex") (.int (ei + x + f - x : Nat)) (setVar (n% "suffix") (.str (s ++ t))
          (setVar (n% "elementIndex") (.int (ei + x : Nat)) (setVar (n% "i") (.int k) env))))
          (by constructor <;> simp only [getVar_setVar, Nat.reduceEqDiff, ↓reduceIte, h.self, h.indexes]) (by omega)
        have e' : each (.name (n% "i")) (exec w (run w n) fuel (n% "CharNames") suffixBody) ((List.range' k (m + 1)).map fun (i : Nat) => .int (i : Int)) (env, []) =
            each (.name (n% "i")) (exec w (run w n) fuel (n% "CharNames") suffixBody) ((List.range' (k + 1) m).map fun (i : Nat) => .int (i : Int))
              (setVar (n% "elementIndex") (.int (ei + x + f - x : Nat)) (setVar (n% "suffix") (.str (s ++ t))
              (setVar (n% "elementIndex") (.int (ei + x : Nat)) (setVar (n% "i") (.int k) env))), []) := by
          rw [List.range'_succ, List.map_cons, each]
          py_run [suffixBody, getVar_setVar, h.self, h.element, h.indexes, h.suffix, ints_at, hi, elements_field, list_at, he, factors_field, numbers_at, hf, add_sub_nat]
        rw [e']
        exact i

theorem factorSuffix_text : Syntax.CharNames.AlgorithmicRange.factorSuffix = (.defn (n% "factorSuffix") (.cons (.name (n% "self")) (.cons (.name (n% "char")) .nil)) (.seq (.assign (.name (n% "indexes")) (.list .nil)) (.seq (.assign (.name (n% "code")) (.bin .sub (.name (n% "char")) (.attr (.attr (.name (n% "self")) (n% "charRange")) (n% "start")))) (.seq (.assign (.name (n% "suffix")) (.attr (.name (n% "self")) (n% "string"))) (.seq (.assign (.name (n% "count")) (.bin .sub (.call (.name (n% "len")) (.cons (.attr (.name (n% "self")) (n% "factors")) .nil)) (.num 1))) (.seq (.for (.name (n% "i")) (.call (.name (n% "range")) (.cons (.name (n% "count")) (.cons (.num 0) (.cons (.neg (.num 1)) .nil)))) splitBody) (.seq (.expr (.call (.attr (.name (n% "indexes")) (n% "insert")) (.cons (.num 0) (.cons (.name (n% "code")) .nil)))) (.seq (.assign (.name (n% "elementIndex")) (.num 0)) (.seq (.for (.name (n% "i")) (.call (.name (n% "range")) (.cons (.bin .add (.name (n% "count")) (.num 1)) .nil)) suffixBody) (.seq (.ret (.name (n% "suffix"))) .skip)))))))))) := rfl

theorem len_numbers (H : Imported w N) (call : Call) (l : List Nat) : callName w call (n% "CharNames") (n% "len") (.cons (numbers l) .nil) = .ok (.int (l.length : Nat)) := by
  rw [builtin_call (Names.len H)]
  simp only [builtin, numbers, elems_chain, List.length_map, ↓reduceIte]

theorem range_down (H : Imported w N) (call : Call) (l : Nat) : callName w call (n% "CharNames") (n% "range") (.cons (.int ((l : Nat) - ((1 : Nat) : Int))) (.cons (.int ((0 : Nat) : Int))
    (.cons (.int (-((1 : Nat) : Int))) .nil))) = .ok (.list (chain (steps ((l - 1 : Nat) : Int) (-((1 : Nat) : Int)) (l - 1)))) := by
  rw [builtin_call (Names.range H)]
  have e : PyRun.rangeLength ((l : Nat) - ((1 : Nat) : Int)) ((0 : Nat) : Int) (-((1 : Nat) : Int)) = l - 1 := by
    rw [PyRun.rangeLength, if_neg (by decide)]
    simp only [Int.neg_neg, Int.natCast_one, Int.ediv_one]
    omega
  simp only [builtin, ↓reduceIte, e]
  cases l with
  | zero => rfl
  | succ l => rw [sub_one]; rfl

theorem range_up (H : Imported w N) (call : Call) (l : Nat) : callName w call (n% "CharNames") (n% "range") (.cons (.int ((l : Nat) - ((1 : Nat) : Int) + ((1 : Nat) : Int))) .nil) =
    .ok (.range 0 (l : Nat)) := by
  rw [builtin_call (Names.range H), show (l : Nat) - ((1 : Nat) : Int) + ((1 : Nat) : Int) = (l : Nat) by omega]
  simp only [builtin, Nat.reduceEqDiff, ↓reduceIte]

theorem rangeList_eq (l : Nat) : rangeList 0 (l : Nat) = (List.range' 0 l).map fun (i : Nat) => .int (i : Int) := by
  rw [rangeList, Int.sub_zero, Int.toNat_natCast, List.range_eq_range']
  exact List.map_congr_left fun i _ => by rw [Int.zero_add]

theorem char_sub {a b : Nat} (h : b ≤ a) : (a : Int) - (b : Int) = ((a - b : Nat) : Int) := by omega

theorem factorSuffix_run (H : Imported w N) {n : Nat} (r : AlgorithmicRange) (c : Nat) (hc : r.start ≤ c) :
    callMethod w (run w (n + 1)) (rangeObject r) (n% "factorSuffix") (.cons (.int c) .nil) = lift ((r.factorSuffix c).map .str) := by
  rw [range_call (Names.factorSuffix H), AlgorithmicRange.factorSuffix]
  have h : Splitting r (c - r.start) [] [(n% "self", rangeObject r), (n% "char", .int c), (n% "indexes", .list .nil), (n% "code", .int (c - r.start : Nat)), (n% "suffix", .str r.string),
      (n% "count", .int ((r.factors.length : Nat) - ((1 : Nat) : Int)))] := by
    constructor <;> simp only [getVar, Nat.reduceEqDiff, ↓reduceIte, ints, List.map_nil, chain]
  have hb : yields splitBody = false := rfl
  have hb' : yields suffixBody = false := rfl
  have q : match splitCode (r.factors.drop 1) (c - r.start) with
      | .error e => each (.name (n% "i")) (exec w (run w n) n (n% "CharNames") splitBody) (steps ((r.factors.length - 1 : Nat) : Int) (-((1 : Nat) : Int)) (r.factors.length - 1))
          ([(n% "self", rangeObject r), (n% "char", .int c), (n% "indexes", .list .nil), (n% "code", .int (c - r.start : Nat)), (n% "suffix", .str r.string),
            (n% "count", .int ((r.factors.length : Nat) - ((1 : Nat) : Int)))], []) = .error (.raised e)
      | .ok (c', ia) => ∃ env', each (.name (n% "i")) (exec w (run w n) n (n% "CharNames") splitBody) (steps ((r.factors.length - 1 : Nat) : Int) (-((1 : Nat) : Int)) (r.factors.length - 1))
          ([(n% "self", rangeObject r), (n% "char", .int c), (n% "indexes", .list .nil), (n% "code", .int (c - r.start : Nat)), (n% "suffix", .str r.string),
            (n% "count", .int ((r.factors.length : Nat) - ((1 : Nat) : Int)))], []) = .ok (.next, (env', [])) ∧ Splitting r c' ia env' := by
    by_cases h0 : r.factors.length = 0
    · rw [List.eq_nil_of_length_eq_zero h0]
      rw [List.eq_nil_of_length_eq_zero h0] at h
      exact ⟨_, rfl, h⟩
    · have q := split_run (w := w) (n := n) (fuel := n) (r.factors.length - 1) h (by omega)
      rw [List.take_of_length_le (by rw [List.length_drop]; exact Nat.le_refl _)] at q
      simp only [List.append_nil] at q
      exact q
  rcases hx : splitCode (r.factors.drop 1) (c - r.start) with e | ⟨c', ia⟩
  · rw [hx] at q
    py_run [factorSuffix_text, hb, hb', charRange_field, start_field, char_sub hc, string_field, factors_field, len_numbers H, range_down H, iter, elems_chain, show _ = _ from q, Except.map]
  · rw [hx] at q
    obtain ⟨env', q1, q2⟩ := show ∃ env', _ from q
    have q3 := append_run (w := w) (n := n) (fuel := n) (idx := c' :: ia) r.factors.length 0 (ei := 0) (s := r.string) (env := setVar (n% "elementIndex") (.int (0 : Nat))
      (setVar (n% "indexes") (ints (c' :: ia)) env')) (by constructor <;> simp only [getVar_setVar, Nat.reduceEqDiff, ↓reduceIte, q2.self, q2.suffix]) (Nat.zero_add _)
    rw [List.drop_zero, List.drop_zero] at q3
    simp only [ints, List.map_cons, chain] at q3
    have q2i := q2.indexes
    rw [ints] at q2i
    show _ = lift (Except.map _ (appendElements r.elements r.factors (c' :: ia) 0 r.string))
    cases hy : appendElements r.elements r.factors (c' :: ia) 0 r.string with
    | error e =>
      rw [hy] at q3
      py_run [factorSuffix_text, hb, hb', charRange_field, start_field, char_sub hc, string_field, factors_field, len_numbers H, range_down H, range_up H, rangeList_eq, iter, elems_chain, q1,
        getVar_setVar, q2i, q2.code, q2.count, q2.range, show _ = _ from q3, Except.map]
    | ok t =>
      rw [hy] at q3
      obtain ⟨env'', q4, q5⟩ := show ∃ env'', _ from q3
      py_run [factorSuffix_text, hb, hb', charRange_field, start_field, char_sub hc, string_field, factors_field, len_numbers H, range_down H, range_up H, rangeList_eq, iter, elems_chain, q1,
        getVar_setVar, q2i, q2.code, q2.count, q2.range, q4, q5, Except.map]

end Verif.PyRun.Names

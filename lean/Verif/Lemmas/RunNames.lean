import Verif.Lemmas.PyRun
import Verif.Model.NamesProgram
/-! # `Tokens.expandString`, executed from the text of CharNames.py -/
namespace Verif.PyRun.Names
open Verif.PySyntax Verif.Library Verif.Data
open Verif.CharNames (Tokens tokenStep expandLoop)
set_option maxRecDepth 4000

/-- The class method that a statement defines. -/
def clsFnOf (m : Nat) : Stmt → Option Def
  | .deco _ (.defn _ ps b) => some (.fn m ps b true)
  | _ => none

/-- The value of `charCatNames`. -/
def catNames : Val := .list (chain (Verif.CharNames.charCatNames.map fun s => .str (Verif.CharNames.codes s)))

/-- Names of CharNames.py and of its classes, and what they stand for. -/
noncomputable def names : List (Nat × Nat × Option Def) :=
   [(0, n% "CP_SEMICOLON", some (.val (.int (59 : Nat)))),
    (0, n% "U_UNICODE_CHAR_NAME", some (.val (.int (0 : Nat)))),
    (0, n% "U_EXTENDED_CHAR_NAME", some (.val (.int (2 : Nat)))),
    (0, n% "U_ISO_COMMENT", some (.val (.int (4 : Nat)))),
    (0, n% "GROUP_SHIFT", some (.val (.int (5 : Nat)))),
    (0, n% "LINES_PER_GROUP", some (.val (.int (32 : Nat)))),
    (0, n% "GROUP_MASK", some (.val (.int (31 : Nat)))),
    (0, n% "GC_NONCHARACTER_CODEPOINT", some (.val (.int (30 : Nat)))),
    (0, n% "GC_LEAD_SURROGATE", some (.val (.int (31 : Nat)))),
    (0, n% "GC_TRAIL_SURROGATE", some (.val (.int (32 : Nat)))),
    (0, n% "GC_SURROGATE", some (.val (.int (18 : Nat)))),
    (0, n% "len", none),
    (0, n% "chr", none),
    (0, n% "range", none),
    (0, n% "None", none),
    (0, n% "max", none),
    (0, n% "Tokens", some (.cls (n% "CharNames"))),
    (0, n% "CharNames", some (.cls (n% "CharNames"))),
    (0, n% "charCatNames", some (.val catNames)),
    (0, n% "isUnicodeNoncharacter", fnOf (n% "Utilities") Syntax.Utilities.isUnicodeNoncharacter),
    (0, n% "isLead", fnOf (n% "Utilities") Syntax.Utilities.isLead),
    (0, n% "getGeneralCategory", fnOf (n% "CharProps") Syntax.CharProps.getGeneralCategory),
    ((n% "Tokens"), n% "expandString", clsFnOf (n% "CharNames") Syntax.CharNames.Tokens.expandString),
    ((n% "Group"), n% "expandGroupLengths", fnOf (n% "CharNames") Syntax.CharNames.Group.expandGroupLengths),
    ((n% "Group"), n% "expandName", fnOf (n% "CharNames") Syntax.CharNames.Group.expandName),
    ((n% "AlgorithmicRange"), n% "factorSuffix", fnOf (n% "CharNames") Syntax.CharNames.AlgorithmicRange.factorSuffix),
    ((n% "AlgorithmicRange"), n% "getName", fnOf (n% "CharNames") Syntax.CharNames.AlgorithmicRange.getName),
    ((n% "AlgorithmicRange"), n% "charInRange", fnOf (n% "CharNames") Syntax.CharNames.AlgorithmicRange.charInRange),
    ((n% "AlgorithmicRange"), n% "charOffsetInRange", fnOf (n% "CharNames") Syntax.CharNames.AlgorithmicRange.charOffsetInRange),
    ((n% "CharNames"), n% "getGroup", clsFnOf (n% "CharNames") Syntax.CharNames.CharNames.getGroup),
    ((n% "CharNames"), n% "getCharCat", clsFnOf (n% "CharNames") Syntax.CharNames.CharNames.getCharCat),
    ((n% "CharNames"), n% "getCharCatName", clsFnOf (n% "CharNames") Syntax.CharNames.CharNames.getCharCatName),
    ((n% "CharNames"), n% "_getName", clsFnOf (n% "CharNames") Syntax.CharNames.CharNames._getName),
    ((n% "CharNames"), n% "getCharName", clsFnOf (n% "CharNames") Syntax.CharNames.CharNames.getCharName),
    ((n% "Group"), n% "nameIterator", fnOf (n% "CharNames") Syntax.CharNames.Group.nameIterator),
    ((n% "AlgorithmicRange"), n% "nameIterator", fnOf (n% "CharNames") Syntax.CharNames.AlgorithmicRange.nameIterator),
    ((n% "CharNames"), n% "nameIterator", clsFnOf (n% "CharNames") Syntax.CharNames.CharNames.nameIterator),
    ((n% "CharNames"), n% "charFromName", clsFnOf (n% "CharNames") Syntax.CharNames.CharNames.charFromName)]

/-- A world where CharNames.py was imported, with the data `N`. -/
structure Imported (w : World) (N : Verif.CharNames.Names) : Prop where
  name : ∀ p ∈ names, w.find (n% "CharNames") p.1 p.2.1 = p.2.2
  tokens : w.find (n% "CharNames") (n% "Tokens") (n% "_tokens") = some (.val (numbers N.tokens.tokens))
  strings : w.find (n% "CharNames") (n% "Tokens") (n% "_strings") = some (.val (bytes N.tokens.strings))
  groups : w.find (n% "CharNames") (n% "CharNames") (n% "_groups") = some (.val (.list (chain (N.groups.map groupObject))))
  ranges : w.find (n% "CharNames") (n% "CharNames") (n% "_algorithmicRanges") = some (.val (.list (chain (N.ranges.map rangeObject))))

variable {w : World} {N : Verif.CharNames.Names}

theorem elems_chain (l : List Val) : (chain l).elems = l := by
  induction l with
  | nil => rfl
  | cons v l ih => rw [chain, Val.elems, ih]

theorem pyGet_nat {α : Type} (l : List α) (i : Nat) : pyGet l (i : Int) = match l[i]? with | some x => .ok x | none => .error .indexError := by
  rw [pyGet, if_pos (Int.natCast_nonneg i), Int.toNat_natCast]
  cases l[i]? <;> rfl

/-- Reading in a `bytes` object. -/
theorem bytes_at (l : List Nat) (i : Nat) : index w (bytes l) (.int i) = match l[i]? with | some x => .ok (.int x) | none => .error (.raised .indexError) := by
  rw [bytes, index, elems_chain, pyGet_nat, List.getElem?_map]
  cases l[i]? <;> rfl

/-- Reading in a tuple of numbers. -/
theorem numbers_at (l : List Nat) (i : Nat) : index w (numbers l) (.int i) = match l[i]? with | some x => .ok (.int x) | none => .error (.raised .indexError) := by
  rw [numbers, index, elems_chain, pyGet_nat, List.getElem?_map]
  cases l[i]? <;> rfl

section
variable (H : Imported w N)
include H

theorem found (i : Nat) (h : i < names.length) : w.find (n% "CharNames") names[i].1 names[i].2.1 = names[i].2.2 := H.name _ (List.getElem_mem h)

theorem Names.CP_SEMICOLON : w.find (n% "CharNames") 0 (n% "CP_SEMICOLON") = some (.val (.int (59 : Nat))) := found H 0 (by decide)

theorem Names.U_UNICODE_CHAR_NAME : w.find (n% "CharNames") 0 (n% "U_UNICODE_CHAR_NAME") = some (.val (.int (0 : Nat))) := found H 1 (by decide)

theorem Names.U_EXTENDED_CHAR_NAME : w.find (n% "CharNames") 0 (n% "U_EXTENDED_CHAR_NAME") = some (.val (.int (2 : Nat))) := found H 2 (by decide)

theorem Names.U_ISO_COMMENT : w.find (n% "CharNames") 0 (n% "U_ISO_COMMENT") = some (.val (.int (4 : Nat))) := found H 3 (by decide)

theorem Names.GROUP_SHIFT : w.find (n% "CharNames") 0 (n% "GROUP_SHIFT") = some (.val (.int (5 : Nat))) := found H 4 (by decide)

theorem Names.LINES_PER_GROUP : w.find (n% "CharNames") 0 (n% "LINES_PER_GROUP") = some (.val (.int (32 : Nat))) := found H 5 (by decide)

theorem Names.GROUP_MASK : w.find (n% "CharNames") 0 (n% "GROUP_MASK") = some (.val (.int (31 : Nat))) := found H 6 (by decide)

theorem Names.GC_NONCHARACTER_CODEPOINT : w.find (n% "CharNames") 0 (n% "GC_NONCHARACTER_CODEPOINT") = some (.val (.int (30 : Nat))) := found H 7 (by decide)

theorem Names.GC_LEAD_SURROGATE : w.find (n% "CharNames") 0 (n% "GC_LEAD_SURROGATE") = some (.val (.int (31 : Nat))) := found H 8 (by decide)

theorem Names.GC_TRAIL_SURROGATE : w.find (n% "CharNames") 0 (n% "GC_TRAIL_SURROGATE") = some (.val (.int (32 : Nat))) := found H 9 (by decide)

theorem Names.GC_SURROGATE : w.find (n% "CharNames") 0 (n% "GC_SURROGATE") = some (.val (.int (18 : Nat))) := found H 10 (by decide)

theorem Names.len : w.find (n% "CharNames") 0 (n% "len") = none := found H 11 (by decide)

theorem Names.chr : w.find (n% "CharNames") 0 (n% "chr") = none := found H 12 (by decide)

theorem Names.range : w.find (n% "CharNames") 0 (n% "range") = none := found H 13 (by decide)

theorem Names.None : w.find (n% "CharNames") 0 (n% "None") = none := found H 14 (by decide)

theorem Names.max : w.find (n% "CharNames") 0 (n% "max") = none := found H 15 (by decide)

theorem Names.TokensClass : w.find (n% "CharNames") 0 (n% "Tokens") = some (.cls (n% "CharNames")) := found H 16 (by decide)

theorem Names.CharNamesClass : w.find (n% "CharNames") 0 (n% "CharNames") = some (.cls (n% "CharNames")) := found H 17 (by decide)

theorem Names.charCatNames : w.find (n% "CharNames") 0 (n% "charCatNames") = some (.val catNames) := found H 18 (by decide)

theorem Names.isUnicodeNoncharacter : w.find (n% "CharNames") 0 (n% "isUnicodeNoncharacter") = fnOf (n% "Utilities") Syntax.Utilities.isUnicodeNoncharacter := found H 19 (by decide)

theorem Names.isLead : w.find (n% "CharNames") 0 (n% "isLead") = fnOf (n% "Utilities") Syntax.Utilities.isLead := found H 20 (by decide)

theorem Names.getGeneralCategory : w.find (n% "CharNames") 0 (n% "getGeneralCategory") = fnOf (n% "CharProps") Syntax.CharProps.getGeneralCategory := found H 21 (by decide)

theorem Names.expandString : w.find (n% "CharNames") (n% "Tokens") (n% "expandString") = clsFnOf (n% "CharNames") Syntax.CharNames.Tokens.expandString := found H 22 (by decide)

theorem Names.expandGroupLengths : w.find (n% "CharNames") (n% "Group") (n% "expandGroupLengths") = fnOf (n% "CharNames") Syntax.CharNames.Group.expandGroupLengths := found H 23 (by decide)

theorem Names.expandName : w.find (n% "CharNames") (n% "Group") (n% "expandName") = fnOf (n% "CharNames") Syntax.CharNames.Group.expandName := found H 24 (by decide)

theorem Names.factorSuffix : w.find (n% "CharNames") (n% "AlgorithmicRange") (n% "factorSuffix") = fnOf (n% "CharNames") Syntax.CharNames.AlgorithmicRange.factorSuffix := found H 25 (by decide)

theorem Names.getName : w.find (n% "CharNames") (n% "AlgorithmicRange") (n% "getName") = fnOf (n% "CharNames") Syntax.CharNames.AlgorithmicRange.getName := found H 26 (by decide)

theorem Names.charInRange : w.find (n% "CharNames") (n% "AlgorithmicRange") (n% "charInRange") = fnOf (n% "CharNames") Syntax.CharNames.AlgorithmicRange.charInRange := found H 27 (by decide)

theorem Names.charOffsetInRange : w.find (n% "CharNames") (n% "AlgorithmicRange") (n% "charOffsetInRange") = fnOf (n% "CharNames") Syntax.CharNames.AlgorithmicRange.charOffsetInRange := found H 28 (by decide)

theorem Names.getGroup : w.find (n% "CharNames") (n% "CharNames") (n% "getGroup") = clsFnOf (n% "CharNames") Syntax.CharNames.CharNames.getGroup := found H 29 (by decide)

theorem Names.getCharCat : w.find (n% "CharNames") (n% "CharNames") (n% "getCharCat") = clsFnOf (n% "CharNames") Syntax.CharNames.CharNames.getCharCat := found H 30 (by decide)

theorem Names.getCharCatName : w.find (n% "CharNames") (n% "CharNames") (n% "getCharCatName") = clsFnOf (n% "CharNames") Syntax.CharNames.CharNames.getCharCatName := found H 31 (by decide)

theorem Names._getName : w.find (n% "CharNames") (n% "CharNames") (n% "_getName") = clsFnOf (n% "CharNames") Syntax.CharNames.CharNames._getName := found H 32 (by decide)

theorem Names.getCharName : w.find (n% "CharNames") (n% "CharNames") (n% "getCharName") = clsFnOf (n% "CharNames") Syntax.CharNames.CharNames.getCharName := found H 33 (by decide)

theorem Names.groupIterator : w.find (n% "CharNames") (n% "Group") (n% "nameIterator") = fnOf (n% "CharNames") Syntax.CharNames.Group.nameIterator := found H 34 (by decide)

theorem Names.rangeIterator : w.find (n% "CharNames") (n% "AlgorithmicRange") (n% "nameIterator") = fnOf (n% "CharNames") Syntax.CharNames.AlgorithmicRange.nameIterator := found H 35 (by decide)

theorem Names.nameIterator : w.find (n% "CharNames") (n% "CharNames") (n% "nameIterator") = clsFnOf (n% "CharNames") Syntax.CharNames.CharNames.nameIterator := found H 36 (by decide)

theorem Names.charFromName : w.find (n% "CharNames") (n% "CharNames") (n% "charFromName") = clsFnOf (n% "CharNames") Syntax.CharNames.CharNames.charFromName := found H 37 (by decide)


theorem tokens_attr : attr w (.cls (n% "CharNames") (n% "Tokens")) (n% "_tokens") = .ok (numbers N.tokens.tokens) := by
  simp only [attr, H.tokens]

theorem strings_attr : attr w (.cls (n% "CharNames") (n% "Tokens")) (n% "_strings") = .ok (bytes N.tokens.strings) := by
  simp only [attr, H.strings]

theorem len_tokens (call : Call) : callName w call (n% "CharNames") (n% "len") (.cons (numbers N.tokens.tokens) .nil) = .ok (.int (N.tokens.tokens.length : Nat)) := by
  rw [builtin_call (Names.len H)]
  simp only [builtin, numbers, elems_chain, List.length_map, ↓reduceIte]

theorem len_bytes (call : Call) (l : List Nat) : callName w call (n% "CharNames") (n% "len") (.cons (bytes l) .nil) = .ok (.int (l.length : Nat)) := by
  rw [builtin_call (Names.len H)]
  simp only [builtin, bytes, elems_chain, List.length_map, ↓reduceIte]

theorem len_str (call : Call) (s : Str) : callName w call (n% "CharNames") (n% "len") (.cons (.str s) .nil) = .ok (.int (s.length : Nat)) := by
  rw [builtin_call (Names.len H)]
  simp only [builtin, ↓reduceIte]

theorem chr_byte (call : Call) {c : Nat} (hc : c < 256) : callName w call (n% "CharNames") (n% "chr") (.cons (.int c) .nil) = .ok (.str [c]) := by
  rw [builtin_call (Names.chr H)]
  simp only [builtin, Nat.reduceEqDiff, ↓reduceIte]
  rw [if_pos (by omega), Int.toNat_natCast]

end

theorem sub_one (k : Nat) : ((k + 1 : Nat) : Int) - ((1 : Nat) : Int) = (k : Nat) := by omega

/-- CharNames.py:155 the condition of the inner loop. -/
def strCond : Expr := (.bin .ne (.index (.attr (.name (n% "cls")) (n% "_strings")) (.name (n% "token"))) (.num 0))

/-- CharNames.py:156-157 the body of the inner loop. -/
def strBody : Stmt := (.seq (.aug .add (.name (n% "expandedName")) (.call (.name (n% "chr")) (.cons (.index (.attr (.name (n% "cls")) (n% "_strings")) (.name (n% "token"))) .nil))) (.seq (.aug .add (.name (n% "token")) (.num 1)) .skip))

/-- The inner loop copies the characters up to a zero. -/
theorem word_run (H : Imported w N) (hs : ∀ b ∈ N.tokens.strings, b < 256) {n fuel : Nat} {out : List Val} : ∀ (k : Nat) {t : Nat} {acc : Str} {env : Env},
    getVar (n% "cls") env = some (.cls (n% "CharNames") (n% "Tokens")) → getVar (n% "token") env = some (.int t) →
    getVar (n% "expandedName") env = some (.str acc) → getVar (n% "chr") env = none → N.tokens.strings.length - t < k →
    match ICUData.untilNul (N.tokens.strings.drop t) with
    | .ok s => ∃ env', loop (test w (run w n) (n% "CharNames") strCond) (exec w (run w n) fuel (n% "CharNames") strBody) k (env, out) = .ok (.next, (env', out)) ∧
        ∀ x, x ≠ n% "token" → getVar x env' = if n% "expandedName" = x then some (.str (acc ++ s)) else getVar x env
    | .error e => loop (test w (run w n) (n% "CharNames") strCond) (exec w (run w n) fuel (n% "CharNames") strBody) k (env, out) = .error (.raised e) := by
  intro k
  induction k with
  | zero => intro t acc env _ _ _ _ hk; omega
  | succ k ih =>
    intro t acc env h1 h2 h3 h4 hk
    cases hg : N.tokens.strings[t]? with
    | none =>
      rw [List.drop_eq_nil_of_le (List.getElem?_eq_none_iff.1 hg), ICUData.untilNul]
      rw [loop]
      py_run [strCond, test, h1, h2, strings_attr H, bytes_at, hg]
    | some b =>
      obtain ⟨hl, hb⟩ := List.getElem?_eq_some_iff.1 hg
      rw [List.drop_eq_getElem_cons hl, hb, ICUData.untilNul]
      by_cases hz : b = 0
      · rw [if_neg (not_not_intro hz)]
        refine ⟨env, ?_, fun x _ => ?_⟩
        · rw [loop]
          py_run [strCond, test, h1, h2, strings_attr H, bytes_at, hg, decide_eq_true hz, Bool.not_true]
        · rw [List.append_nil]
          by_cases hx : n% "expandedName" = x
          · rw [if_pos hx, ← hx, h3]
          · rw [if_neg hx]
      · rw [if_pos hz]
        have hb' : b < 256 := hs b (hb ▸ List.getElem_mem hl)
        have e : loop (test w (run w n) (n% "CharNames") strCond) (exec w (run w n) fuel (n% "CharNames") strBody) (k + 1) (env, out) =
            loop (test w (run w n) (n% "CharNames") strCond) (exec w (run w n) fuel (n% "CharNames") strBody) k
              (setVar (n% "token") (.int ((t + 1 : Nat) : Int)) (setVar (n% "expandedName") (.str (acc ++ [b])) env), out) := by
          rw [loop]
          py_run [strCond, strBody, test, h1, h2, h3, h4, strings_attr H, bytes_at, hg, decide_eq_false hz, Bool.not_false, chr_byte H _ hb', getVar_setVar]
        have r := ih (t := t + 1) (acc := acc ++ [b])
          (env := setVar (n% "token") (.int ((t + 1 : Nat) : Int)) (setVar (n% "expandedName") (.str (acc ++ [b])) env))
          (by simp only [getVar_setVar, Nat.reduceEqDiff, ↓reduceIte, h1]) (by simp only [getVar_setVar, ↓reduceIte])
          (by simp only [getVar_setVar, Nat.reduceEqDiff, ↓reduceIte]) (by simp only [getVar_setVar, Nat.reduceEqDiff, ↓reduceIte, h4]) (by omega)
        rw [e]
        cases hu : ICUData.untilNul (N.tokens.strings.drop (t + 1)) with
        | error e => rw [hu] at r; exact r
        | ok s =>
          rw [hu] at r
          obtain ⟨env', r1, r2⟩ := r
          refine ⟨env', r1, fun x hx => ?_⟩
          rw [r2 x hx]
          simp only [getVar_setVar, if_neg (fun e => hx (Eq.symm e) : ¬ n% "token" = x)]
          rw [List.append_assoc, List.singleton_append]
          by_cases hy : n% "expandedName" = x
          · rw [if_pos hy, if_pos hy]
          · rw [if_neg hy, if_neg hy, if_neg hy]

/-- What is known about the variables during the outer loop, where `r` is left of the string `l`. -/
structure Expanding (v : Val) (l r : List Nat) (ch : Nat) (acc : Str) (env : Env) : Prop where
  cls : getVar (n% "cls") env = some (.cls (n% "CharNames") (n% "Tokens"))
  string : getVar (n% "string") env = some v
  choice : getVar (n% "nameChoice") env = some (.int ch)
  name : getVar (n% "expandedName") env = some (.str acc)
  length : getVar (n% "nameLength") env = some (.int r.length)
  s : getVar (n% "s") env = some (.int (l.length - r.length : Nat))
  chr : getVar (n% "chr") env = none
  len : getVar (n% "len") env = none
  semicolon : getVar (n% "CP_SEMICOLON") env = none
  extended : getVar (n% "U_EXTENDED_CHAR_NAME") env = none

/-- One round of the loop in the model, when it reads `c` and `r` is left: whether the loop goes on, what is left then, and the text. -/
def expandStep (t : Tokens) (ch c : Nat) (r : List Nat) (acc : Str) : Py (Bool × List Nat × Str) :=
  if c ≥ t.tokens.length then if c ≠ 59 then .ok (true, r, acc ++ [c]) else .ok (false, r, acc)
  else if t.tokens.getD c 0 = 0xFFFE then
    match r with
    | [] => .error .indexError
    | d :: r =>
      match t.tokens[c * 2 ^ 8 ||| d]? with
      | none => .error .indexError
      | some token =>
        match tokenStep t ch c token acc with
        | .error e => .error e
        | .ok (b, a) => .ok (b, r, a)
  else
    match tokenStep t ch c (t.tokens.getD c 0) acc with
    | .error e => .error e
    | .ok (b, a) => .ok (b, r, a)

theorem expandLoop_cons (t : Tokens) (ch c : Nat) (r : List Nat) (acc : Str) : expandLoop t ch (c :: r) acc = match expandStep t ch c r acc with
    | .error e => .error e
    | .ok (true, r, a) => expandLoop t ch r a
    | .ok (false, _, a) => .ok a := by
  cases r with
  | nil =>
    rw [expandLoop, expandStep]
    by_cases h : c ≥ t.tokens.length
    · rw [if_pos h, if_pos h]
      by_cases h' : c = 59
      · rw [if_neg (not_not_intro h'), if_neg (not_not_intro (show c = Verif.CharNames.CP_SEMICOLON from h'))]
      · rw [if_pos h', if_pos (show c ≠ Verif.CharNames.CP_SEMICOLON from h')]
        show _ = expandLoop t ch [] _
        rw [expandLoop]
    · rw [if_neg h, if_neg h]
      dsimp only
      by_cases h' : t.tokens.getD c 0 = 0xFFFE
      · rw [if_pos h', if_pos h']
      · rw [if_neg h', if_neg h']
        rcases tokenStep t ch c (t.tokens.getD c 0) acc with e | ⟨b, a⟩
        · rfl
        · cases b
          · rfl
          · show _ = expandLoop t ch [] _
            rw [expandLoop]
  | cons d r =>
    rw [expandLoop, expandStep]
    by_cases h : c ≥ t.tokens.length
    · rw [if_pos h, if_pos h]
      by_cases h' : c = 59
      · rw [if_neg (not_not_intro h'), if_neg (not_not_intro (show c = Verif.CharNames.CP_SEMICOLON from h'))]
      · rw [if_pos h', if_pos (show c ≠ Verif.CharNames.CP_SEMICOLON from h')]
    · rw [if_neg h, if_neg h]
      dsimp only
      by_cases h' : t.tokens.getD c 0 = 0xFFFE
      · rw [if_pos h', if_pos h']
        cases t.tokens[c * 2 ^ 8 ||| d]? with
        | none => rfl
        | some token =>
          dsimp only
          rcases tokenStep t ch c token acc with e | ⟨b, a⟩
          · rfl
          · cases b <;> rfl
      · rw [if_neg h', if_neg h']
        rcases tokenStep t ch c (t.tokens.getD c 0) acc with e | ⟨b, a⟩
        · rfl
        · cases b <;> rfl

/-- CharNames.py:147-157 the end of the body of the outer loop. -/
def tokenBody : Stmt := (.ifs (.bin .eq (.name (n% "token")) (.num 0xffff)) (.seq (.ifs (.bin .ne (.name (n% "c")) (.name (n% "CP_SEMICOLON"))) (.seq (.aug .add (.name (n% "expandedName")) (.call (.name (n% "chr")) (.cons (.name (n% "c")) .nil))) .skip) (.seq (.ifs (.and (.bin .eq (.call (.name (n% "len")) (.cons (.name (n% "expandedName")) .nil)) (.num 0)) (.bin .eq (.name (n% "nameChoice")) (.name (n% "U_EXTENDED_CHAR_NAME")))) (.seq (.ifs (.or (.bin .ge (.name (n% "CP_SEMICOLON")) (.call (.name (n% "len")) (.cons (.attr (.name (n% "cls")) (n% "_tokens")) .nil))) (.bin .eq (.index (.attr (.name (n% "cls")) (n% "_tokens")) (.name (n% "CP_SEMICOLON"))) (.num 0xffff))) (.seq .cont .skip) .skip) .skip) .skip) (.seq .brk .skip))) .skip) (.seq (.while strCond strBody) .skip))

/-- How a round ends. -/
def Ends (v : Val) (l r : List Nat) (ch : Nat) (acc : Str) (b : Bool) (x : R (Flow × St)) : Prop :=
  ∃ fl env, x = .ok (fl, (env, [])) ∧ if b then (fl = .next ∨ fl = .cont) ∧ Expanding v l r ch acc env
    else fl = .brk ∧ getVar (n% "expandedName") env = some (.str acc)

theorem Expanding.set {v : Val} {l r : List Nat} {ch : Nat} {acc acc' : Str} {env env' : Env} (h : Expanding v l r ch acc env)
    (he : ∀ x, x ≠ n% "token" → getVar x env' = if n% "expandedName" = x then some (.str acc') else getVar x env) : Expanding v l r ch acc' env' := by
  constructor <;> rw [he _ (by decide)] <;> simp only [Nat.reduceEqDiff, ↓reduceIte, h.cls, h.string, h.choice, h.length, h.s, h.chr, h.len, h.semicolon, h.extended]

theorem token_run (H : Imported w N) (hs : ∀ b ∈ N.tokens.strings, b < 256) {n fuel : Nat} {v : Val} {l r : List Nat} {ch c token : Nat} {acc : Str} {env : Env}
    (h : Expanding v l r ch acc env) (hc : getVar (n% "c") env = some (.int c)) (ht : getVar (n% "token") env = some (.int token)) (hb : c < 256)
    (hf : N.tokens.strings.length < fuel) :
    match tokenStep N.tokens ch c token acc with
    | .error e => exec w (run w n) fuel (n% "CharNames") tokenBody (env, []) = .error (.raised e)
    | .ok (b, a) => Ends v l r ch a b (exec w (run w n) fuel (n% "CharNames") tokenBody (env, [])) := by
  unfold tokenStep
  by_cases h1 : token = 0xFFFF
  · rw [if_pos h1]
    have d1 := decide_eq_true h1
    by_cases h2 : c = 59
    · rw [if_neg (not_not_intro (show c = Verif.CharNames.CP_SEMICOLON from h2))]
      have d2 := decide_eq_true h2
      by_cases h3 : acc.length = 0
      · have d3 := decide_eq_true h3
        by_cases h4 : ch = 2
        · rw [if_pos ⟨h3, h4⟩]
          have d4 := decide_eq_true h4
          by_cases h5 : N.tokens.tokens.length ≤ 59
          · rw [if_pos (.inl h5)]
            have d5 := decide_eq_true h5
            refine ⟨.cont, env, ?_, .inr rfl, h⟩
            py_run [tokenBody, h.cls, h.choice, h.name, h.chr, h.len, h.semicolon, h.extended, hc, ht, d1, d2, d3, d4, d5, Names.CP_SEMICOLON H,
              Names.U_EXTENDED_CHAR_NAME H, len_str H, len_tokens H, tokens_attr H, numbers_at, Bool.not_true]
          · have d5 := decide_eq_false h5
            have h59 : N.tokens.tokens[59]? = some (N.tokens.tokens.getD 59 0) := by
              rw [List.getD_eq_getElem?_getD, List.getElem?_eq_getElem (by omega)]; rfl
            by_cases h6 : N.tokens.tokens.getD 59 0 = 0xFFFF
            · rw [if_pos (.inr h6)]
              have d6 := decide_eq_true h6
              refine ⟨.cont, env, ?_, .inr rfl, h⟩
              py_run [tokenBody, h.cls, h.choice, h.name, h.chr, h.len, h.semicolon, h.extended, hc, ht, d1, d2, d3, d4, d5, d6, h59, Names.CP_SEMICOLON H,
                Names.U_EXTENDED_CHAR_NAME H, len_str H, len_tokens H, tokens_attr H, numbers_at, Bool.not_true]
            · rw [if_neg (show ¬(Verif.CharNames.CP_SEMICOLON ≥ N.tokens.tokens.length ∨ N.tokens.tokens.getD Verif.CharNames.CP_SEMICOLON 0 = 0xFFFF) from not_or.2 ⟨h5, h6⟩)]
              have d6 := decide_eq_false h6
              refine ⟨.brk, env, ?_, rfl, h.name⟩
              py_run [tokenBody, h.cls, h.choice, h.name, h.chr, h.len, h.semicolon, h.extended, hc, ht, d1, d2, d3, d4, d5, d6, h59, Names.CP_SEMICOLON H,
                Names.U_EXTENDED_CHAR_NAME H, len_str H, len_tokens H, tokens_attr H, numbers_at, Bool.not_true]
        · rw [if_neg (fun x => h4 x.2)]
          have d4 := decide_eq_false h4
          refine ⟨.brk, env, ?_, rfl, h.name⟩
          py_run [tokenBody, h.cls, h.choice, h.name, h.chr, h.len, h.semicolon, h.extended, hc, ht, d1, d2, d3, d4, Names.CP_SEMICOLON H,
            Names.U_EXTENDED_CHAR_NAME H, len_str H, Bool.not_true]
      · rw [if_neg (fun x => h3 x.1)]
        have d3 := decide_eq_false h3
        refine ⟨.brk, env, ?_, rfl, h.name⟩
        py_run [tokenBody, h.cls, h.choice, h.name, h.chr, h.len, h.semicolon, h.extended, hc, ht, d1, d2, d3, Names.CP_SEMICOLON H,
          Names.U_EXTENDED_CHAR_NAME H, len_str H, Bool.not_true]
    · rw [if_pos (show c ≠ Verif.CharNames.CP_SEMICOLON from h2)]
      have d2 := decide_eq_false h2
      refine ⟨.next, setVar (n% "expandedName") (.str (acc ++ [c])) env, ?_, .inl rfl, h.set fun x _ => getVar_setVar ..⟩
      py_run [tokenBody, h.name, h.chr, h.semicolon, hc, ht, d1, d2, Names.CP_SEMICOLON H, chr_byte H _ hb, Bool.not_false]
  · rw [if_neg h1]
    have d1 := decide_eq_false h1
    have q := word_run H hs (n := n) (fuel := fuel) (out := []) fuel h.cls ht h.name h.chr (by omega)
    cases hu : ICUData.untilNul (N.tokens.strings.drop token) with
    | error e =>
      rw [hu] at q
      show exec _ _ _ _ _ _ = .error (.raised e)
      py_run [tokenBody, ht, d1, show _ = _ from q]
    | ok s =>
      rw [hu] at q
      obtain ⟨env', q1, q2⟩ := q
      show Ends v l r ch (acc ++ s) true _
      refine ⟨.next, env', ?_, .inl rfl, h.set q2⟩
      py_run [tokenBody, ht, d1, q1]

/-- CharNames.py:133-157 the body of the outer loop after a byte is read. -/
def readBody : Stmt := (.ifs (.bin .ge (.name (n% "c")) (.call (.name (n% "len")) (.cons (.attr (.name (n% "cls")) (n% "_tokens")) .nil))) (.seq (.ifs (.bin .ne (.name (n% "c")) (.name (n% "CP_SEMICOLON"))) (.seq (.aug .add (.name (n% "expandedName")) (.call (.name (n% "chr")) (.cons (.name (n% "c")) .nil))) .skip) (.seq .brk .skip)) .skip) (.seq (.assign (.name (n% "token")) (.index (.attr (.name (n% "cls")) (n% "_tokens")) (.name (n% "c")))) (.seq (.ifs (.bin .eq (.name (n% "token")) (.num 0xfffe)) (.seq (.assign (.name (n% "token")) (.index (.attr (.name (n% "cls")) (n% "_tokens")) (.bin .or (.bin .shl (.name (n% "c")) (.num 8)) (.index (.name (n% "string")) (.name (n% "s")))))) (.seq (.aug .add (.name (n% "s")) (.num 1)) (.seq (.aug .sub (.name (n% "nameLength")) (.num 1)) .skip))) .skip) (.seq tokenBody .skip))))

/-- CharNames.py:128-157 the body of the outer loop. -/
def expandBody : Stmt := (.seq (.assign (.name (n% "c")) (.index (.name (n% "string")) (.name (n% "s")))) (.seq (.aug .add (.name (n% "s")) (.num 1)) (.seq (.aug .sub (.name (n% "nameLength")) (.num 1)) (.seq readBody .skip))))

/-- A round as the flow and the variables when they pass through the end of a block. -/
theorem Ends.cases {v : Val} {l r : List Nat} {ch : Nat} {acc : Str} {b : Bool} {x : R (Flow × St)} (h : Ends v l r ch acc b x) :
    ∃ env, (x = .ok (.next, (env, [])) ∨ x = .ok (.cont, (env, [])) ∨ x = .ok (.brk, (env, []))) ∧ ∀ y, (x = .ok (.next, (env, [])) → y = .ok (.next, (env, []))) →
      (x = .ok (.cont, (env, [])) → y = .ok (.cont, (env, []))) → (x = .ok (.brk, (env, [])) → y = .ok (.brk, (env, []))) → Ends v l r ch acc b y := by
  obtain ⟨fl, env, rfl, h2⟩ := h
  refine ⟨env, ?_, fun y e1 e2 e3 => ⟨fl, env, ?_, h2⟩⟩
  · cases b
    · exact .inr (.inr (by rw [h2.1]))
    · rcases h2.1 with e | e
      · exact .inl (by rw [e])
      · exact .inr (.inl (by rw [e]))
  · cases b
    · have e := h2.1; subst e; exact e3 rfl
    · rcases h2.1 with e | e <;> subst e
      · exact e1 rfl
      · exact e2 rfl

theorem read_run (H : Imported w N) (hs : ∀ b ∈ N.tokens.strings, b < 256) {n fuel : Nat} {l r : List Nat} {ch c : Nat} {acc : Str} {env : Env}
    (h : Expanding (bytes l) l r ch acc env) (hc : getVar (n% "c") env = some (.int c)) (hb : c < 256) {p : List Nat} (hl : l = p ++ r)
    (hf : N.tokens.strings.length < fuel) :
    match expandStep N.tokens ch c r acc with
    | .error e => exec w (run w n) fuel (n% "CharNames") readBody (env, []) = .error (.raised e)
    | .ok (b, r, a) => Ends (bytes l) l r ch a b (exec w (run w n) fuel (n% "CharNames") readBody (env, [])) := by
  unfold expandStep
  by_cases h1 : c ≥ N.tokens.tokens.length
  · rw [if_pos h1]
    have d1 := decide_eq_true h1
    by_cases h2 : c = 59
    · rw [if_neg (not_not_intro h2)]
      have d2 := decide_eq_true h2
      refine ⟨.brk, env, ?_, rfl, h.name⟩
      py_run [readBody, h.cls, h.len, h.semicolon, hc, d1, d2, Names.CP_SEMICOLON H, len_tokens H, tokens_attr H, Bool.not_true]
    · rw [if_pos h2]
      have d2 := decide_eq_false h2
      refine ⟨.next, setVar (n% "expandedName") (.str (acc ++ [c])) env, ?_, .inl rfl, h.set fun x _ => getVar_setVar ..⟩
      py_run [readBody, h.cls, h.name, h.len, h.chr, h.semicolon, hc, d1, d2, Names.CP_SEMICOLON H, len_tokens H, tokens_attr H, chr_byte H _ hb, Bool.not_false]
  · rw [if_neg h1]
    have d1 := decide_eq_false h1
    have hg : N.tokens.tokens[c]? = some (N.tokens.tokens.getD c 0) := by
      rw [List.getD_eq_getElem?_getD, List.getElem?_eq_getElem (by omega)]; rfl
    by_cases h2 : N.tokens.tokens.getD c 0 = 0xFFFE
    · rw [if_pos h2]
      have d2 := decide_eq_true h2
      cases r with
      | nil =>
        have hk : l[l.length - ([] : List Nat).length]? = none := List.getElem?_eq_none_iff.2 (by simp)
        show exec _ _ _ _ _ _ = .error (.raised .indexError)
        py_run [readBody, h.cls, h.len, h.string, h.s, hc, d1, d2, hg, hk, len_tokens H, tokens_attr H, numbers_at, bytes_at, getVar_setVar]
      | cons d r =>
        have hk : l[l.length - (r.length + 1)]? = some d := by
          rw [← List.length_cons, hl, List.length_append, Nat.add_sub_cancel, List.getElem?_append_right (Nat.le_refl _), Nat.sub_self]; rfl
        have hk' : l.length - (r.length + 1) + 1 = l.length - r.length := by
          simp only [hl, List.length_append, List.length_cons]; omega
        dsimp only
        rw [show c * 2 ^ 8 = c <<< 8 from (Nat.shiftLeft_eq ..).symm]
        cases hg' : N.tokens.tokens[c <<< 8 ||| d]? with
        | none =>
          show exec _ _ _ _ _ _ = .error (.raised .indexError)
          py_run [readBody, h.cls, h.len, h.string, h.s, hc, d1, d2, hg, hk, hg', List.length_cons, len_tokens H, tokens_attr H, numbers_at, bytes_at, getVar_setVar]
        | some token =>
          have h' : Expanding (bytes l) l r ch acc (setVar (n% "nameLength") (.int (r.length : Nat)) (setVar (n% "s") (.int (l.length - r.length : Nat))
              (setVar (n% "token") (.int token) (setVar (n% "token") (.int (N.tokens.tokens.getD c 0 : Nat)) env)))) := by
            constructor <;> simp only [getVar_setVar, Nat.reduceEqDiff, ↓reduceIte, h.cls, h.string, h.choice, h.name, h.chr, h.len, h.semicolon, h.extended]
          have q := token_run H hs (n := n) (fuel := fuel) h' (c := c) (token := token)
            (by simp only [getVar_setVar, Nat.reduceEqDiff, ↓reduceIte, hc]) (by simp only [getVar_setVar, Nat.reduceEqDiff, ↓reduceIte]) hb hf
          dsimp only
          cases ht : tokenStep N.tokens ch c token acc with
          | error e =>
            rw [ht] at q
            show exec _ _ _ _ _ _ = .error (.raised e)
            py_run [readBody, h.cls, h.len, h.string, h.s, h.length, hc, d1, d2, hg, hk, hg', hk', List.length_cons, sub_one, len_tokens H, tokens_attr H, numbers_at, bytes_at, getVar_setVar, show _ = _ from q]
          | ok ba =>
            rw [ht] at q
            obtain ⟨env', q1, q2⟩ := Ends.cases (show Ends _ _ _ _ ba.2 ba.1 _ from q)
            refine q2 _ ?_ ?_ ?_ <;> intro q
            · py_run [readBody, h.cls, h.len, h.string, h.s, h.length, hc, d1, d2, hg, hk, hg', hk', List.length_cons, sub_one, len_tokens H, tokens_attr H, numbers_at, bytes_at, getVar_setVar, q]
            · py_run [readBody, h.cls, h.len, h.string, h.s, h.length, hc, d1, d2, hg, hk, hg', hk', List.length_cons, sub_one, len_tokens H, tokens_attr H, numbers_at, bytes_at, getVar_setVar, q]
            · py_run [readBody, h.cls, h.len, h.string, h.s, h.length, hc, d1, d2, hg, hk, hg', hk', List.length_cons, sub_one, len_tokens H, tokens_attr H, numbers_at, bytes_at, getVar_setVar, q]
    · rw [if_neg h2]
      have d2 := decide_eq_false h2
      have h' : Expanding (bytes l) l r ch acc (setVar (n% "token") (.int (N.tokens.tokens.getD c 0 : Nat)) env) := h.set fun x hx => by
        rw [getVar_setVar, if_neg (Ne.symm hx)]
        by_cases e : n% "expandedName" = x
        · rw [if_pos e, ← e, h.name]
        · rw [if_neg e]
      have q := token_run H hs (n := n) (fuel := fuel) h' (by rw [getVar_setVar, if_neg (by decide), hc]) (by rw [getVar_setVar, if_pos rfl]) hb hf
      cases ht : tokenStep N.tokens ch c (N.tokens.tokens.getD c 0) acc with
      | error e =>
        rw [ht] at q
        show exec _ _ _ _ _ _ = .error (.raised e)
        py_run [readBody, h.cls, h.len, hc, d1, d2, hg, len_tokens H, tokens_attr H, numbers_at, getVar_setVar, show _ = _ from q]
      | ok ba =>
        rw [ht] at q
        obtain ⟨env', q1, q2⟩ := Ends.cases (show Ends _ _ _ _ ba.2 ba.1 _ from q)
        refine q2 _ ?_ ?_ ?_ <;> intro q
        · py_run [readBody, h.cls, h.len, hc, d1, d2, hg, len_tokens H, tokens_attr H, numbers_at, getVar_setVar, q]
        · py_run [readBody, h.cls, h.len, hc, d1, d2, hg, len_tokens H, tokens_attr H, numbers_at, getVar_setVar, q]
        · py_run [readBody, h.cls, h.len, hc, d1, d2, hg, len_tokens H, tokens_attr H, numbers_at, getVar_setVar, q]

theorem round_run (H : Imported w N) (hs : ∀ b ∈ N.tokens.strings, b < 256) {n fuel : Nat} {l r : List Nat} {ch c : Nat} {acc : Str} {env : Env}
    (h : Expanding (bytes l) l (c :: r) ch acc env) (hb : c < 256) {p : List Nat} (hl : l = p ++ c :: r) (hf : N.tokens.strings.length < fuel) :
    match expandStep N.tokens ch c r acc with
    | .error e => exec w (run w n) fuel (n% "CharNames") expandBody (env, []) = .error (.raised e)
    | .ok (b, r, a) => Ends (bytes l) l r ch a b (exec w (run w n) fuel (n% "CharNames") expandBody (env, [])) := by
  have hk : l[l.length - (r.length + 1)]? = some c := by
    rw [← List.length_cons, hl, List.length_append, Nat.add_sub_cancel, List.getElem?_append_right (Nat.le_refl _), Nat.sub_self]; rfl
  have hk' : l.length - (r.length + 1) + 1 = l.length - r.length := by
    simp only [hl, List.length_append, List.length_cons]; omega
  have h' : Expanding (bytes l) l r ch acc (setVar (n% "nameLength") (.int (r.length : Nat)) (setVar (n% "s") (.int (l.length - r.length : Nat))
      (setVar (n% "c") (.int c) env))) := by
    constructor <;> simp only [getVar_setVar, Nat.reduceEqDiff, ↓reduceIte, h.cls, h.string, h.choice, h.name, h.chr, h.len, h.semicolon, h.extended]
  have q := read_run H hs (n := n) (fuel := fuel) h' (c := c) (by simp only [getVar_setVar, Nat.reduceEqDiff, ↓reduceIte]) hb (p := p ++ [c])
    (by rw [hl, List.append_assoc]; rfl) hf
  rcases ht : expandStep N.tokens ch c r acc with e | ⟨b, r', a⟩
  · rw [ht] at q
    show exec _ _ _ _ _ _ = .error (.raised e)
    py_run [expandBody, h.string, h.s, h.length, hk, hk', List.length_cons, sub_one, bytes_at, getVar_setVar, show _ = _ from q]
  · rw [ht] at q
    obtain ⟨env', q1, q2⟩ := Ends.cases (show Ends _ _ _ _ a b _ from q)
    refine q2 _ ?_ ?_ ?_ <;> intro q
    · py_run [expandBody, h.string, h.s, h.length, hk, hk', List.length_cons, sub_one, bytes_at, getVar_setVar, q]
    · py_run [expandBody, h.string, h.s, h.length, hk, hk', List.length_cons, sub_one, bytes_at, getVar_setVar, q]
    · py_run [expandBody, h.string, h.s, h.length, hk, hk', List.length_cons, sub_one, bytes_at, getVar_setVar, q]

/-- CharNames.py:128 the condition of the outer loop. -/
def expandCond : Expr := (.bin .gt (.name (n% "nameLength")) (.num 0))

/-- What a round leaves is shorter. -/
theorem expandStep_suffix {t : Tokens} {ch c : Nat} {r r' : List Nat} {acc a : Str} {b : Bool} (h : expandStep t ch c r acc = .ok (b, r', a)) : ∃ q, r = q ++ r' := by
  unfold expandStep at h
  split at h
  · split at h <;> cases h <;> exact ⟨[], rfl⟩
  · split at h
    · split at h
      · cases h
      · split at h
        · cases h
        · split at h
          · cases h
          · cases h; exact ⟨[_], rfl⟩
    · split at h
      · cases h
      · cases h; exact ⟨[], rfl⟩

theorem outer_run (H : Imported w N) (hs : ∀ b ∈ N.tokens.strings, b < 256) {n fuel : Nat} {l : List Nat} {ch : Nat} (hf : N.tokens.strings.length < fuel)
    (hb : ∀ b ∈ l, b < 256) : ∀ (k : Nat) {r : List Nat} {acc : Str} {env : Env} {v : Val}, (r ≠ [] → v = bytes l) → Expanding v l r ch acc env → (∃ p, l = p ++ r) → r.length < k →
    match expandLoop N.tokens ch r acc with
    | .error e => loop (test w (run w n) (n% "CharNames") expandCond) (exec w (run w n) fuel (n% "CharNames") expandBody) k (env, []) = .error (.raised e)
    | .ok a => ∃ env', loop (test w (run w n) (n% "CharNames") expandCond) (exec w (run w n) fuel (n% "CharNames") expandBody) k (env, []) = .ok (.next, (env', [])) ∧
        getVar (n% "expandedName") env' = some (.str a) := by
  intro k
  induction k with
  | zero => intro r acc env v _ _ _ hk; omega
  | succ k ih =>
    intro r acc env v hv h ⟨p, hl⟩ hk
    cases r with
    | nil =>
      rw [expandLoop]
      refine ⟨env, ?_, h.name⟩
      rw [loop]
      py_run [expandCond, test, h.length, List.length_nil, Nat.lt_irrefl, decide_false]
    | cons c r =>
      rw [expandLoop_cons]
      have hv := hv fun e => nomatch e
      subst hv
      have q := round_run H hs (n := n) (fuel := fuel) h (hb c (hl ▸ List.mem_append_right _ (.head _))) hl hf
      rcases ht : expandStep N.tokens ch c r acc with e | ⟨b, r', a⟩
      · rw [ht] at q
        show loop _ _ _ _ = .error (.raised e)
        rw [loop]
        py_run [expandCond, test, h.length, List.length_cons, decide_eq_true (Nat.succ_pos r.length), show _ = _ from q]
      · rw [ht] at q
        obtain ⟨fl, env', q1, q2⟩ := show Ends _ _ _ _ a b _ from q
        obtain ⟨q', hq⟩ := expandStep_suffix ht
        cases b with
        | false =>
          obtain ⟨rfl, q2⟩ := q2
          refine ⟨env', ?_, q2⟩
          rw [loop]
          py_run [expandCond, test, h.length, List.length_cons, decide_eq_true (Nat.succ_pos r.length), q1]
        | true =>
          obtain ⟨q2, q3⟩ := q2
          have i := ih (fun _ => rfl) q3 ⟨p ++ c :: q', by rw [hl, hq, List.append_assoc]; rfl⟩ (by rw [hq, List.length_cons, List.length_append] at hk; omega)
          have e : loop (test w (run w n) (n% "CharNames") expandCond) (exec w (run w n) fuel (n% "CharNames") expandBody) (k + 1) (env, []) =
              loop (test w (run w n) (n% "CharNames") expandCond) (exec w (run w n) fuel (n% "CharNames") expandBody) k (env', []) := by
            rw [loop]
            rcases q2 with rfl | rfl
            · py_run [expandCond, test, h.length, List.length_cons, decide_eq_true (Nat.succ_pos r.length), q1]
            · py_run [expandCond, test, h.length, List.length_cons, decide_eq_true (Nat.succ_pos r.length), q1]
          rw [e]
          exact i

/-- CharNames.py:122-160 -/
theorem expandString_text : Syntax.CharNames.Tokens.expandString = (.deco (.name (n% "classmethod")) (.defn (n% "expandString")
    (.cons (.name (n% "cls")) (.cons (.name (n% "string")) (.cons (.name (n% "nameChoice")) .nil))) (.seq (.assign (.name (n% "expandedName")) (.str []))
    (.seq (.assign (.name (n% "nameLength")) (.call (.name (n% "len")) (.cons (.name (n% "string")) .nil))) (.seq (.assign (.name (n% "s")) (.num 0))
    (.seq (.while expandCond expandBody) (.seq (.ret (.name (n% "expandedName"))) .skip))))))) := rfl

theorem expandBody_yields : yields expandBody = false := rfl

theorem expandString_run (H : Imported w N) (hs : ∀ b ∈ N.tokens.strings, b < 256) {n : Nat} {l : List Nat} {ch : Nat} {v : Val} (hf : N.tokens.strings.length < n)
    (hb : ∀ b ∈ l, b < 256) (hv : v = bytes l ∨ l = [] ∧ v = .str []) (hn : l.length < n) :
    callMethod w (run w (n + 1)) (.cls (n% "CharNames") (n% "Tokens")) (n% "expandString") (.cons v (.cons (.int ch) .nil)) =
      lift ((N.tokens.expandString l ch).map .str) := by
  have hlen : callName w (run w n) (n% "CharNames") (n% "len") (.cons v .nil) = .ok (.int (l.length : Nat)) := by
    rcases hv with rfl | ⟨rfl, rfl⟩
    · exact len_bytes H _ l
    · exact len_str H _ []
  have h : Expanding v l l ch [] [(n% "cls", .cls (n% "CharNames") (n% "Tokens")), (n% "string", v), (n% "nameChoice", .int ch), (n% "expandedName", .str []),
      (n% "nameLength", .int (l.length : Nat)), (n% "s", .int (0 : Nat))] := by
    constructor <;> simp only [getVar, Nat.reduceEqDiff, ↓reduceIte, Nat.sub_self]
  have q := outer_run H hs (n := n) hf hb n (fun hr => hv.resolve_right fun e => hr e.1) h ⟨[], rfl⟩ hn
  rw [Tokens.expandString]
  cases hx : expandLoop N.tokens ch l [] with
  | error e =>
    rw [hx] at q
    have q := show _ = _ from q
    py_run [callMethod, Names.expandString H, clsFnOf, expandString_text, expandBody_yields, hlen, q]
  | ok a =>
    rw [hx] at q
    obtain ⟨env', q1, q2⟩ := show ∃ env', _ from q
    py_run [callMethod, Names.expandString H, clsFnOf, expandString_text, expandBody_yields, hlen, q1, q2]

end Verif.PyRun.Names

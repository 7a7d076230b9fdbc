import Verif.Lemmas.RunNames
/-! # `CharNames.getGroup`, `Group.expandName` and `CharNames._getName`, executed from the text of CharNames.py -/
namespace Verif.PyRun.Names
open Verif.PySyntax Verif.Library Verif.Data
open Verif.CharNames (Tokens getGroupLoop getGroup splitSemicolon)
set_option maxRecDepth 4000

variable {w : World} {N : Verif.CharNames.Names}

theorem list_at {α : Type} (f : α → Val) (l : List α) (i : Nat) :
    index w (.list (chain (l.map f))) (.int i) = match l[i]? with | some x => .ok (f x) | none => .error (.raised .indexError) := by
  rw [index, elems_chain, pyGet_nat, List.getElem?_map]
  cases l[i]? <;> rfl

theorem len_list (H : Imported w N) (call : Call) (l : List Val) : callName w call (n% "CharNames") (n% "len") (.cons (.list (chain l)) .nil) = .ok (.int (l.length : Nat)) := by
  rw [builtin_call (Names.len H)]
  simp only [builtin, elems_chain, ↓reduceIte]

theorem groups_attr (H : Imported w N) : attr w (.cls (n% "CharNames") (n% "CharNames")) (n% "_groups") = .ok (.list (chain (N.groups.map groupObject))) := by
  simp only [attr, H.groups]

theorem msb_attr (g : Verif.CharNames.Group) : attr w (groupObject g) (n% "msb") = .ok (.int g.msb) := rfl

theorem lt_pred (a b : Nat) : intLt (a : Int) ((b : Int) - ((1 : Nat) : Int)) = decide (a + 1 < b) := by
  rw [intLt_eq]; exact decide_eq_decide.2 (by omega)

theorem half (a : Nat) : Int.fdiv (a : Int) ((2 : Nat) : Int) = ((a / 2 : Nat) : Int) := by
  rw [Int.fdiv_eq_ediv_of_nonneg _ (by omega)]; rfl

theorem two_ne : ¬(((2 : Nat) : Int) = 0) := by decide

/-- CharNames.py:412 the condition of the loop. -/
def groupCond : Expr := (.bin .lt (.name (n% "start")) (.bin .sub (.name (n% "limit")) (.num 1)))

/-- CharNames.py:413-417 the body of the loop. -/
def groupBody : Stmt := (.seq (.assign (.name (n% "midpoint")) (.bin .floorDiv (.bin .add (.name (n% "start")) (.name (n% "limit"))) (.num 2))) (.seq (.ifs (.bin .lt (.name (n% "groupMSB")) (.attr (.index (.attr (.name (n% "cls")) (n% "_groups")) (.name (n% "midpoint"))) (n% "msb"))) (.seq (.assign (.name (n% "limit")) (.name (n% "midpoint"))) .skip) (.seq (.assign (.name (n% "start")) (.name (n% "midpoint"))) .skip)) .skip))

theorem getGroup_text : Syntax.CharNames.CharNames.getGroup = (.deco (.name (n% "classmethod")) (.defn (n% "getGroup") (.cons (.name (n% "cls")) (.cons (.name (n% "code")) .nil)) (.seq (.assign (.name (n% "groupMSB")) (.bin .shr (.name (n% "code")) (.name (n% "GROUP_SHIFT")))) (.seq (.assign (.name (n% "start")) (.num 0)) (.seq (.assign (.name (n% "limit")) (.call (.name (n% "len")) (.cons (.attr (.name (n% "cls")) (n% "_groups")) .nil))) (.seq (.while groupCond groupBody) (.seq (.ret (.cond (.bin .eq (.attr (.index (.attr (.name (n% "cls")) (n% "_groups")) (.name (n% "start"))) (n% "msb")) (.name (n% "groupMSB"))) (.index (.attr (.name (n% "cls")) (n% "_groups")) (.name (n% "start"))) (.name (n% "None")))) .skip))))))) := rfl

/-- What is known about the variables during the search. -/
structure Searching (msb start limit : Nat) (env : Env) : Prop where
  cls : getVar (n% "cls") env = some (.cls (n% "CharNames") (n% "CharNames"))
  msb : getVar (n% "groupMSB") env = some (.int msb)
  start : getVar (n% "start") env = some (.int start)
  limit : getVar (n% "limit") env = some (.int limit)
  none : getVar (n% "None") env = none

theorem search_run (H : Imported w N) {n fuel msb : Nat} : ∀ (k : Nat) {start limit : Nat} {env : Env}, Searching msb start limit env → ∀ k', k ≤ k' →
    match getGroupLoop N.groups msb k start limit with
    | .error e => e = .diverges ∨ loop (test w (run w n) (n% "CharNames") groupCond) (exec w (run w n) fuel (n% "CharNames") groupBody) k' (env, []) = .error (.raised e)
    | .ok s => ∃ limit' env', loop (test w (run w n) (n% "CharNames") groupCond) (exec w (run w n) fuel (n% "CharNames") groupBody) k' (env, []) = .ok (.next, (env', [])) ∧
        Searching msb s limit' env' := by
  intro k
  induction k with
  | zero => intro start limit env _ k' _; exact .inl rfl
  | succ k ih =>
    intro start limit env h k' hk
    obtain ⟨k', rfl⟩ : ∃ j, k' = j + 1 := ⟨k' - 1, by omega⟩
    rw [getGroupLoop]
    by_cases h1 : start + 1 < limit
    · rw [if_pos h1]
      have d1 := decide_eq_true h1
      dsimp only
      cases hg : N.groups[(start + limit) / 2]? with
      | none =>
        right
        rw [loop]
        py_run [groupCond, groupBody, test, h.cls, h.msb, h.start, h.limit, lt_pred, d1, half, two_ne, getVar_setVar, groups_attr H, list_at, hg]
      | some g =>
        dsimp only
        by_cases h2 : msb < g.msb
        · rw [if_pos h2]
          have d2 := decide_eq_true h2
          have i := ih (start := start) (limit := (start + limit) / 2) (env := setVar (n% "limit") (.int ((start + limit) / 2 : Nat)) (setVar (n% "midpoint") (.int ((start + limit) / 2 : Nat)) env))
            (by constructor <;> simp only [getVar_setVar, Nat.reduceEqDiff, ↓reduceIte, h.cls, h.msb, h.start, h.none]) k' (by omega)
          have e : loop (test w (run w n) (n% "CharNames") groupCond) (exec w (run w n) fuel (n% "CharNames") groupBody) (k' + 1) (env, []) =
              loop (test w (run w n) (n% "CharNames") groupCond) (exec w (run w n) fuel (n% "CharNames") groupBody) k'
                (setVar (n% "limit") (.int ((start + limit) / 2 : Nat)) (setVar (n% "midpoint") (.int ((start + limit) / 2 : Nat)) env), []) := by
            rw [loop]
            py_run [groupCond, groupBody, test, h.cls, h.msb, h.start, h.limit, lt_pred, d1, half, two_ne, getVar_setVar, groups_attr H, list_at, hg, msb_attr, d2]
          rw [e]; exact i
        · rw [if_neg h2]
          have d2 := decide_eq_false h2
          have i := ih (start := (start + limit) / 2) (limit := limit) (env := setVar (n% "start") (.int ((start + limit) / 2 : Nat)) (setVar (n% "midpoint") (.int ((start + limit) / 2 : Nat)) env))
            (by constructor <;> simp only [getVar_setVar, Nat.reduceEqDiff, ↓reduceIte, h.cls, h.msb, h.limit, h.none]) k' (by omega)
          have e : loop (test w (run w n) (n% "CharNames") groupCond) (exec w (run w n) fuel (n% "CharNames") groupBody) (k' + 1) (env, []) =
              loop (test w (run w n) (n% "CharNames") groupCond) (exec w (run w n) fuel (n% "CharNames") groupBody) k'
                (setVar (n% "start") (.int ((start + limit) / 2 : Nat)) (setVar (n% "midpoint") (.int ((start + limit) / 2 : Nat)) env), []) := by
            rw [loop]
            py_run [groupCond, groupBody, test, h.cls, h.msb, h.start, h.limit, lt_pred, d1, half, two_ne, getVar_setVar, groups_attr H, list_at, hg, msb_attr, d2]
          rw [e]; exact i
    · rw [if_neg h1]
      have d1 := decide_eq_false h1
      refine ⟨limit, env, ?_, h⟩
      rw [loop]
      py_run [groupCond, test, h.start, h.limit, lt_pred, d1]

/-- The search ends. -/
theorem search_ends (gs : List Verif.CharNames.Group) (msb : Nat) : ∀ (k start limit : Nat), limit - start < k → getGroupLoop gs msb k start limit ≠ .error .diverges := by
  intro k
  induction k with
  | zero => intro start limit h; omega
  | succ k ih =>
    intro start limit h
    rw [getGroupLoop]
    by_cases h1 : start + 1 < limit
    · rw [if_pos h1]
      dsimp only
      cases gs[(start + limit) / 2]? with
      | none => exact fun e => nomatch e
      | some g =>
        dsimp only
        by_cases h2 : msb < g.msb
        · rw [if_pos h2]; exact ih _ _ (by omega)
        · rw [if_neg h2]; exact ih _ _ (by omega)
    · rw [if_neg h1]; exact fun e => nomatch e

/-- A group or `None`. -/
def groupValue : Option Verif.CharNames.Group → Val
  | some g => groupObject g
  | none => .none

theorem getGroup_run (H : Imported w N) {n : Nat} (code : Nat) (hn : N.groups.length < n) :
    callMethod w (run w (n + 1)) (.cls (n% "CharNames") (n% "CharNames")) (n% "getGroup") (.cons (.int code) .nil) = lift ((getGroup N.groups code).map groupValue) := by
  have h : Searching (code >>> 5) 0 N.groups.length [(n% "cls", .cls (n% "CharNames") (n% "CharNames")), (n% "code", .int code), (n% "groupMSB", .int (code >>> 5 : Nat)),
      (n% "start", .int (0 : Nat)), (n% "limit", .int (N.groups.length : Nat))] := by
    constructor <;> simp only [getVar, Nat.reduceEqDiff, ↓reduceIte]
  have q := search_run H (n := n) (fuel := n) (N.groups.length + 1) h n hn
  have q' := search_ends N.groups (code >>> 5) (N.groups.length + 1) 0 N.groups.length (by omega)
  unfold getGroup
  rw [show code / 2 ^ Verif.CharNames.GROUP_SHIFT = code >>> 5 from (Nat.shiftRight_eq_div_pow ..).symm]
  show _ = lift (Except.map groupValue ((getGroupLoop N.groups (code >>> 5) (N.groups.length + 1) 0 N.groups.length).bind _))
  have hb : yields groupBody = false := rfl
  cases hx : getGroupLoop N.groups (code >>> 5) (N.groups.length + 1) 0 N.groups.length with
  | error e =>
    rw [hx] at q q'
    have q := (show _ ∨ _ from q).resolve_left fun e' => q' (by rw [e'])
    py_run [callMethod, Names.getGroup H, clsFnOf, getGroup_text, hb, Names.GROUP_SHIFT H, groups_attr H, len_list H, List.length_map, q, Except.bind, Except.map]
  | ok s =>
    rw [hx] at q
    obtain ⟨limit', env', q1, q2⟩ := show ∃ a b, _ from q
    cases hg : N.groups[s]? with
    | none =>
      py_run [callMethod, Names.getGroup H, clsFnOf, getGroup_text, hb, Names.GROUP_SHIFT H, groups_attr H, len_list H, List.length_map, q1, q2.cls, q2.start, list_at, hg, Except.bind, Except.map]
    | some g =>
      by_cases hm : g.msb = code >>> 5
      · py_run [callMethod, Names.getGroup H, clsFnOf, getGroup_text, hb, Names.GROUP_SHIFT H, groups_attr H, len_list H, List.length_map, q1, q2.cls, q2.start, q2.msb, list_at, hg, msb_attr,
          decide_eq_true hm, Except.bind, Except.map]
        rw [if_pos hm]; rfl
      · py_run [callMethod, Names.getGroup H, clsFnOf, getGroup_text, hb, Names.GROUP_SHIFT H, groups_attr H, len_list H, List.length_map, q1, q2.cls, q2.start, q2.msb, q2.none, list_at, hg, msb_attr,
          Names.None H, decide_eq_false hm, Except.bind, Except.map]
        rw [if_neg hm]; rfl

theorem cls_call {m c f m' : Nat} {d : Stmt} (h : w.find m c f = clsFnOf m' d) (call : Call) (a : Val) :
    callMethod w call (.cls m c) f a = match clsFnOf m' d with
      | some (.fn m' ps b true) => (call m' ps b (.cons (.cls m c) a)).map Prod.fst
      | _ => .error .stuck := by
  rw [callMethod, h]; rfl

theorem isNot_group (g : Verif.CharNames.Group) : Op.apply .isNot (groupObject g) .none = .ok (.bool true) := rfl

theorem splitAt_eq (l : List Nat) : splitAt (.int (59 : Nat)) (l.map fun (n : Nat) => .int (n : Int)) = (splitSemicolon l).map fun s => s.map fun (n : Nat) => .int (n : Int) := by
  induction l with
  | nil => rfl
  | cons c l ih =>
    rw [List.map_cons, splitAt, splitSemicolon, ih]
    by_cases h : c = 59
    · rw [if_pos (by rw [h]), if_pos (show c = Verif.CharNames.CP_SEMICOLON from h)]; rfl
    · rw [if_neg (fun e => h (by injection e with e; omega)), if_neg (show ¬c = Verif.CharNames.CP_SEMICOLON from h)]
      cases splitSemicolon l <;> rfl

theorem split_call (call : Call) (l : List Nat) : callMethod w call (bytes l) (n% "split") (.cons (.str [59]) .nil) = .ok (.list (chain ((splitSemicolon l).map bytes))) := by
  simp only [bytes, callMethod, elems_chain, ↓reduceIte]
  rw [splitAt_eq, List.map_map]
  rfl

theorem split_mem (l : List Nat) : ∀ f ∈ splitSemicolon l, (∀ b ∈ f, b ∈ l) ∧ f.length ≤ l.length := by
  induction l with
  | nil => intro f hf; cases hf with
    | head => exact ⟨fun _ h => h, Nat.le_refl _⟩
    | tail _ h => cases h
  | cons c l ih =>
    intro f hf
    rw [splitSemicolon] at hf
    split at hf
    · cases hf with
      | head => exact ⟨(by simp), (by simp)⟩
      | tail _ h => exact ⟨fun b hb => .tail _ ((ih f h).1 b hb), Nat.le_succ_of_le (ih f h).2⟩
    · split at hf
      · rename_i e
        cases hf with
        | head => exact ⟨(by simp), (by simp)⟩
        | tail _ h => cases h
      · rename_i g gs e
        rw [e] at ih
        cases hf with
        | head => exact ⟨fun b hb => by
            cases hb with
            | head => exact .head _
            | tail _ hb => exact .tail _ ((ih g (.head _)).1 b hb), Nat.succ_le_succ (ih g (.head _)).2⟩
        | tail _ h => exact ⟨fun b hb => .tail _ ((ih f (.tail _ h)).1 b hb), Nat.le_succ_of_le (ih f (.tail _ h)).2⟩

theorem strings_field (g : Verif.CharNames.Group) : attr w (groupObject g) (n% "strings") = .ok (.list (chain (g.strings.map bytes))) := rfl

theorem expandName_call (H : Imported w N) (call : Call) (g : Verif.CharNames.Group) (a : Val) :
    callMethod w call (groupObject g) (n% "expandName") a =
      match fnOf (n% "CharNames") Syntax.CharNames.Group.expandName with
      | some (.fn m ps b _) => (call m ps b (.cons (groupObject g) a)).map Prod.fst
      | _ => .error .stuck := by
  simp only [groupObject, callMethod, Names.expandName H]; rfl

theorem expandName_run (H : Imported w N) (hs : ∀ b ∈ N.tokens.strings, b < 256) {n : Nat} (g : Verif.CharNames.Group) (line ch : Nat) (hf : N.tokens.strings.length < n)
    (hg : ∀ s ∈ g.strings, (∀ b ∈ s, b < 256) ∧ s.length < n) :
    callMethod w (run w (n + 2)) (groupObject g) (n% "expandName") (.cons (.int line) (.cons (.int ch) .nil)) = lift ((g.expandName N.tokens line ch).map .str) := by
  rw [expandName_call H, Verif.CharNames.Group.expandName]
  cases hl : g.strings[line]? with
  | none => py_run [Syntax.CharNames.Group.expandName, strings_field, list_at, hl, Except.map]
  | some s =>
    have hm := hg s (List.mem_of_getElem? hl)
    dsimp only
    by_cases h0 : ch = 0
    · rw [if_neg (fun h => h.1 h0)]
      have q := expandString_run H hs (n := n) (l := s) (ch := ch) hf hm.1 (.inl rfl) hm.2
      py_run [Syntax.CharNames.Group.expandName, strings_field, list_at, hl, Names.U_UNICODE_CHAR_NAME H, Names.TokensClass H, decide_eq_true h0, Bool.not_true, q]
      cases N.tokens.expandString s ch <;> rfl
    · by_cases h2 : ch = 2
      · rw [if_neg (fun h => h.2 h2)]
        have q := expandString_run H hs (n := n) (l := s) (ch := ch) hf hm.1 (.inl rfl) hm.2
        py_run [Syntax.CharNames.Group.expandName, strings_field, list_at, hl, Names.U_UNICODE_CHAR_NAME H, Names.U_EXTENDED_CHAR_NAME H, Names.TokensClass H, decide_eq_false h0, decide_eq_true h2,
          Bool.not_true, Bool.not_false, q]
        cases N.tokens.expandString s ch <;> rfl
      · rw [if_pos ⟨h0, h2⟩]
        obtain ⟨k, hk⟩ : ∃ k, k = if ch = 4 then 2 else ch := ⟨_, rfl⟩
        have hk' : (if decide (ch = 4) = true then (Except.ok (.int (2 : Nat)) : R Val) else .ok (.int ch)) = .ok (.int k) := by
          rw [hk]; by_cases h4 : ch = 4
          · rw [if_pos h4, decide_eq_true h4]; rfl
          · rw [if_neg h4, decide_eq_false h4]; rfl
        rw [show (if ch = Verif.CharNames.U_ISO_COMMENT then 2 else ch) = k from hk.symm]
        cases hx : (splitSemicolon s)[k]? with
        | none =>
          have hd : ¬k < (splitSemicolon s).length := Nat.not_lt.2 (List.getElem?_eq_none_iff.1 hx)
          have e : (splitSemicolon s).getD k [] = [] := by rw [List.getD_eq_getElem?_getD, hx]; rfl
          rw [e]
          have q := expandString_run H hs (n := n) (l := []) (ch := ch) hf (fun _ h => nomatch h) (.inr ⟨rfl, rfl⟩) (Nat.lt_of_le_of_lt (Nat.zero_le _) hf)
          py_run [Syntax.CharNames.Group.expandName, strings_field, list_at, hl, Names.U_UNICODE_CHAR_NAME H, Names.U_EXTENDED_CHAR_NAME H, Names.U_ISO_COMMENT H, Names.TokensClass H,
            decide_eq_false h0, decide_eq_false h2, Bool.not_false, hk', split_call, len_list H, List.length_map, decide_eq_false hd, q]
          cases N.tokens.expandString [] ch <;> rfl
        | some f =>
          have hd : k < (splitSemicolon s).length := (List.getElem?_eq_some_iff.1 hx).1
          have e : (splitSemicolon s).getD k [] = f := by rw [List.getD_eq_getElem?_getD, hx]; rfl
          rw [e]
          have hf' := split_mem s f (List.mem_of_getElem? hx)
          have q := expandString_run H hs (n := n) (l := f) (ch := ch) hf (fun b h => hm.1 b (hf'.1 b h)) (.inl rfl) (Nat.lt_of_le_of_lt hf'.2 hm.2)
          py_run [Syntax.CharNames.Group.expandName, strings_field, list_at, hl, Names.U_UNICODE_CHAR_NAME H, Names.U_EXTENDED_CHAR_NAME H, Names.U_ISO_COMMENT H, Names.TokensClass H,
            decide_eq_false h0, decide_eq_false h2, Bool.not_false, hk', split_call, len_list H, List.length_map, decide_eq_true hd, hx, q]
          cases N.tokens.expandString f ch <;> rfl

/-- The file is made of bytes, and `n` is greater than the sizes of what it contains. -/
structure Sized (N : Verif.CharNames.Names) (n : Nat) : Prop where
  strings : ∀ b ∈ N.tokens.strings, b < 256
  tokens : N.tokens.strings.length < n
  groups : N.groups.length < n
  group : ∀ g ∈ N.groups, ∀ s ∈ g.strings, (∀ b ∈ s, b < 256) ∧ s.length < n

theorem getGroup_mem {code : Nat} {g : Verif.CharNames.Group} {gs : List Verif.CharNames.Group} (h : getGroup gs code = .ok (some g)) : g ∈ gs := by
  unfold getGroup at h
  simp only [bind, Except.bind] at h
  split at h
  · cases h
  · split at h
    · cases h
    · rename_i hg
      injection h with h
      split at h
      · injection h with h; exact h ▸ List.mem_of_getElem? hg
      · cases h

theorem groupName_run (H : Imported w N) {n : Nat} (S : Sized N n) (code ch : Nat) :
    callMethod w (run w (n + 3)) (.cls (n% "CharNames") (n% "CharNames")) (n% "_getName") (.cons (.int code) (.cons (.int ch) .nil)) = lift ((N.groupName code ch).map .str) := by
  have q := getGroup_run H (n := n + 1) code (Nat.lt_succ_of_lt S.groups)
  unfold Verif.CharNames.Names.groupName
  rw [cls_call (Names._getName H)]
  cases hg : getGroup N.groups code with
  | error e =>
    rw [hg] at q
    py_run [clsFnOf, Syntax.CharNames.CharNames._getName, q, Except.map]
  | ok g =>
    rw [hg] at q
    cases g with
    | none =>
      py_run [clsFnOf, Syntax.CharNames.CharNames._getName, q, groupValue, Names.None H, decide_true, Bool.not_true, Except.map]
    | some g =>
      have q' := expandName_run H S.strings (n := n) g (code &&& 31) ch S.tokens (S.group g (getGroup_mem hg))
      py_run [clsFnOf, Syntax.CharNames.CharNames._getName, q, q', groupValue, ↓isNot_group, Names.None H, Names.GROUP_MASK H, Except.map]
      rw [show Verif.CharNames.GROUP_MASK = 31 from rfl]
      cases g.expandName N.tokens (code &&& 31) ch <;> rfl

end Verif.PyRun.Names

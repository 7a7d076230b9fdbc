import Verif.Lemmas.RunCharCat
/-! # The iterators of CharNames.py, executed from the text -/
namespace Verif.PyRun.Names
open Verif.PySyntax Verif.Library Verif.Data
open Verif.CharNames (AlgorithmicRange Gen namesOver getGroup iterLoop searchName)
set_option maxRecDepth 4000

variable {w : World} {N : Verif.CharNames.Names}

/-- A code point and a name. -/
def pair (p : Nat × Str) : Val := .tuple (.cons (.int p.1) (.cons (.str p.2) .nil))

/-- All pairs that `for code in codes: yield (code, f(code))` yields. -/
def pairs (f : Nat → Py Str) : List Nat → Py (List (Nat × Str))
  | [] => .ok []
  | c :: cs => do
    let s ← f c
    let l ← pairs f cs
    .ok ((c, s) :: l)

/-- A generator that is run to its end. -/
def toEnd (g : Gen (Nat × Str)) : Py (List (Nat × Str)) := match g.err with | some e => .error e | none => .ok g.items

theorem pairs_names (f : Nat → Py Str) (l : List Nat) : (pairs f l).map (List.filter fun p => !p.2.isEmpty) = toEnd (namesOver f l) := by
  induction l with
  | nil => rfl
  | cons c l ih =>
    rw [pairs, namesOver]
    cases f c with
    | error e => rfl
    | ok s =>
      simp only [bind, Except.bind, toEnd] at ih ⊢
      cases hp : pairs f l with
      | error e =>
        rw [hp] at ih
        cases he : (namesOver f l).err with
        | none => rw [he] at ih; cases ih
        | some e' => rw [he] at ih; exact ih
      | ok t =>
        rw [hp] at ih
        cases he : (namesOver f l).err with
        | some e' => rw [he] at ih; cases ih
        | none =>
          rw [he] at ih
          have ih : List.filter (fun p => !p.2.isEmpty) t = (namesOver f l).items := Except.ok.inj ih
          cases s with
          | nil => exact congrArg Except.ok ih
          | cons a s => exact congrArg (fun l => Except.ok ((c, a :: s) :: l)) ih

theorem pairs_run {x : Nat} {body : St → R (Flow × St)} {f : Nat → Py Str} {P : Env → Prop} : ∀ (l : List Nat),
    (∀ c ∈ l, ∀ env out, P env → P (setVar x (.int c) env) ∧ body (setVar x (.int c) env, out) =
      lift ((f c).map fun s => (Flow.next, (setVar x (.int c) env, out ++ [pair (c, s)])))) →
    ∀ {env : Env} {out : List Val}, P env →
    match pairs f l with
    | .error e => each (.name x) body (l.map fun (c : Nat) => .int (c : Int)) (env, out) = .error (.raised e)
    | .ok ps => ∃ env', each (.name x) body (l.map fun (c : Nat) => .int (c : Int)) (env, out) = .ok (.next, (env', out ++ ps.map pair)) := by
  intro l
  induction l with
  | nil => intro _ env out _; exact ⟨env, by rw [List.map_nil, List.map_nil, List.append_nil, each]⟩
  | cons c l ih =>
    intro hf env out h
    have q := hf c (.head _) env out h
    rw [pairs]
    cases hs : f c with
    | error e =>
      rw [hs] at q
      show each _ _ _ _ = _
      rw [List.map_cons, each]
      simp only [assign, bind, Except.bind, q.2, Except.map, lift]
    | ok s =>
      rw [hs] at q
      have e : each (.name x) body ((c :: l).map fun (c : Nat) => .int (c : Int)) (env, out) =
          each (.name x) body (l.map fun (c : Nat) => .int (c : Int)) (setVar x (.int c) env, out ++ [pair (c, s)]) := by
        rw [List.map_cons, each]
        simp only [assign, bind, Except.bind, q.2, Except.map, lift]
      rw [e]
      have ih := ih (fun c hc => hf c (.tail _ hc)) (out := out ++ [pair (c, s)]) q.1
      cases hp : pairs f l with
      | error e' =>
        rw [hp] at ih
        exact ih
      | ok ps =>
        rw [hp] at ih
        obtain ⟨env', ih⟩ := show ∃ env', _ from ih
        refine ⟨env', ih.trans ?_⟩
        rw [List.append_assoc]; rfl

/-- CharNames.py:264 -/
def groupYield : Stmt := (.seq (.yield (.tuple (.cons (.name (n% "code")) (.cons (.call (.attr (.name (n% "self")) (n% "expandName")) (.cons (.bin .and (.name (n% "code")) (.name (n% "GROUP_MASK"))) (.cons (.name (n% "nameChoice")) .nil))) .nil)))) .skip)

theorem groupIterator_text : Syntax.CharNames.Group.nameIterator = (.defn (n% "nameIterator") (.cons (.name (n% "self")) (.cons (.name (n% "nameChoice")) .nil)) (.seq (.for (.name (n% "code")) (.attr (.name (n% "self")) (n% "charRange")) groupYield) .skip)) := rfl

/-- CharNames.py:360 -/
def rangeYield : Stmt := (.seq (.yield (.tuple (.cons (.name (n% "code")) (.cons (.call (.attr (.name (n% "self")) (n% "getName")) (.cons (.name (n% "code")) (.cons (.name (n% "nameChoice")) .nil))) .nil)))) .skip)

theorem rangeIterator_text : Syntax.CharNames.AlgorithmicRange.nameIterator = (.defn (n% "nameIterator") (.cons (.name (n% "self")) (.cons (.name (n% "nameChoice")) .nil)) (.seq (.for (.name (n% "code")) (.attr (.name (n% "self")) (n% "charRange")) rangeYield) .skip)) := rfl

/-- What is known about the variables in these loops. -/
structure Inside (v : Val) (ch : Nat) (env : Env) : Prop where
  self : getVar (n% "self") env = some v
  choice : getVar (n% "nameChoice") env = some (.int ch)
  mask : getVar (n% "GROUP_MASK") env = none

theorem rangeList_nat (a b : Nat) : rangeList a b = (List.range' a (b - a)).map fun (c : Nat) => .int (c : Int) := by
  rw [rangeList, List.range'_eq_map_range, List.map_map, show ((b : Int) - (a : Int)).toNat = b - a by omega]
  exact List.map_congr_left fun i _ => congrArg Val.int (Int.natCast_add a i).symm

theorem group_call {f m : Nat} {d : Stmt} (h : w.find (n% "CharNames") (n% "Group") f = fnOf m d) (call : Call) (g : Verif.CharNames.Group) (a : Val) :
    callMethod w call (groupObject g) f a = match fnOf m d with
      | some (.fn m ps b false) => (call m ps b (.cons (groupObject g) a)).map Prod.fst
      | some (.fn m ps b true) => (call m ps b (.cons (.cls (n% "CharNames") (n% "Group")) a)).map Prod.fst
      | _ => .error .stuck := by
  rw [groupObject, callMethod, h]; rfl

theorem group_range (g : Verif.CharNames.Group) : attr w (groupObject g) (n% "charRange") = .ok (.range g.start g.stop) := rfl

theorem groupIterator_run (H : Imported w N) {n : Nat} (S : Sized N n) {g : Verif.CharNames.Group} (hg : g ∈ N.groups) (ch : Nat) :
    callMethod w (run w (n + 3)) (groupObject g) (n% "nameIterator") (.cons (.int ch) .nil) =
      lift ((pairs (fun c => g.expandName N.tokens (c &&& 31) ch) (List.range' g.start 32)).map fun l => .list (chain (l.map pair))) := by
  have q := pairs_run (x := n% "code") (body := exec w (run w (n + 2)) (n + 2) (n% "CharNames") groupYield) (f := fun c => g.expandName N.tokens (c &&& 31) ch)
    (P := Inside (groupObject g) ch) (List.range' g.start 32) (fun c _ env out h => by
      have q := expandName_run H S.strings g (c &&& 31) ch S.tokens (S.group g hg)
      refine ⟨by constructor <;> simp only [getVar_setVar, Nat.reduceEqDiff, ↓reduceIte, h.self, h.choice, h.mask], ?_⟩
      py_run [groupYield, getVar_setVar, h.self, h.choice, h.mask, Names.GROUP_MASK H, q]
      cases g.expandName N.tokens (c &&& 31) ch <;> rfl)
    (env := [(n% "self", groupObject g), (n% "nameChoice", .int ch)]) (out := []) (by constructor <;> simp only [getVar, Nat.reduceEqDiff, ↓reduceIte])
  have hy : yields groupYield = true := rfl
  rw [group_call (Names.groupIterator H)]
  have hl : rangeList (g.start : Int) (g.stop : Int) = (List.range' g.start 32).map fun (c : Nat) => .int (c : Int) := by
    rw [rangeList_nat, show g.stop - g.start = 32 from Nat.add_sub_cancel_left _ _]
  cases hp : pairs (fun c => g.expandName N.tokens (c &&& 31) ch) (List.range' g.start 32) with
  | error e =>
    rw [hp] at q
    py_run [groupIterator_text, hy, group_range, iter, hl, show _ = _ from q, Except.map]
  | ok ps =>
    rw [hp] at q
    obtain ⟨env', q⟩ := show ∃ env', _ from q
    py_run [groupIterator_text, hy, group_range, iter, hl, q, Except.map, List.nil_append]
    rfl

theorem rangeIterator_run (H : Imported w N) {n : Nat} (r : AlgorithmicRange) (ch : Nat) :
    callMethod w (run w (n + 3)) (rangeObject r) (n% "nameIterator") (.cons (.int ch) .nil) =
      lift ((pairs (fun c => r.getName c ch) (List.range' r.start (r.stop - r.start))).map fun l => .list (chain (l.map pair))) := by
  have q := pairs_run (x := n% "code") (body := exec w (run w (n + 2)) (n + 2) (n% "CharNames") rangeYield) (f := fun c => r.getName c ch)
    (P := Inside (rangeObject r) ch) (List.range' r.start (r.stop - r.start)) (fun c hc env out h => by
      have q := getName_run H (n := n) r c ch (List.mem_range'_1.1 hc).1
      refine ⟨by constructor <;> simp only [getVar_setVar, Nat.reduceEqDiff, ↓reduceIte, h.self, h.choice, h.mask], ?_⟩
      py_run [rangeYield, getVar_setVar, h.self, h.choice, q]
      cases r.getName c ch <;> rfl)
    (env := [(n% "self", rangeObject r), (n% "nameChoice", .int ch)]) (out := []) (by constructor <;> simp only [getVar, Nat.reduceEqDiff, ↓reduceIte])
  have hy : yields rangeYield = true := rfl
  rw [range_call (Names.rangeIterator H)]
  cases hp : pairs (fun c => r.getName c ch) (List.range' r.start (r.stop - r.start)) with
  | error e =>
    rw [hp] at q
    py_run [rangeIterator_text, hy, charRange_field, iter, rangeList_nat, show _ = _ from q, Except.map]
  | ok ps =>
    rw [hp] at q
    obtain ⟨env', q⟩ := show ∃ env', _ from q
    py_run [rangeIterator_text, hy, charRange_field, iter, rangeList_nat, q, Except.map, List.nil_append]
    rfl

theorem toEnd_append (g h : Gen (Nat × Str)) : toEnd (g.append h) = match toEnd g with | .error e => .error e | .ok l => (toEnd h).map (l ++ ·) := by
  obtain ⟨l, e⟩ := g
  obtain ⟨l', e'⟩ := h
  cases e <;> cases e' <;> rfl

/-- CharNames.py:469, 475 -/
def filterBody : Stmt := (.seq (.ifs (.name (n% "name")) (.seq (.yield (.tuple (.cons (.name (n% "code")) (.cons (.name (n% "name")) .nil)))) .skip) .skip) .skip)

theorem filter_step {call : Call} {fuel : Nat} (c : Nat) (s : Str) (env : Env) (out : List Val) :
    exec w call fuel (n% "CharNames") filterBody (setVar (n% "name") (.str s) (setVar (n% "code") (.int c) env), out) =
      .ok (.next, (setVar (n% "name") (.str s) (setVar (n% "code") (.int c) env), out ++ ([(c, s)].filter fun p => !p.2.isEmpty).map pair)) := by
  cases s with
  | nil =>
    py_run [filterBody, getVar_setVar, Val.truth, List.isEmpty_nil, Bool.not_true]
    rw [show ([(c, ([] : Str))].filter fun p => !p.2.isEmpty).map pair = [] from rfl, List.append_nil]
  | cons a s =>
    py_run [filterBody, getVar_setVar, Val.truth, List.isEmpty_cons, Bool.not_false]
    rfl

theorem filter_run {call : Call} {fuel : Nat} {P : Env → Prop} (hP : ∀ env c s, P env → P (setVar (n% "name") (.str s) (setVar (n% "code") (.int c) env))) : ∀ (l : List (Nat × Str))
    {env : Env} {out : List Val}, P env →
    ∃ env', each (.tuple (.cons (.name (n% "code")) (.cons (.name (n% "name")) .nil))) (exec w call fuel (n% "CharNames") filterBody) (l.map pair) (env, out) =
      .ok (.next, (env', out ++ (l.filter fun p => !p.2.isEmpty).map pair)) ∧ P env' := by
  intro l
  induction l with
  | nil => intro env out h; exact ⟨env, by rw [List.map_nil, List.filter_nil, List.map_nil, List.append_nil, each], h⟩
  | cons p l ih =>
    obtain ⟨c, s⟩ := p
    intro env out h
    obtain ⟨env', q, q'⟩ := ih (out := out ++ ([(c, s)].filter fun p => !p.2.isEmpty).map pair) (hP env c s h)
    refine ⟨env', ?_, q'⟩
    rw [List.append_assoc, ← List.map_append, ← List.filter_append] at q
    refine Eq.trans ?_ q
    rw [List.map_cons, each]
    simp only [show pair (c, s) = .tuple (.cons (.int c) (.cons (.str s) .nil)) from rfl, assign, assign.unpack, bind, Except.bind, filter_step]

/-- CharNames.py:466 -/
def inGroup : Expr := (.and (.name (n% "group")) (.bin .in' (.name (n% "char")) (.attr (.name (n% "group")) (n% "charRange"))))

/-- CharNames.py:468-470 -/
def groupNames : Stmt := (.seq (.for (.tuple (.cons (.name (n% "code")) (.cons (.name (n% "name")) .nil))) (.call (.attr (.name (n% "group")) (n% "nameIterator")) (.cons (.name (n% "nameChoice")) .nil)) filterBody) (.seq (.assign (.name (n% "char")) (.attr (.attr (.name (n% "group")) (n% "charRange")) (n% "stop"))) .skip))

/-- CharNames.py:471-479 -/
def rangeNames : Stmt := (.seq (.ifs (.and (.bin .lt (.name (n% "algRange")) (.call (.name (n% "len")) (.cons (.attr (.name (n% "cls")) (n% "_algorithmicRanges")) .nil))) (.call (.attr (.index (.attr (.name (n% "cls")) (n% "_algorithmicRanges")) (.name (n% "algRange"))) (n% "charInRange")) (.cons (.name (n% "char")) .nil))) (.seq (.assign (.name (n% "algorithmicRange")) (.index (.attr (.name (n% "cls")) (n% "_algorithmicRanges")) (.name (n% "algRange")))) (.seq (.for (.tuple (.cons (.name (n% "code")) (.cons (.name (n% "name")) .nil))) (.call (.attr (.name (n% "algorithmicRange")) (n% "nameIterator")) (.cons (.name (n% "nameChoice")) .nil)) filterBody) (.seq (.assign (.name (n% "char")) (.attr (.attr (.name (n% "algorithmicRange")) (n% "charRange")) (n% "stop"))) (.seq (.aug .add (.name (n% "algRange")) (.num 1)) .skip)))) (.seq (.aug .add (.name (n% "char")) (.name (n% "LINES_PER_GROUP"))) .skip)) .skip)

/-- CharNames.py:465-479 the body of the loop. -/
def iterBody : Stmt := (.seq (.assign (.name (n% "group")) (.call (.attr (.name (n% "cls")) (n% "getGroup")) (.cons (.name (n% "char")) .nil))) (.seq (.ifs inGroup groupNames rangeNames) .skip))

theorem nameIterator_text : Syntax.CharNames.CharNames.nameIterator = (.deco (.name (n% "classmethod")) (.defn (n% "nameIterator") (.cons (.name (n% "cls")) (.cons (.kwarg (n% "nameChoice") (.name (n% "U_UNICODE_CHAR_NAME"))) .nil)) (.seq (.assign (.name (n% "charLimit")) (.call (.name (n% "max")) (.cons (.attr (.attr (.index (.attr (.name (n% "cls")) (n% "_groups")) (.neg (.num 1))) (n% "charRange")) (n% "stop")) (.cons (.attr (.attr (.index (.attr (.name (n% "cls")) (n% "_algorithmicRanges")) (.neg (.num 1))) (n% "charRange")) (n% "stop")) .nil)))) (.seq (.assign (.name (n% "char")) (.num 0)) (.seq (.assign (.name (n% "algRange")) (.num 0)) (.seq (.while (.bin .lt (.name (n% "char")) (.name (n% "charLimit"))) iterBody) .skip)))))) := rfl

/-- What is known about the variables at the beginning of a round. -/
structure Walking (ch limit char alg : Nat) (env : Env) : Prop where
  cls : getVar (n% "cls") env = some (.cls (n% "CharNames") (n% "CharNames"))
  choice : getVar (n% "nameChoice") env = some (.int ch)
  limit : getVar (n% "charLimit") env = some (.int limit)
  char : getVar (n% "char") env = some (.int char)
  alg : getVar (n% "algRange") env = some (.int alg)
  lines : getVar (n% "LINES_PER_GROUP") env = none
  len : getVar (n% "len") env = none

/-- A variable that the loop does not need between the rounds. -/
theorem Walking.set {ch limit char alg : Nat} {env : Env} (h : Walking ch limit char alg env) {x : Nat} (hx : x ∈ [n% "group", n% "algorithmicRange", n% "code", n% "name"]) (v : Val) :
    Walking ch limit char alg (setVar x v env) := by
  simp only [List.mem_cons, List.not_mem_nil, or_false] at hx
  rcases hx with rfl | rfl | rfl | rfl <;>
    constructor <;> simp only [getVar_setVar, Nat.reduceEqDiff, ↓reduceIte, h.cls, h.choice, h.limit, h.char, h.alg, h.lines, h.len]

theorem Walking.setChar {ch limit char alg : Nat} {env : Env} (h : Walking ch limit char alg env) (c : Nat) :
    Walking ch limit c alg (setVar (n% "char") (.int c) env) := by
  constructor <;> simp only [getVar_setVar, Nat.reduceEqDiff, ↓reduceIte, h.cls, h.choice, h.limit, h.alg, h.lines, h.len]

theorem Walking.setAlg {ch limit char alg : Nat} {env : Env} (h : Walking ch limit char alg env) (a : Nat) :
    Walking ch limit char a (setVar (n% "algRange") (.int a) env) := by
  constructor <;> simp only [getVar_setVar, Nat.reduceEqDiff, ↓reduceIte, h.cls, h.choice, h.limit, h.char, h.lines, h.len]

theorem stop_field (a b : Int) : attr w (.range a b) (n% "stop") = .ok (.int b) := rfl

theorem groupNames_run (H : Imported w N) {n fuel ch limit char alg : Nat} (S : Sized N n) {g : Verif.CharNames.Group} (hg : g ∈ N.groups) {env : Env} {out : List Val}
    (h : Walking ch limit char alg env) (hv : getVar (n% "group") env = some (groupObject g)) :
    match toEnd (g.names N.tokens ch) with
    | .error e => exec w (run w (n + 3)) fuel (n% "CharNames") groupNames (env, out) = .error (.raised e)
    | .ok l => ∃ env', exec w (run w (n + 3)) fuel (n% "CharNames") groupNames (env, out) = .ok (.next, (env', out ++ l.map pair)) ∧ Walking ch limit g.stop alg env' := by
  have q := groupIterator_run H S hg ch
  have e : toEnd (g.names N.tokens ch) = _ := (pairs_names (fun c => g.expandName N.tokens (c &&& 31) ch) (List.range' g.start 32)).symm
  rw [e]
  cases hp : pairs (fun c => g.expandName N.tokens (c &&& 31) ch) (List.range' g.start 32) with
  | error e =>
    rw [hp] at q
    show exec _ _ _ _ _ _ = _
    py_run [groupNames, h.choice, hv, q, Except.map]
  | ok ps =>
    rw [hp] at q
    obtain ⟨env', q1, h', hv'⟩ := filter_run (w := w) (call := run w (n + 3)) (fuel := fuel) (P := fun env => Walking ch limit char alg env ∧ getVar (n% "group") env = some (groupObject g))
      (fun env c s h => ⟨(h.1.set (by simp) _).set (by simp) _, by simp only [getVar_setVar, Nat.reduceEqDiff, ↓reduceIte, h.2]⟩) ps (env := env) (out := out) ⟨h, hv⟩
    refine ⟨_, ?_, h'.setChar g.stop⟩
    py_run [groupNames, h.choice, hv, q, Except.map, iter, elems_chain, q1, hv', group_range, stop_field]

theorem rangeNames_run (H : Imported w N) {n fuel ch limit char alg : Nat} {env : Env} {out : List Val} (h : Walking ch limit char alg env) :
    match N.ranges[alg]?.filter (·.charInRange char) with
    | none => exec w (run w (n + 3)) fuel (n% "CharNames") rangeNames (env, out) = .ok (.next, (setVar (n% "char") (.int (char + 32 : Nat)) env, out))
    | some r =>
      match toEnd (r.names ch) with
      | .error e => exec w (run w (n + 3)) fuel (n% "CharNames") rangeNames (env, out) = .error (.raised e)
      | .ok l => ∃ env', exec w (run w (n + 3)) fuel (n% "CharNames") rangeNames (env, out) = .ok (.next, (env', out ++ l.map pair)) ∧ Walking ch limit r.stop (alg + 1) env' := by
  have ha : attr w (.cls (n% "CharNames") (n% "CharNames")) (n% "_algorithmicRanges") = .ok (.list (chain (N.ranges.map rangeObject))) := by
    simp only [attr, H.ranges]
  cases hr : N.ranges[alg]? with
  | none =>
    have hn := List.getElem?_eq_none_iff.1 hr
    show exec _ _ _ _ _ _ = _
    py_run [rangeNames, h.alg, h.len, h.cls, h.lines, h.char, ha, len_list H, List.length_map, decide_eq_false (Nat.not_lt.2 hn), Names.LINES_PER_GROUP H]
  | some r =>
    have hn := (List.getElem?_eq_some_iff.1 hr).1
    have hi : index w (.list (chain (N.ranges.map rangeObject))) (.int (alg : Nat)) = .ok (rangeObject r) := by rw [list_at, hr]
    have qc := charInRange_run H (n := n + 2) r char
    cases hc : r.charInRange char with
    | false =>
      rw [hc] at qc
      rw [Option.filter_some, hc]
      show exec _ _ _ _ _ _ = _
      py_run [rangeNames, h.alg, h.len, h.cls, h.lines, h.char, ha, len_list H, List.length_map, decide_eq_true hn, hi, qc, Names.LINES_PER_GROUP H]
    | true =>
      rw [hc] at qc
      rw [show Option.filter (fun x : AlgorithmicRange => x.charInRange char) (some r) = some r by rw [Option.filter_some, hc]; rfl]
      have q := rangeIterator_run H (n := n) r ch
      have e : toEnd (r.names ch) = _ := (pairs_names (fun c => r.getName c ch) (List.range' r.start (r.stop - r.start))).symm
      dsimp only
      rw [e]
      cases hp : pairs (fun c => r.getName c ch) (List.range' r.start (r.stop - r.start)) with
      | error e =>
        rw [hp] at q
        show exec _ _ _ _ _ _ = _
        py_run [rangeNames, h.alg, h.len, h.cls, h.lines, h.char, h.choice, ha, len_list H, List.length_map, decide_eq_true hn, hi, qc, getVar_setVar, q, Except.map]
      | ok ps =>
        rw [hp] at q
        obtain ⟨env', q1, h', hv'⟩ := filter_run (w := w) (call := run w (n + 3)) (fuel := fuel) (P := fun env => Walking ch limit char alg env ∧ getVar (n% "algorithmicRange") env = some (rangeObject r))
          (fun env c s h => ⟨(h.1.set (by simp) _).set (by simp) _, by simp only [getVar_setVar, Nat.reduceEqDiff, ↓reduceIte, h.2]⟩) ps
          (env := setVar (n% "algorithmicRange") (rangeObject r) env) (out := out) ⟨h.set (by simp) _, by simp only [getVar_setVar, ↓reduceIte]⟩
        refine ⟨_, ?_, (h'.setChar r.stop).setAlg (alg + 1)⟩
        py_run [rangeNames, h.alg, h.len, h.cls, h.lines, h.char, h.choice, ha, len_list H, List.length_map, decide_eq_true hn, hi, qc, getVar_setVar, q, Except.map, iter, elems_chain, q1,
          hv', h'.alg, charRange_field, stop_field]

theorem round_next {cond : Env → R Bool} {body : St → R (Flow × St)} {env : Env} {out : List Val} {s : St} {k : Nat} (h : body (env, out) = .ok (.next, s)) (h' : cond env = .ok true) :
    loop cond body (k + 1) (env, out) = loop cond body k s := by
  rw [loop]
  simp only [bind, Except.bind, h, h', ↓reduceIte]

theorem after {x : Py (List (Nat × Str))} {r : R (Flow × St)} {out : List Val} {l : List (Nat × Str)}
    (h : match x with
      | .error e => r = .error (.raised e)
      | .ok l' => ∃ env', r = .ok (.next, (env', (out ++ l.map pair) ++ l'.map pair))) :
    match x.map (l ++ ·) with
    | .error e => r = .error (.raised e)
    | .ok l' => ∃ env', r = .ok (.next, (env', out ++ l'.map pair)) := by
  cases x with
  | error e => exact h
  | ok l' =>
    obtain ⟨env', h⟩ := h
    refine ⟨env', h.trans ?_⟩
    rw [List.append_assoc, List.map_append]

theorem iter_run (H : Imported w N) {n fuel ch limit : Nat} (S : Sized N n) : ∀ (k : Nat) {char alg : Nat} {env : Env} {out : List Val}, limit - char < k → Walking ch limit char alg env →
    ∀ k', k ≤ k' →
    match toEnd (iterLoop N ch limit k char alg) with
    | .error e => loop (test w (run w (n + 3)) (n% "CharNames") (.bin .lt (.name (n% "char")) (.name (n% "charLimit")))) (exec w (run w (n + 3)) fuel (n% "CharNames") iterBody) k' (env, out) =
        .error (.raised e)
    | .ok l => ∃ env', loop (test w (run w (n + 3)) (n% "CharNames") (.bin .lt (.name (n% "char")) (.name (n% "charLimit")))) (exec w (run w (n + 3)) fuel (n% "CharNames") iterBody) k' (env, out) =
        .ok (.next, (env', out ++ l.map pair)) := by
  intro k
  induction k with
  | zero => intro char alg env out h; exact absurd h (Nat.not_lt_zero _)
  | succ k ih =>
    intro char alg env out hk h k' hk'
    obtain ⟨k', rfl⟩ : ∃ j, k' = j + 1 := ⟨k' - 1, by omega⟩
    rw [iterLoop]
    by_cases hc : char < limit
    · rw [if_pos hc]
      have tt : test w (run w (n + 3)) (n% "CharNames") (.bin .lt (.name (n% "char")) (.name (n% "charLimit"))) env = .ok true := by
        py_run [test, h.char, h.limit, decide_eq_true hc]
      have q := getGroup_run H (n := n + 2) char (Nat.lt_add_right 2 S.groups)
      cases hg : getGroup N.groups char with
      | error e =>
        rw [hg] at q
        show loop _ _ _ _ = _
        rw [loop]
        py_run [test, iterBody, h.char, h.limit, h.cls, decide_eq_true hc, q, Except.map]
      | ok g =>
        rw [hg] at q
        have h' : Walking ch limit char alg (setVar (n% "group") (groupValue g) env) := h.set (by simp) _
        have hv : getVar (n% "group") (setVar (n% "group") (groupValue g) env) = some (groupValue g) := by simp only [getVar_setVar, ↓reduceIte]
        dsimp only
        cases hf : g.filter fun g => decide (g.start ≤ char ∧ char < g.stop) with
        | some g' =>
          obtain ⟨hgg, hin⟩ := Option.filter_eq_some_iff.1 hf
          subst hgg
          have hin := of_decide_eq_true hin
          have r := groupNames_run H (fuel := fuel) S (getGroup_mem hg) (out := out) h' hv
          have hv' : getVar (n% "group") (setVar (n% "group") (groupValue (some g')) env) = some (groupObject g') := hv
          have ei : eval w (run w (n + 3)) (n% "CharNames") (setVar (n% "group") (groupValue (some g')) env) inGroup = .ok (.bool true) := by
            py_run [inGroup, hv', h'.char, group_range, ↓show Val.truth (groupObject g') = .ok true from rfl, decide_eq_true hin.1, decide_eq_true hin.2, Bool.and_self]
          dsimp only
          rw [toEnd_append]
          cases hn : toEnd (g'.names N.tokens ch) with
          | error e =>
            rw [hn] at r
            show loop _ _ _ _ = _
            rw [loop]
            py_run [test, iterBody, h.char, h.limit, h.cls, decide_eq_true hc, q, Except.map, ei, show _ = _ from r]
          | ok l =>
            rw [hn] at r
            obtain ⟨env', r, h2⟩ := show ∃ env', _ from r
            have st : exec w (run w (n + 3)) fuel (n% "CharNames") iterBody (env, out) = .ok (.next, (env', out ++ l.map pair)) := by
              py_run [iterBody, h.char, h.cls, q, Except.map, ei, r]
            have ih := ih (char := g'.stop) (alg := alg) (out := out ++ l.map pair) (by omega) h2 k' (by omega)
            rw [← round_next st tt] at ih
            exact after ih
        | none =>
          have ei : ∃ v, eval w (run w (n + 3)) (n% "CharNames") (setVar (n% "group") (groupValue g) env) inGroup = .ok v ∧ v.truth = .ok false := by
            cases g with
            | none =>
              have hv' : getVar (n% "group") (setVar (n% "group") (groupValue none) env) = some .none := hv
              refine ⟨.none, ?_, rfl⟩
              py_run [inGroup, hv']
            | some g =>
              have hv' : getVar (n% "group") (setVar (n% "group") (groupValue (some g)) env) = some (groupObject g) := hv
              refine ⟨.bool false, ?_, rfl⟩
              have hd : (decide (g.start ≤ char) && decide (char < g.stop)) = false := by
                rw [← Bool.decide_and]
                exact Bool.eq_false_iff.2 (Option.filter_eq_none_iff.1 hf g rfl)
              py_run [inGroup, hv', h'.char, group_range, ↓show Val.truth (groupObject g) = .ok true from rfl, hd]
          obtain ⟨v, ei, et⟩ := ei
          have r := rangeNames_run H (n := n) (fuel := fuel) (out := out) h'
          dsimp only
          cases hr : N.ranges[alg]?.filter (·.charInRange char) with
          | none =>
            rw [hr] at r
            have r : exec _ _ _ _ _ _ = _ := r
            have st : exec w (run w (n + 3)) fuel (n% "CharNames") iterBody (env, out) = .ok (.next, (setVar (n% "char") (.int (char + 32 : Nat)) (setVar (n% "group") (groupValue g) env), out)) := by
              py_run [iterBody, h.char, h.cls, q, Except.map, ei, ↓et, r]
            have ih := ih (char := char + 32) (alg := alg) (out := out) (by omega) (h'.setChar _) k' (by omega)
            rw [← round_next st tt] at ih
            exact ih
          | some a =>
            have hin : char < a.stop := by
              have := (Option.filter_eq_some_iff.1 hr).2
              exact (of_decide_eq_true (show decide (a.start ≤ char ∧ char < a.stop) = true from this)).2
            rw [hr] at r
            dsimp only at r ⊢
            rw [toEnd_append]
            cases hn : toEnd (a.names ch) with
            | error e =>
              rw [hn] at r
              show loop _ _ _ _ = _
              rw [loop]
              py_run [test, iterBody, h.char, h.limit, h.cls, decide_eq_true hc, q, Except.map, ei, ↓et, show _ = _ from r]
            | ok l =>
              rw [hn] at r
              obtain ⟨env', r, h2⟩ := show ∃ env', _ from r
              have st : exec w (run w (n + 3)) fuel (n% "CharNames") iterBody (env, out) = .ok (.next, (env', out ++ l.map pair)) := by
                py_run [iterBody, h.char, h.cls, q, Except.map, ei, ↓et, r]
              have ih := ih (char := a.stop) (alg := alg + 1) (out := out ++ l.map pair) (by omega) h2 k' (by omega)
              rw [← round_next st tt] at ih
              exact after ih
    · rw [if_neg hc]
      refine ⟨env, ?_⟩
      rw [loop]
      py_run [test, h.char, h.limit, decide_eq_false hc, List.map_nil, List.append_nil]

/-- The last element of a list. -/
theorem last_at {α : Type} (f : α → Val) (l : List α) : index w (.list (chain (l.map f))) (.int (-(1 : Nat))) = lift (match l.getLast? with | some v => .ok (f v) | none => .error .indexError) := by
  rw [index, elems_chain]
  cases l with
  | nil => rfl
  | cons v l =>
    have e : (((List.map f (v :: l)).length : Int) + -((1 : Nat) : Int)).toNat = l.length := by simp; omega
    rw [pyGet, if_neg (by decide), if_pos (by simp; omega), e, List.getElem?_map, List.getLast?_eq_getElem?, List.length_cons, Nat.add_sub_cancel]
    cases (v :: l)[l.length]? <;> rfl

/-- How many rounds are enough. -/
def rounds (N : Verif.CharNames.Names) : Nat := match N.groups.getLast?, N.ranges.getLast? with
  | some g, some r => max g.stop r.stop
  | _, _ => 0

theorem nameIterator_run (H : Imported w N) {n : Nat} (S : Sized N n) (hn : rounds N < n) (ch : Nat) :
    callMethod w (run w (n + 4)) (.cls (n% "CharNames") (n% "CharNames")) (n% "nameIterator") (.cons (.int ch) .nil) =
      lift ((toEnd (N.nameIterator ch)).map fun l => .list (chain (l.map pair))) := by
  have ha : attr w (.cls (n% "CharNames") (n% "CharNames")) (n% "_algorithmicRanges") = .ok (.list (chain (N.ranges.map rangeObject))) := by
    simp only [attr, H.ranges]
  have hy : yields iterBody = true := rfl
  have hig := last_at (w := w) groupObject N.groups
  have hir := last_at (w := w) rangeObject N.ranges
  rw [cls_call (Names.nameIterator H), Verif.CharNames.Names.nameIterator]
  cases hg : N.groups.getLast? with
  | none =>
    rw [hg] at hig
    dsimp only at hig
    py_run [clsFnOf, nameIterator_text, hy, groups_attr H, hig, Except.map, toEnd, Gen.raise]
  | some g =>
    rw [hg] at hig
    cases hr : N.ranges.getLast? with
    | none =>
      rw [hr] at hir
      py_run [clsFnOf, nameIterator_text, hy, groups_attr H, ha, hig, hir, group_range, stop_field, Except.map, toEnd, Gen.raise]
    | some r =>
      rw [hr] at hir
      rw [rounds, hg, hr] at hn
      dsimp only at hn ⊢
      have hm : ∀ call, callName w call (n% "CharNames") (n% "max") (.cons (.int g.stop) (.cons (.int r.stop) .nil)) = .ok (.int (max g.stop r.stop : Nat)) := fun call => by
        have : (if (r.stop : Int) > g.stop then (r.stop : Int) else g.stop) = (max g.stop r.stop : Nat) := by
          split <;> omega
        py_run [callName, builtin, Names.max H, this]
      have q := iter_run H (n := n) (fuel := n + 3) (ch := ch) (limit := max g.stop r.stop) S (max g.stop r.stop + 1) (char := 0) (alg := 0)
        (env := [(n% "cls", .cls (n% "CharNames") (n% "CharNames")), (n% "nameChoice", .int ch), (n% "charLimit", .int (max g.stop r.stop : Nat)), (n% "char", .int (0 : Nat)), (n% "algRange", .int (0 : Nat))])
        (out := []) (by omega) (by constructor <;> simp only [getVar, Nat.reduceEqDiff, ↓reduceIte]) (n + 3) (by omega)
      cases hl : toEnd (iterLoop N ch (max g.stop r.stop) (max g.stop r.stop + 1) 0 0) with
      | error e =>
        rw [hl] at q
        py_run [clsFnOf, nameIterator_text, hy, groups_attr H, ha, hig, hir, group_range, charRange_field, stop_field, hm, show _ = _ from q, Except.map]
      | ok l =>
        rw [hl] at q
        obtain ⟨env', q⟩ := show ∃ env', _ from q
        py_run [clsFnOf, nameIterator_text, hy, groups_attr H, ha, hig, hir, group_range, charRange_field, stop_field, hm, q, Except.map, List.nil_append]
        rfl

/-- CharNames.py:484-485 -/
def findBody : Stmt := (.seq (.ifs (.bin .eq (.name (n% "name")) (.name (n% "theName"))) (.seq (.ret (.name (n% "code"))) .skip) .skip) .skip)

theorem charFromName_text : Syntax.CharNames.CharNames.charFromName = (.deco (.name (n% "classmethod")) (.defn (n% "charFromName") (.cons (.name (n% "cls")) (.cons (.name (n% "theName")) (.cons (.kwarg (n% "nameChoice") (.name (n% "U_UNICODE_CHAR_NAME"))) .nil))) (.seq (.for (.tuple (.cons (.name (n% "code")) (.cons (.name (n% "name")) .nil))) (.call (.attr (.name (n% "cls")) (n% "nameIterator")) (.cons (.name (n% "nameChoice")) .nil)) findBody) (.seq (.ret (.num 0xffffffff)) .skip)))) := rfl

theorem find_run {call : Call} {fuel : Nat} {name : Str} : ∀ (l : List (Nat × Str)) {env : Env}, getVar (n% "theName") env = some (.str name) →
    ∃ env', each (.tuple (.cons (.name (n% "code")) (.cons (.name (n% "name")) .nil))) (exec w call fuel (n% "CharNames") findBody) (l.map pair) (env, []) =
      .ok (match l.find? fun p => decide (p.2 = name) with | some p => (.ret (.int p.1), (env', [])) | none => (.next, (env', []))) := by
  intro l
  induction l with
  | nil => intro env h; exact ⟨env, rfl⟩
  | cons p l ih =>
    obtain ⟨c, s⟩ := p
    intro env h
    have h' : getVar (n% "theName") (setVar (n% "name") (.str s) (setVar (n% "code") (.int c) env)) = some (.str name) := by
      simp only [getVar_setVar, Nat.reduceEqDiff, ↓reduceIte, h]
    by_cases hs : s = name
    · refine ⟨setVar (n% "name") (.str s) (setVar (n% "code") (.int c) env), ?_⟩
      rw [List.find?_cons_of_pos (by simpa using hs), List.map_cons, each]
      have st : exec w call fuel (n% "CharNames") findBody (setVar (n% "name") (.str s) (setVar (n% "code") (.int c) env), []) =
          .ok (.ret (.int c), (setVar (n% "name") (.str s) (setVar (n% "code") (.int c) env), [])) := by
        py_run [findBody, getVar_setVar, h, decide_eq_true hs]
      simp only [show pair (c, s) = .tuple (.cons (.int c) (.cons (.str s) .nil)) from rfl, assign, assign.unpack, bind, Except.bind, st]
    · obtain ⟨env', q⟩ := ih h'
      refine ⟨env', ?_⟩
      rw [List.find?_cons_of_neg (by simpa using hs), ← q, List.map_cons, each]
      have st : exec w call fuel (n% "CharNames") findBody (setVar (n% "name") (.str s) (setVar (n% "code") (.int c) env), []) =
          .ok (.next, (setVar (n% "name") (.str s) (setVar (n% "code") (.int c) env), [])) := by
        py_run [findBody, getVar_setVar, h, decide_eq_false hs]
      simp only [show pair (c, s) = .tuple (.cons (.int c) (.cons (.str s) .nil)) from rfl, assign, assign.unpack, bind, Except.bind, st]

theorem search_find (name : Str) (l : List (Nat × Str)) : searchName name none l = .ok (match l.find? fun p => decide (p.2 = name) with | some p => p.1 | none => 0xFFFFFFFF) := by
  induction l with
  | nil => rfl
  | cons p l ih =>
    obtain ⟨c, s⟩ := p
    rw [searchName]
    by_cases hs : s = name
    · rw [if_pos hs, List.find?_cons_of_pos (by simpa using hs)]
    · rw [if_neg hs, List.find?_cons_of_neg (by simpa using hs), ih]

theorem charFromName_run (H : Imported w N) {n : Nat} (S : Sized N n) (hn : rounds N < n) (name : Str) (ch : Nat) (he : (N.nameIterator ch).err = none) :
    callMethod w (run w (n + 5)) (.cls (n% "CharNames") (n% "CharNames")) (n% "charFromName") (.cons (.str name) (.cons (.int ch) .nil)) =
      lift ((N.charFromName name ch).map fun (c : Nat) => .int (c : Int)) := by
  have q := nameIterator_run H S hn ch
  rw [toEnd, he] at q
  have hy : yields findBody = false := rfl
  rw [cls_call (Names.charFromName H), Verif.CharNames.Names.charFromName]
  rw [he, search_find]
  obtain ⟨env', q'⟩ := find_run (w := w) (call := run w (n + 4)) (fuel := n + 4) (name := name) (N.nameIterator ch).items
    (env := [(n% "cls", .cls (n% "CharNames") (n% "CharNames")), (n% "theName", .str name), (n% "nameChoice", .int ch)]) rfl
  cases hf : (N.nameIterator ch).items.find? fun p => decide (p.2 = name) with
  | none =>
    rw [hf] at q'
    py_run [clsFnOf, charFromName_text, hy, q, Except.map, iter, elems_chain, q']
  | some p =>
    rw [hf] at q'
    py_run [clsFnOf, charFromName_text, hy, q, Except.map, iter, elems_chain, q']

theorem nameIterator_default (H : Imported w N) {n : Nat} (S : Sized N n) (hn : rounds N < n) :
    callMethod w (run w (n + 4)) (.cls (n% "CharNames") (n% "CharNames")) (n% "nameIterator") .nil =
      lift ((toEnd (N.nameIterator 0)).map fun l => .list (chain (l.map pair))) := by
  rw [← nameIterator_run H S hn, cls_call (Names.nameIterator H), cls_call (Names.nameIterator H)]
  have hy : yields iterBody = true := rfl
  py_run [clsFnOf, nameIterator_text, hy, Names.U_UNICODE_CHAR_NAME H]

theorem charFromName_default (H : Imported w N) {n : Nat} (S : Sized N n) (hn : rounds N < n) (name : Str) (he : (N.nameIterator 0).err = none) :
    callMethod w (run w (n + 5)) (.cls (n% "CharNames") (n% "CharNames")) (n% "charFromName") (.cons (.str name) .nil) =
      lift ((N.charFromName name 0).map fun (c : Nat) => .int (c : Int)) := by
  rw [← charFromName_run H S hn name 0 he, cls_call (Names.charFromName H), cls_call (Names.charFromName H)]
  have hy : yields findBody = false := rfl
  py_run [clsFnOf, charFromName_text, hy, Names.U_UNICODE_CHAR_NAME H]

end Verif.PyRun.Names

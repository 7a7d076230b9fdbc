import Verif.Lemmas.RunCPTrie
/-! # `CPTrie.enumerator`, executed from the text of CPTrie.py -/
namespace Verif.PyRun.CPTries
open Verif.PySyntax Verif.Library Verif.Data
open Verif.CPTrie (EState enumValues enumBlock enumBlocks enumPass enumLoop enumFinish)
set_option maxRecDepth 4000

theorem facts' : cptrie.find 0 (n% "UCPTRIE_FAST_DATA_BLOCK_LENGTH") = some (.val (.int (64 : Nat))) ∧
    cptrie.find 0 (n% "UCPTRIE_SMALL_DATA_BLOCK_LENGTH") = some (.val (.int (16 : Nat))) ∧
    cptrie.find 0 (n% "UCPTRIE_SMALL_LIMIT") = some (.val (.int (0x1000 : Nat))) ∧
    cptrie.find 0 (n% "UCPTRIE_CP_PER_INDEX_2_ENTRY") = some (.val (.int (512 : Nat))) ∧
    cptrie.find 0 (n% "range") = none ∧ cptrie.find 0 (n% "len") = none := by decide +kernel

theorem enumerator_method : cptrie.find (n% "CPTrie") (n% "enumerator") = fnOf (n% "CPTrie") Syntax.CPTrie.CPTrie.enumerator := by decide +kernel

/-- `v` is a `CPTrie` with the numbers of `t`, with what the enumerator reads. -/
structure IsWhole (w : World) (v iv dv : Val) (t : CPTrie) : Prop extends IsTrie w v iv dv t where
  dataNullOffset : attr w v (n% "dataNullOffset") = .ok (.int t.dataNullOffset)
  index3NullOffset : attr w v (n% "index3NullOffset") = .ok (.int t.index3NullOffset)
  length : builtin (n% "len") (.cons dv .nil) = .ok (.int t.data.size)

/-- What the enumerator yields. -/
def item (r : UTrie2.Run Nat) : Val := .tuple (.cons (.range r.start r.stop) (.cons (.int r.value) .nil))

/-- `-1` for no block. -/
def opt : Option Nat → Int
  | none => -(1 : Nat)
  | some n => n

/-- The variables of `enumerator`. -/
def locals : List Nat := [n% "self", n% "start", n% "limit", n% "prevI3Block", n% "prevBlock", n% "prev", n% "nullValue", n% "prevValue", n% "c", n% "i3Block",
  n% "i3Start", n% "dataBlockLength", n% "i1", n% "i3", n% "block", n% "group", n% "gi", n% "dataMask", n% "di", n% "value", n% "highValue"]

/-- The values of the variables between the statements. -/
structure At (v : Val) (start limit null : Nat) (s : EState) (env : Env) : Prop where
  self : getVar (n% "self") env = some v
  start : getVar (n% "start") env = some (.int start)
  limit : getVar (n% "limit") env = some (.int limit)
  null : getVar (n% "nullValue") env = some (.int null)
  prevI3 : getVar (n% "prevI3Block") env = some (.int (opt s.prevI3Block))
  prevBlock : getVar (n% "prevBlock") env = some (.int (opt s.prevBlock))
  prev : getVar (n% "prev") env = some (.int s.prev)
  prevValue : getVar (n% "prevValue") env = some (.int s.prevValue)
  c : getVar (n% "c") env = some (.int s.c)
  free : ∀ x, x ∉ locals → getVar x env = none

section
variable {v : Val} {start limit null : Nat} {s : EState} {env : Env}

theorem free_set {x : Nat} (hx : x ∈ locals) {u : Val} (h : ∀ x, x ∉ locals → getVar x env = none) : ∀ y, y ∉ locals → getVar y (setVar x u env) = none := fun y hy => by
  rw [getVar_setVar, if_neg (fun e : x = y => hy (e ▸ hx)), h y hy]

theorem At.set (h : At v start limit null s env) {x : Nat} (hx : x ∈ [n% "i3Block", n% "i3Start", n% "dataBlockLength", n% "i1", n% "i3", n% "block", n% "group", n% "gi", n% "dataMask",
    n% "di", n% "value", n% "highValue"]) (u : Val) : At v start limit null s (setVar x u env) := by
  simp only [List.mem_cons, List.not_mem_nil, or_false] at hx
  rcases hx with rfl | rfl | rfl | rfl | rfl | rfl | rfl | rfl | rfl | rfl | rfl | rfl <;>
    refine ⟨?_, ?_, ?_, ?_, ?_, ?_, ?_, ?_, ?_, free_set (by decide) h.free⟩ <;>
    simp only [getVar_setVar, Nat.reduceEqDiff, ↓reduceIte, h.self, h.start, h.limit, h.null, h.prevI3, h.prevBlock, h.prev, h.prevValue, h.c]

theorem At.setC (h : At v start limit null s env) (c : Nat) : At v start limit null { s with c := c } (setVar (n% "c") (.int c) env) := by
  refine ⟨?_, ?_, ?_, ?_, ?_, ?_, ?_, ?_, ?_, free_set (by decide) h.free⟩ <;>
    simp only [getVar_setVar, Nat.reduceEqDiff, ↓reduceIte, h.self, h.start, h.limit, h.null, h.prevI3, h.prevBlock, h.prev, h.prevValue]

theorem At.setBlock (h : At v start limit null s env) (b : Nat) : At v start limit null { s with prevBlock := some b } (setVar (n% "prevBlock") (.int b) env) := by
  refine ⟨?_, ?_, ?_, ?_, ?_, ?_, ?_, ?_, ?_, free_set (by decide) h.free⟩ <;>
    simp only [getVar_setVar, Nat.reduceEqDiff, ↓reduceIte, h.self, h.start, h.limit, h.null, h.prevI3, h.prev, h.prevValue, h.c, opt]

theorem At.setI3 (h : At v start limit null s env) (b : Nat) : At v start limit null { s with prevI3Block := some b } (setVar (n% "prevI3Block") (.int b) env) := by
  refine ⟨?_, ?_, ?_, ?_, ?_, ?_, ?_, ?_, ?_, free_set (by decide) h.free⟩ <;>
    simp only [getVar_setVar, Nat.reduceEqDiff, ↓reduceIte, h.self, h.start, h.limit, h.null, h.prevBlock, h.prev, h.prevValue, h.c, opt]

/-- The variables after the value has changed. -/
def switched (s : EState) (value : Nat) (env : Env) : Env :=
  if value ≠ s.prevValue then setVar (n% "prevValue") (.int value) (setVar (n% "prev") (.int s.c) env) else env

theorem At.switch (h : At v start limit null s env) (value : Nat) : At v start limit null (s.switch value) (switched s value env) := by
  unfold EState.switch switched
  by_cases hv : value ≠ s.prevValue
  · rw [if_pos hv, if_pos hv]
    refine ⟨?_, ?_, ?_, ?_, ?_, ?_, ?_, ?_, ?_, free_set (by decide) (free_set (by decide) h.free)⟩ <;>
      simp only [getVar_setVar, Nat.reduceEqDiff, ↓reduceIte, h.self, h.start, h.limit, h.null, h.prevI3, h.prevBlock, h.c]
  · rw [if_neg hv, if_neg hv]
    exact h

theorem get_switched (value : Nat) {x : Nat} (h1 : n% "prev" ≠ x) (h2 : n% "prevValue" ≠ x) : getVar x (switched s value env) = getVar x env := by
  unfold switched
  split
  · rw [getVar_setVar, if_neg h2, getVar_setVar, if_neg h1]
  · rfl

theorem switch_c (value : Nat) : (s.switch value).c = s.c := by unfold EState.switch; split <;> rfl
theorem switch_block (value : Nat) : (s.switch value).prevBlock = s.prevBlock := by unfold EState.switch; split <;> rfl

/-- CPTrie.py:284 and others: `if prev < c: yield range(prev, c), prevValue` -/
def emit : Stmt := (.seq (.ifs (.bin .lt (.name (n% "prev")) (.name (n% "c"))) (.seq (.yield (.tuple (.cons (.call (.name (n% "range")) (.cons (.name (n% "prev")) (.cons (.name (n% "c")) .nil))) (.cons (.name (n% "prevValue")) .nil)))) .skip) .skip) .skip)

/-- The statement `emit` before others. -/
def emitThen (b : Stmt) : Stmt := (.seq (.ifs (.bin .lt (.name (n% "prev")) (.name (n% "c"))) (.seq (.yield (.tuple (.cons (.call (.name (n% "range")) (.cons (.name (n% "prev")) (.cons (.name (n% "c")) .nil))) (.cons (.name (n% "prevValue")) .nil)))) .skip) .skip) b)

/-- CPTrie.py:283-286, 317-320, 326-329, 335-338 -/
def switchOn (a b x : Nat) : Stmt := .ifs (.bin .ne (.name a) (.name b)) (emitThen (.seq (.assign (.name (n% "prev")) (.name (n% "c"))) (.seq (.assign (.name (n% "prevValue")) (.name x)) .skip))) .skip

end

variable {w : World} {v iv dv : Val} {t : CPTrie} (hw : w.scope (n% "CPTrie") = cptrie) (T : IsWhole w v iv dv t)
include hw

theorem emit_run {start limit null fuel : Nat} {s : EState} {env : Env} {call : Call} (h : At v start limit null s env) (b : Stmt) :
    exec w call fuel (n% "CPTrie") (emitThen b) (env, s.out.map item) =
      exec w call fuel (n% "CPTrie") b (env, (if s.prev < s.c then s.out ++ [⟨s.prev, s.c, s.prevValue⟩] else s.out).map item) := by
  have hr : w.find (n% "CPTrie") 0 (n% "range") = none := by rw [found hw]; exact facts'.2.2.2.2.1
  by_cases hp : s.prev < s.c
  · rw [if_pos hp, List.map_append]
    py_run [emitThen, h.prev, h.c, h.prevValue, decide_eq_true hp, h.free (n% "range") (by decide), builtin_call hr, builtin]
    rfl
  · rw [if_neg hp]
    py_run [emitThen, h.prev, h.c, decide_eq_false hp]

theorem switch_run {start limit null fuel a b x value : Nat} {s : EState} {env : Env} {call : Call} (h : At v start limit null s env)
    (hc : eval w call (n% "CPTrie") env (.bin .ne (.name a) (.name b)) = .ok (.bool (decide (value ≠ s.prevValue)))) (hx : getVar x env = some (.int value)) (hn : n% "prev" ≠ x) :
    exec w call fuel (n% "CPTrie") (switchOn a b x) (env, s.out.map item) = .ok (.next, (switched s value env, (s.switch value).out.map item)) := by
  rw [switchOn, exec, hc]
  unfold switched EState.switch
  by_cases hv : value ≠ s.prevValue
  · rw [if_pos hv, if_pos hv, decide_eq_true hv]
    show exec _ _ _ _ (emitThen _) _ = _
    rw [emit_run hw h]
    py_run [h.c, getVar_setVar, hx, if_neg hn]
  · rw [if_neg hv, if_neg hv, decide_eq_false hv]
    rfl

/-- CPTrie.py:334-340 -/
def valuesBody : Stmt := (.seq (.assign (.name (n% "value")) (.index (.attr (.name (n% "self")) (n% "data")) (.name (n% "di")))) (.seq (switchOn (n% "value") (n% "prevValue") (n% "value")) (.seq (.aug .add (.name (n% "c")) (.num 1)) (.seq (.aug .add (.name (n% "di")) (.num 1)) .skip))))

/-- CPTrie.py:333 -/
def valuesTest : Expr := (.and (.bin .lt (.name (n% "c")) (.name (n% "limit"))) (.bin .ne (.bin .and (.name (n% "c")) (.name (n% "dataMask"))) (.num 0)))

include T

theorem values_run {start limit null fuel n : Nat} {call : Call} (hmod : ∀ x : Nat, x &&& (n - 1) = x % n) : ∀ (k di : Nat) {s : EState} {env : Env}, At v start limit null s env →
    getVar (n% "di") env = some (.int di) → getVar (n% "dataMask") env = some (.int (n - 1 : Nat)) → ∀ k', k < k' →
    match enumValues t limit n k di s with
    | .error e => e = .diverges ∨ loop (test w call (n% "CPTrie") valuesTest) (exec w call fuel (n% "CPTrie") valuesBody) k' (env, s.out.map item) = .error (.raised e)
    | .ok s' => ∃ env', loop (test w call (n% "CPTrie") valuesTest) (exec w call fuel (n% "CPTrie") valuesBody) k' (env, s.out.map item) = .ok (.next, (env', s'.out.map item)) ∧
        At v start limit null s' env' ∧ ∀ x ∈ [n% "i3Block", n% "dataBlockLength"], getVar x env' = getVar x env := by
  intro k
  have last : ∀ {di : Nat} {s : EState} {env : Env}, At v start limit null s env → getVar (n% "dataMask") env = some (.int (n - 1 : Nat)) → ¬ (s.c < limit ∧ s.c % n ≠ 0) → ∀ k',
      loop (test w call (n% "CPTrie") valuesTest) (exec w call fuel (n% "CPTrie") valuesBody) (k' + 1) (env, s.out.map item) = .ok (.next, (env, s.out.map item)) := by
    intro di s env h hm hc k'
    have e : (decide (s.c < limit) && !decide (s.c % n = 0)) = false := by
      rw [← decide_not, ← Bool.decide_and]; exact decide_eq_false hc
    rw [loop]
    by_cases hl : s.c < limit
    · rw [decide_eq_true hl] at e
      py_run [test, valuesTest, h.c, h.limit, hm, hmod, decide_eq_true hl, show (!decide (s.c % n = 0)) = false from e]
    · py_run [test, valuesTest, h.c, h.limit, hm, decide_eq_false hl]
  induction k with
  | zero =>
    intro di s env h hd hm k' hk
    obtain ⟨k', rfl⟩ : ∃ j, k' = j + 1 := ⟨k' - 1, by omega⟩
    rw [enumValues]
    by_cases hc : s.c < limit ∧ s.c % n ≠ 0
    · rw [if_pos hc]
      exact .inl rfl
    · rw [if_neg hc]
      exact ⟨env, last (di := di) h hm hc k', h, fun _ _ => rfl⟩
  | succ k ih =>
    intro di s env h hd hm k' hk
    obtain ⟨k', rfl⟩ : ∃ j, k' = j + 1 := ⟨k' - 1, by omega⟩
    rw [enumValues]
    by_cases hc : s.c < limit ∧ s.c % n ≠ 0
    · rw [if_pos hc]
      have tt : test w call (n% "CPTrie") valuesTest env = .ok true := by
        py_run [test, valuesTest, h.c, h.limit, hm, hmod, decide_eq_true hc.1, decide_eq_false hc.2, Bool.not_false]
      cases hg : t.data.get di with
      | error e =>
        refine .inr ?_
        rw [loop]
        py_run [tt, valuesBody, h.self, hd, T.data, T.dataAt, hg]
      | ok value =>
        have h1 : At v start limit null s (setVar (n% "value") (.int value) env) := h.set (by simp) _
        have sw := switch_run hw (fuel := fuel) (call := call) (a := n% "value") (b := n% "prevValue") (x := n% "value") (value := value) h1
          (by py_run [h1.prevValue, getVar_setVar]) (by simp only [getVar_setVar, ↓reduceIte]) (by simp)
        have st : exec w call fuel (n% "CPTrie") valuesBody (env, s.out.map item) = .ok (.next, (setVar (n% "di") (.int (di + 1 : Nat)) (setVar (n% "c") (.int ((s.switch value).c + 1 : Nat))
            (switched s value (setVar (n% "value") (.int value) env))), (s.switch value).out.map item)) := by
          have gd : getVar (n% "di") (switched s value (setVar (n% "value") (.int value) env)) = some (.int di) := by
            rw [get_switched _ (by decide) (by decide), getVar_setVar, if_neg (by decide), hd]
          py_run [valuesBody, h.self, hd, T.data, T.dataAt, hg, sw, (h1.switch value).c, getVar_setVar, gd]
        have q := ih (di + 1) (((h1.switch value).setC ((s.switch value).c + 1)).set (x := n% "di") (by simp) (.int (di + 1 : Nat)))
          (by simp only [getVar_setVar, ↓reduceIte])
          (by simp only [getVar_setVar, Nat.reduceEqDiff, ↓reduceIte, get_switched, ne_eq, not_false_eq_true, hm]) k' (by omega)
        have lp : loop (test w call (n% "CPTrie") valuesTest) (exec w call fuel (n% "CPTrie") valuesBody) (k' + 1) (env, s.out.map item) =
            loop (test w call (n% "CPTrie") valuesTest) (exec w call fuel (n% "CPTrie") valuesBody) k' (setVar (n% "di") (.int (di + 1 : Nat)) (setVar (n% "c") (.int ((s.switch value).c + 1 : Nat))
            (switched s value (setVar (n% "value") (.int value) env))), (s.switch value).out.map item) := by
          rw [loop]
          simp only [bind, Except.bind, tt, st, ↓reduceIte]
        rw [lp]
        show match enumValues t limit n k (di + 1) { s.switch value with c := (s.switch value).c + 1 } with | .error e => _ | .ok s' => _
        cases hq : enumValues t limit n k (di + 1) { s.switch value with c := (s.switch value).c + 1 } with
        | error e => rw [hq] at q; exact q
        | ok s' =>
          rw [hq] at q
          obtain ⟨env', q1, q2, q3⟩ := q
          refine ⟨env', q1, q2, fun x hx => (q3 x hx).trans ?_⟩
          simp only [List.mem_cons, List.not_mem_nil, or_false] at hx
          rcases hx with rfl | rfl <;> simp only [getVar_setVar, Nat.reduceEqDiff, ↓reduceIte, get_switched, ne_eq, not_false_eq_true]
    · rw [if_neg hc]
      exact ⟨env, last (di := di) h hm hc k', h, fun _ _ => rfl⟩

omit hw T in
theorem ge_sub (c start n : Nat) (hn : 0 < n) : (!intLt ((c : Int) - (start : Int)) (n : Int)) = decide (n ≤ c - start) := by
  rw [intLt_eq, ← decide_not]
  exact decide_eq_decide.2 (by omega)

omit hw T in
theorem eq_opt (b : Nat) (o : Option Nat) : decide ((b : Int) = opt o) = decide (o = some b) := by
  refine decide_eq_decide.2 ?_
  cases o with
  | none => exact ⟨fun h => absurd h (by simp only [opt]; omega), fun h => (nomatch h)⟩
  | some a => exact ⟨fun h => congrArg some (Int.ofNat_inj.1 h).symm, fun h => by cases h; rfl⟩

/-- A power of two. -/
structure Len (n : Nat) : Prop where
  pos : 0 < n
  mod : ∀ x : Nat, x &&& (n - 1) = x % n
  inv : ∀ x : Nat, pyAnd (x : Int) (-((n - 1 : Nat) : Int) - 1) = ((x / n * n : Nat) : Int)
  sub : (n : Int) - ((1 : Nat) : Int) = ((n - 1 : Nat) : Int)

omit hw T in
theorem len_pow (k : Nat) : Len (2 ^ k) := by
  have hp : 0 < 2 ^ k := Nat.two_pow_pos k
  refine ⟨hp, fun x => Nat.and_two_pow_sub_one_eq_mod x k, fun x => ?_, by omega⟩
  have e : -((2 ^ k - 1 : Nat) : Int) - 1 = Int.negSucc (2 ^ k - 1) := by omega
  rw [e]
  show ((x - (x &&& (2 ^ k - 1)) : Nat) : Int) = _
  rw [Nat.and_two_pow_sub_one_eq_mod]
  have := Nat.div_add_mod x (2 ^ k)
  rw [Nat.mul_comm] at this
  omega

/-- CPTrie.py:299-306 -/
def readBlock : Stmt := (.ifs (.bin .eq (.bin .and (.name (n% "i3Block")) (.num 0x8000)) (.num 0)) (.seq (.assign (.name (n% "block")) (.index (.attr (.name (n% "self")) (n% "index")) (.bin .add (.name (n% "i3Block")) (.name (n% "i3"))))) .skip) (.seq (.assign (.name (n% "group")) (.bin .add (.bin .add (.bin .and (.name (n% "i3Block")) (.num 0x7fff)) (.bin .and (.name (n% "i3")) (.inv (.num 7)))) (.bin .shr (.name (n% "i3")) (.num 3)))) (.seq (.assign (.name (n% "gi")) (.bin .and (.name (n% "i3")) (.num 7))) (.seq (.assign (.name (n% "block")) (.bin .and (.bin .shl (.index (.attr (.name (n% "self")) (n% "index")) (.name (n% "group"))) (.bin .add (.num 2) (.bin .mul (.num 2) (.name (n% "gi"))))) (.num 0x30000))) (.seq (.aug .or (.name (n% "block")) (.index (.attr (.name (n% "self")) (n% "index")) (.bin .add (.bin .add (.name (n% "group")) (.name (n% "gi"))) (.num 1)))) .skip)))))

/-- The index-3 block and the length of the data blocks. -/
structure In (b n : Nat) (env : Env) : Prop where
  i3Block : getVar (n% "i3Block") env = some (.int b)
  length : getVar (n% "dataBlockLength") env = some (.int n)

omit hw in
theorem read_run {start limit null fuel b n i3 : Nat} {s : EState} {env : Env} {out : List Val} {call : Call} (h : At v start limit null s env) (hi : In b n env)
    (h3 : getVar (n% "i3") env = some (.int i3)) :
    match t.blockAt b i3 with
    | .error e => exec w call fuel (n% "CPTrie") readBlock (env, out) = .error (.raised e)
    | .ok block => ∃ env', exec w call fuel (n% "CPTrie") readBlock (env, out) = .ok (.next, (env', out)) ∧ At v start limit null s env' ∧ In b n env' ∧
        getVar (n% "block") env' = some (.int block) := by
  have e3 (x : Nat) : x &&& 7 = x % 8 := Nat.and_two_pow_sub_one_eq_mod x 3
  unfold CPTrie.blockAt
  by_cases hb : b &&& 0x8000 = 0
  · rw [if_pos hb]
    cases hg : t.index.get (b + i3) with
    | error e =>
      show exec _ _ _ _ _ _ = _
      py_run [readBlock, hi.i3Block, h3, h.self, T.index, T.indexAt, decide_eq_true hb, hg]
    | ok block =>
      refine ⟨setVar (n% "block") (.int block) env, ?_, h.set (by simp) _, ⟨?_, ?_⟩, ?_⟩
      · py_run [readBlock, hi.i3Block, h3, h.self, T.index, T.indexAt, decide_eq_true hb, hg]
      all_goals simp only [getVar_setVar, Nat.reduceEqDiff, ↓reduceIte, hi.i3Block, hi.length]
  · rw [if_neg hb]
    simp only [← Nat.shiftRight_eq_div_pow, ← Nat.shiftLeft_eq]
    cases hg : t.index.get ((b &&& 0x7FFF) + i3 / 8 * 8 + i3 >>> 3) with
    | error e =>
      show exec _ _ _ _ _ _ = _
      py_run [readBlock, hi.i3Block, h3, h.self, T.index, T.indexAt, decide_eq_false hb, hg, and_inv, getVar_setVar, e3]
    | ok hi' =>
      cases hl : t.index.get ((b &&& 0x7FFF) + i3 / 8 * 8 + i3 >>> 3 + i3 % 8 + 1) with
      | error e =>
        show exec _ _ _ _ _ _ = _
        py_run [readBlock, hi.i3Block, h3, h.self, T.index, T.indexAt, decide_eq_false hb, hg, hl, and_inv, mul_nat, getVar_setVar, e3]
      | ok lo =>
        refine ⟨_, ?_, ((((h.set (x := n% "group") (by simp) (.int ((b &&& 0x7FFF) + i3 / 8 * 8 + i3 >>> 3 : Nat))).set (x := n% "gi") (by simp) (.int (i3 % 8 : Nat))).set
          (x := n% "block") (by simp) (.int (hi' <<< (2 + 2 * (i3 % 8)) &&& 0x30000 : Nat))).set (x := n% "block") (by simp) (.int ((hi' <<< (2 + 2 * (i3 % 8)) &&& 0x30000) ||| lo : Nat))), ⟨?_, ?_⟩, ?_⟩
        · py_run [readBlock, hi.i3Block, h3, h.self, T.index, T.indexAt, decide_eq_false hb, hg, hl, and_inv, mul_nat, getVar_setVar, e3]
        all_goals simp only [getVar_setVar, Nat.reduceEqDiff, ↓reduceIte, hi.i3Block, hi.length]

/-- CPTrie.py:309-340 with what was read. -/
def useModel (t : CPTrie) (start limit nullValue n block : Nat) (s : EState) : Py EState :=
  if s.prevBlock = some block ∧ s.c - start ≥ n then
    if s.c % n = 0 then return { s with c := s.c + n } else throw .assertionError
  else
    let s := { s with prevBlock := some block }
    if block = t.dataNullOffset then
      let s := s.switch nullValue
      return { s with c := (s.c + n) / n * n }
    else do
      let di := block + s.c % n
      let v ← t.data.get di
      let s := s.switch v
      enumValues t limit n n (di + 1) { s with c := s.c + 1 }

omit hw T in
theorem enumBlock_use (start limit null n b i3 : Nat) (s : EState) : enumBlock t start limit null n b i3 s = t.blockAt b i3 >>= fun block => useModel t start limit null n block s := rfl

/-- CPTrie.py:309 -/
def sameTest : Expr := (.and (.bin .eq (.name (n% "block")) (.name (n% "prevBlock"))) (.bin .ge (.bin .sub (.name (n% "c")) (.name (n% "start"))) (.name (n% "dataBlockLength"))))

/-- CPTrie.py:311-312 -/
def skipPart : Stmt := (.seq (.assert (.bin .eq (.bin .and (.name (n% "c")) (.bin .sub (.name (n% "dataBlockLength")) (.num 1))) (.num 0))) (.seq (.aug .add (.name (n% "c")) (.name (n% "dataBlockLength"))) .skip))

/-- CPTrie.py:318-323 -/
def nullPart : Stmt := (.seq (switchOn (n% "nullValue") (n% "prevValue") (n% "nullValue")) (.seq (.assign (.name (n% "c")) (.bin .and (.bin .add (.name (n% "c")) (.name (n% "dataBlockLength"))) (.inv (.name (n% "dataMask"))))) .skip))

/-- CPTrie.py:325-340 -/
def valuePart : Stmt := (.seq (.assign (.name (n% "di")) (.bin .add (.name (n% "block")) (.bin .and (.name (n% "c")) (.name (n% "dataMask"))))) (.seq (.assign (.name (n% "value")) (.index (.attr (.name (n% "self")) (n% "data")) (.name (n% "di")))) (.seq (switchOn (n% "prevValue") (n% "value") (n% "value")) (.seq (.aug .add (.name (n% "c")) (.num 1)) (.seq (.aug .add (.name (n% "di")) (.num 1)) (.seq (.while valuesTest valuesBody) .skip))))))

/-- CPTrie.py:309-340 -/
def useBlock : Stmt := (.ifs sameTest skipPart (.seq (.assign (.name (n% "dataMask")) (.bin .sub (.name (n% "dataBlockLength")) (.num 1))) (.seq (.assign (.name (n% "prevBlock")) (.name (n% "block"))) (.seq (.ifs (.bin .eq (.name (n% "block")) (.attr (.name (n% "self")) (n% "dataNullOffset"))) nullPart valuePart) .skip))))

theorem use_run {start limit null fuel b n block : Nat} {s : EState} {env : Env} {call : Call} (L : Len n) (hf : n < fuel) (h : At v start limit null s env) (hi : In b n env)
    (hb : getVar (n% "block") env = some (.int block)) :
    match useModel t start limit null n block s with
    | .error e => e = .diverges ∨ exec w call fuel (n% "CPTrie") useBlock (env, s.out.map item) = .error (.raised e)
    | .ok s' => ∃ env', exec w call fuel (n% "CPTrie") useBlock (env, s.out.map item) = .ok (.next, (env', s'.out.map item)) ∧ At v start limit null s' env' ∧ In b n env' := by
  unfold useModel
  by_cases hs : s.prevBlock = some block ∧ s.c - start ≥ n
  · rw [if_pos hs]
    have te : eval w call (n% "CPTrie") env sameTest = .ok (.bool true) := by
      py_run [sameTest, hb, h.prevBlock, h.c, h.start, hi.length, eq_opt, decide_eq_true hs.1, ↓ge_sub _ _ _ L.pos, decide_eq_true hs.2]
    by_cases hm : s.c % n = 0
    · rw [if_pos hm]
      refine ⟨setVar (n% "c") (.int (s.c + n : Nat)) env, ?_, h.setC _, ⟨?_, ?_⟩⟩
      · py_run [useBlock, te, skipPart, h.c, hi.length, L.sub, L.mod, decide_eq_true hm]
      all_goals simp only [getVar_setVar, Nat.reduceEqDiff, ↓reduceIte, hi.i3Block, hi.length]
    · rw [if_neg hm]
      refine .inr ?_
      py_run [useBlock, te, skipPart, h.c, hi.length, L.sub, L.mod, decide_eq_false hm]
  · rw [if_neg hs]
    have te : eval w call (n% "CPTrie") env sameTest = .ok (.bool false) := by
      have e : (decide (s.prevBlock = some block) && decide (n ≤ s.c - start)) = false := by
        rw [← Bool.decide_and]; exact decide_eq_false hs
      by_cases h1 : s.prevBlock = some block
      · rw [decide_eq_true h1, Bool.true_and] at e
        py_run [sameTest, hb, h.prevBlock, h.c, h.start, hi.length, eq_opt, decide_eq_true h1, ↓ge_sub _ _ _ L.pos, e]
      · py_run [sameTest, hb, h.prevBlock, eq_opt, decide_eq_false h1]
    have h1 : At v start limit null { s with prevBlock := some block } (setVar (n% "prevBlock") (.int block) (setVar (n% "dataMask") (.int (n - 1 : Nat)) env)) := (h.set (by simp) _).setBlock block
    generalize henv : setVar (n% "prevBlock") (.int block) (setVar (n% "dataMask") (.int (n - 1 : Nat)) env) = env1 at h1
    have g1 : getVar (n% "dataMask") env1 = some (.int (n - 1 : Nat)) := by rw [← henv]; simp only [getVar_setVar, Nat.reduceEqDiff, ↓reduceIte]
    have g2 : getVar (n% "block") env1 = some (.int block) := by rw [← henv]; simp only [getVar_setVar, Nat.reduceEqDiff, ↓reduceIte, hb]
    have g3 : In b n env1 := by constructor <;> rw [← henv] <;> simp only [getVar_setVar, Nat.reduceEqDiff, ↓reduceIte, hi.i3Block, hi.length]
    by_cases hz : block = t.dataNullOffset
    · dsimp only
      rw [if_pos hz]
      have sw := switch_run hw (fuel := fuel) (call := call) (a := n% "nullValue") (b := n% "prevValue") (x := n% "nullValue") (value := null) h1
          (by py_run [h1.prevValue, h1.null]) h1.null (by simp)
      have h2 := h1.switch null
      generalize hsw : switched { s with prevBlock := some block } null env1 = env2 at sw h2
      have k1 : getVar (n% "dataMask") env2 = some (.int (n - 1 : Nat)) := by rw [← hsw, get_switched _ (by decide) (by decide), g1]
      have k3 : In b n env2 := ⟨by rw [← hsw, get_switched _ (by decide) (by decide), g3.i3Block], by rw [← hsw, get_switched _ (by decide) (by decide), g3.length]⟩
      generalize hS : ({ s with prevBlock := some block } : EState).switch null = S at sw h2
      refine ⟨setVar (n% "c") (.int ((S.c + n) / n * n : Nat)) env2, ?_, h2.setC _, ⟨?_, ?_⟩⟩
      · have np : exec w call fuel (n% "CPTrie") nullPart (env1, s.out.map item) = .ok (.next, (setVar (n% "c") (.int ((S.c + n) / n * n : Nat)) env2, S.out.map item)) := by
          py_run [nullPart, sw, h2.c, k3.length, k1, L.inv]
        py_run [useBlock, ↓te, hi.length, L.sub, getVar_setVar, hb, henv, g2, h1.self, T.dataNullOffset, decide_eq_true hz, np]
      all_goals simp only [getVar_setVar, Nat.reduceEqDiff, ↓reduceIte, k3.i3Block, k3.length]
    · dsimp only
      rw [if_neg hz]
      cases hg : t.data.get (block + s.c % n) with
      | error e =>
        refine .inr ?_
        py_run [useBlock, ↓te, hi.length, L.sub, getVar_setVar, hb, henv, g2, h1.self, h1.c, g1, L.mod, T.dataNullOffset, decide_eq_false hz, valuePart, T.data, T.dataAt, hg]
      | ok value =>
        have h2 : At v start limit null { s with prevBlock := some block } (setVar (n% "value") (.int value) (setVar (n% "di") (.int (block + s.c % n : Nat)) env1)) := (h1.set (by simp) _).set (by simp) _
        have sw := switch_run hw (fuel := fuel) (call := call) (a := n% "prevValue") (b := n% "value") (x := n% "value") (value := value) h2
          (by py_run [h2.prevValue, getVar_setVar, Bool.not_not, eq_comm]) (by simp only [getVar_setVar, ↓reduceIte]) (by simp)
        have h3 := h2.switch value
        generalize hsw : switched { s with prevBlock := some block } value (setVar (n% "value") (.int value) (setVar (n% "di") (.int (block + s.c % n : Nat)) env1)) = env2 at sw h3
        have k1 : getVar (n% "dataMask") env2 = some (.int (n - 1 : Nat)) := by
          rw [← hsw, get_switched _ (by decide) (by decide)]; simp only [getVar_setVar, Nat.reduceEqDiff, ↓reduceIte, g1]
        have k2 : getVar (n% "di") env2 = some (.int (block + s.c % n : Nat)) := by
          rw [← hsw, get_switched _ (by decide) (by decide)]; simp only [getVar_setVar, Nat.reduceEqDiff, ↓reduceIte]
        have k3 : In b n env2 := by
          constructor <;> rw [← hsw, get_switched _ (by decide) (by decide)] <;> simp only [getVar_setVar, Nat.reduceEqDiff, ↓reduceIte, g3.i3Block, g3.length]
        generalize hS : ({ s with prevBlock := some block } : EState).switch value = S at sw h3
        have q := values_run hw T (start := start) (null := null) (fuel := fuel) (call := call) L.mod n (block + s.c % n + 1) ((h3.setC (S.c + 1)).set (x := n% "di") (by simp) (.int (block + s.c % n + 1 : Nat)))
          (by simp only [getVar_setVar, ↓reduceIte]) (by simp only [getVar_setVar, Nat.reduceEqDiff, ↓reduceIte, k1]) fuel hf
        show match enumValues t limit n n (block + s.c % n + 1) { ({ s with prevBlock := some block } : EState).switch value with c := (({ s with prevBlock := some block } : EState).switch value).c + 1 } with | .error e => _ | .ok s' => _
        rw [hS]
        cases hq : enumValues t limit n n (block + s.c % n + 1) { S with c := S.c + 1 } with
        | error e =>
          rw [hq] at q
          rcases q with q | q
          · exact .inl q
          refine .inr ?_
          have vp : exec w call fuel (n% "CPTrie") valuePart (env1, s.out.map item) = .error (.raised e) := by
            py_run [valuePart, g2, h1.self, h1.c, g1, L.mod, T.data, T.dataAt, hg, getVar_setVar, sw, h3.c, k2, q]
          py_run [useBlock, ↓te, hi.length, L.sub, getVar_setVar, hb, henv, g2, h1.self, T.dataNullOffset, decide_eq_false hz, vp]
        | ok s' =>
          rw [hq] at q
          obtain ⟨env', q1, q2, q3⟩ := q
          refine ⟨env', ?_, q2, ⟨?_, ?_⟩⟩
          · have vp : exec w call fuel (n% "CPTrie") valuePart (env1, s.out.map item) = .ok (.next, (env', s'.out.map item)) := by
              py_run [valuePart, g2, h1.self, h1.c, g1, L.mod, T.data, T.dataAt, hg, getVar_setVar, sw, h3.c, k2, q1]
            py_run [useBlock, ↓te, hi.length, L.sub, getVar_setVar, hb, henv, g2, h1.self, T.dataNullOffset, decide_eq_false hz, vp]
          · rw [q3 _ (by simp)]; simp only [getVar_setVar, Nat.reduceEqDiff, ↓reduceIte, k3.i3Block]
          · rw [q3 _ (by simp)]; simp only [getVar_setVar, Nat.reduceEqDiff, ↓reduceIte, k3.length]

/-- CPTrie.py:298-340 -/
def blockBody : Stmt := (.seq (.ifs (.bin .ge (.name (n% "c")) (.name (n% "limit"))) (.seq .brk .skip) .skip) (.seq readBlock (.seq useBlock .skip)))

theorem blocks_run {start limit null fuel b n : Nat} {call : Call} (L : Len n) (hf : n < fuel) : ∀ (k i3 : Nat) {s : EState} {env : Env}, At v start limit null s env → In b n env →
    match enumBlocks t start limit null n b k i3 s with
    | .error e => e = .diverges ∨ each (.name (n% "i3")) (exec w call fuel (n% "CPTrie") blockBody) ((List.range' i3 k).map fun (i : Nat) => .int (i : Int)) (env, s.out.map item) = .error (.raised e)
    | .ok s' => ∃ env', each (.name (n% "i3")) (exec w call fuel (n% "CPTrie") blockBody) ((List.range' i3 k).map fun (i : Nat) => .int (i : Int)) (env, s.out.map item) =
        .ok (.next, (env', s'.out.map item)) ∧ At v start limit null s' env' := by
  intro k
  induction k with
  | zero => intro i3 s env h hi; exact ⟨env, rfl, h⟩
  | succ k ih =>
    intro i3 s env h hi
    have h1 : At v start limit null s (setVar (n% "i3") (.int i3) env) := h.set (by simp) _
    have i1 : In b n (setVar (n% "i3") (.int i3) env) := by constructor <;> simp only [getVar_setVar, Nat.reduceEqDiff, ↓reduceIte, hi.i3Block, hi.length]
    rw [enumBlocks, List.range'_succ, List.map_cons, each]
    by_cases hl : s.c ≥ limit
    · rw [if_pos hl]
      refine ⟨_, ?_, h1⟩
      py_run [blockBody, h1.c, h1.limit, decide_eq_true (show limit ≤ s.c from hl)]
    · rw [if_neg hl, enumBlock_use]
      have r := read_run T (fuel := fuel) (call := call) (out := s.out.map item) h1 i1 (i3 := i3) (by simp only [getVar_setVar, ↓reduceIte])
      cases hr : t.blockAt b i3 with
      | error e =>
        rw [hr] at r
        refine .inr ?_
        py_run [blockBody, h1.c, h1.limit, decide_eq_false (show ¬ limit ≤ s.c from hl), show _ = _ from r]
      | ok block =>
        rw [hr] at r
        obtain ⟨env1, r, h2, i2, g⟩ := show ∃ env', _ from r
        have u := use_run hw T (call := call) L hf h2 i2 g
        show match (useModel t start limit null n block s >>= fun s => enumBlocks t start limit null n b k (i3 + 1) s) with | .error e => _ | .ok s' => _
        cases hu : useModel t start limit null n block s with
        | error e =>
          rw [hu] at u
          rcases u with u | u
          · exact .inl u
          refine .inr ?_
          py_run [blockBody, h1.c, h1.limit, decide_eq_false (show ¬ limit ≤ s.c from hl), r, u]
        | ok s' =>
          rw [hu] at u
          obtain ⟨env2, u, h3, i3'⟩ := u
          have q := ih (i3 + 1) h3 i3'
          have st : exec w call fuel (n% "CPTrie") blockBody (setVar (n% "i3") (.int i3) env, s.out.map item) = .ok (.next, (env2, s'.out.map item)) := by
            py_run [blockBody, h1.c, h1.limit, decide_eq_false (show ¬ limit ≤ s.c from hl), r, u]
          simp only [bind, Except.bind, assign, st]
          exact q

omit hw T in
theorem range_nat (a n : Nat) : rangeList a n = (List.range' a (n - a)).map fun (i : Nat) => .int (i : Int) := by
  rw [rangeList, List.range'_eq_map_range, List.map_map, show ((n : Int) - (a : Int)).toNat = n - a by omega]
  rfl

omit hw T in
theorem mod511 (x : Nat) : x &&& 511 = x % 512 := Nat.and_two_pow_sub_one_eq_mod x 9

omit hw T in
theorem inv511 (x : Nat) : pyAnd (x : Int) (-((511 : Nat) : Int) - 1) = ((x / 512 * 512 : Nat) : Int) := (len_pow 9).inv x

omit hw T in
theorem sub512 : ((512 : Nat) : Int) - ((1 : Nat) : Int) = (511 : Nat) := rfl

/-- CPTrie.py:259 -/
def bmpTest : Expr := (.and (.bin .le (.name (n% "c")) (.num 0xffff)) (.or (.bin .eq (.attr (.name (n% "self")) (n% "trieType")) (.name (n% "UCPTRIE_TYPE_FAST"))) (.bin .le (.name (n% "c")) (.name (n% "UCPTRIE_SMALL_MAX")))))

/-- CPTrie.py:260-263 -/
def bmpPart : Stmt := (.seq (.assign (.name (n% "i3Block")) (.num 0)) (.seq (.assign (.name (n% "i3Start")) (.bin .shr (.name (n% "c")) (.name (n% "UCPTRIE_FAST_SHIFT")))) (.seq (.assign (.name (n% "dataBlockLength")) (.name (n% "UCPTRIE_FAST_DATA_BLOCK_LENGTH"))) .skip)))

/-- CPTrie.py:266-273 before other statements. -/
def indexThen (b : Stmt) : Stmt := (.seq (.assign (.name (n% "i1")) (.bin .shr (.name (n% "c")) (.name (n% "UCPTRIE_SHIFT_1")))) (.seq (.ifs (.bin .eq (.attr (.name (n% "self")) (n% "trieType")) (.name (n% "UCPTRIE_TYPE_FAST"))) (.seq (.assert (.and (.bin .lt (.num 0xffff) (.name (n% "c"))) (.bin .lt (.name (n% "c")) (.attr (.name (n% "self")) (n% "highStart"))))) (.seq (.aug .add (.name (n% "i1")) (.bin .sub (.name (n% "UCPTRIE_BMP_INDEX_LENGTH")) (.name (n% "UCPTRIE_OMITTED_BMP_INDEX_1_LENGTH")))) .skip)) (.seq (.assert (.and (.bin .lt (.name (n% "c")) (.attr (.name (n% "self")) (n% "highStart"))) (.bin .gt (.attr (.name (n% "self")) (n% "highStart")) (.name (n% "UCPTRIE_SMALL_LIMIT"))))) (.seq (.aug .add (.name (n% "i1")) (.name (n% "UCPTRIE_SMALL_INDEX_LENGTH"))) .skip))) (.seq (.assign (.name (n% "i3Block")) (.index (.attr (.name (n% "self")) (n% "index")) (.bin .add (.index (.attr (.name (n% "self")) (n% "index")) (.name (n% "i1"))) (.bin .and (.bin .shr (.name (n% "c")) (.name (n% "UCPTRIE_SHIFT_2"))) (.name (n% "UCPTRIE_INDEX_2_MASK")))))) b)))

/-- CPTrie.py:274-295 -/
def threePart : Stmt := (.seq (.ifs (.and (.bin .eq (.name (n% "i3Block")) (.name (n% "prevI3Block"))) (.bin .ge (.bin .sub (.name (n% "c")) (.name (n% "start"))) (.name (n% "UCPTRIE_CP_PER_INDEX_2_ENTRY")))) (.seq (.assert (.bin .eq (.bin .and (.name (n% "c")) (.bin .sub (.name (n% "UCPTRIE_CP_PER_INDEX_2_ENTRY")) (.num 1))) (.num 0))) (.seq (.aug .add (.name (n% "c")) (.name (n% "UCPTRIE_CP_PER_INDEX_2_ENTRY"))) (.seq .cont .skip))) .skip) (.seq (.assign (.name (n% "prevI3Block")) (.name (n% "i3Block"))) (.seq (.ifs (.bin .eq (.name (n% "i3Block")) (.attr (.name (n% "self")) (n% "index3NullOffset"))) (.seq (switchOn (n% "nullValue") (n% "prevValue") (n% "nullValue")) (.seq (.assign (.name (n% "prevBlock")) (.attr (.name (n% "self")) (n% "dataNullOffset"))) (.seq (.assign (.name (n% "c")) (.bin .and (.bin .add (.name (n% "c")) (.name (n% "UCPTRIE_CP_PER_INDEX_2_ENTRY"))) (.inv (.bin .sub (.name (n% "UCPTRIE_CP_PER_INDEX_2_ENTRY")) (.num 1))))) (.seq .cont .skip)))) .skip) (.seq (.assign (.name (n% "i3Start")) (.bin .and (.bin .shr (.name (n% "c")) (.name (n% "UCPTRIE_SHIFT_3"))) (.name (n% "UCPTRIE_INDEX_3_MASK")))) (.seq (.assign (.name (n% "dataBlockLength")) (.name (n% "UCPTRIE_SMALL_DATA_BLOCK_LENGTH"))) .skip)))))

/-- CPTrie.py:258-340 -/
def passBody : Stmt := (.seq (.ifs bmpTest bmpPart (indexThen threePart)) (.seq (.for (.name (n% "i3")) (.call (.name (n% "range")) (.cons (.name (n% "i3Start")) (.cons (.name (n% "dataBlockLength")) .nil))) blockBody) .skip))

/-- CPTrie.py:257 -/
def passTest : Expr := (.and (.bin .lt (.name (n% "c")) (.name (n% "limit"))) (.bin .lt (.name (n% "c")) (.attr (.name (n% "self")) (n% "highStart"))))

/-- CPTrie.py:342-348 -/
def endPart : Stmt := (.ifs (.bin .gt (.name (n% "c")) (.name (n% "limit"))) (.seq (.assign (.name (n% "c")) (.name (n% "limit"))) .skip) (.seq (.ifs (.bin .lt (.name (n% "c")) (.name (n% "limit"))) (.seq (.assign (.name (n% "di")) (.bin .sub (.call (.name (n% "len")) (.cons (.attr (.name (n% "self")) (n% "data")) .nil)) (.name (n% "UCPTRIE_HIGH_VALUE_NEG_DATA_OFFSET")))) (.seq (.assign (.name (n% "highValue")) (.index (.attr (.name (n% "self")) (n% "data")) (.name (n% "di")))) (.seq (.ifs (.bin .ne (.name (n% "highValue")) (.name (n% "prevValue"))) (emitThen .skip) .skip) .skip))) .skip) .skip))

omit hw T in
theorem enumerator_text : Syntax.CPTrie.CPTrie.enumerator = (.defn (n% "enumerator") (.cons (.name (n% "self")) (.cons (.kwarg (n% "start") (.num 0)) (.cons (.kwarg (n% "limit") (.num 0x110000)) .nil))) (.seq (.ifs (.or (.bin .ge (.name (n% "start")) (.num 0x110000)) (.bin .ge (.name (n% "start")) (.attr (.name (n% "self")) (n% "highStart")))) (.seq (.ret (.name (n% "None"))) .skip) .skip) (.seq (.assign (.name (n% "prevI3Block")) (.neg (.num 1))) (.seq (.assign (.name (n% "prevBlock")) (.neg (.num 1))) (.seq (.assign (.name (n% "prev")) (.name (n% "start"))) (.seq (.assign (.name (n% "nullValue")) (.index (.attr (.name (n% "self")) (n% "data")) (.attr (.name (n% "self")) (n% "dataNullOffset")))) (.seq (.assign (.name (n% "prevValue")) (.name (n% "nullValue"))) (.seq (.assign (.name (n% "c")) (.name (n% "start"))) (.seq (.while passTest passBody) (.seq endPart (emitThen .skip))))))))))) := rfl

omit hw T in
theorem emit_yields : yields (emitThen .skip) = true := rfl

theorem index_run {start limit null fuel : Nat} {s : EState} {env : Env} {out : List Val} {call : Call} (h : At v start limit null s env) (b : Stmt) :
    if (if t.trieType = 0 then 0xFFFF < s.c ∧ s.c < t.highStart else s.c < t.highStart ∧ t.highStart > 0x1000) then
      match t.i3BlockOf s.c with
      | .error e => exec w call fuel (n% "CPTrie") (indexThen b) (env, out) = .error (.raised e)
      | .ok i3 => ∃ env', exec w call fuel (n% "CPTrie") (indexThen b) (env, out) = exec w call fuel (n% "CPTrie") b (env', out) ∧ At v start limit null s env' ∧
          getVar (n% "i3Block") env' = some (.int i3)
    else exec w call fuel (n% "CPTrie") (indexThen b) (env, out) = .error (.raised .assertionError) := by
  have f := fun x (hx : x ∉ locals) => h.free x hx
  have f1 := f (n% "UCPTRIE_SHIFT_1") (by decide)
  have f2 := f (n% "UCPTRIE_TYPE_FAST") (by decide)
  have f3 := f (n% "UCPTRIE_BMP_INDEX_LENGTH") (by decide)
  have f4 := f (n% "UCPTRIE_OMITTED_BMP_INDEX_1_LENGTH") (by decide)
  have f5 := f (n% "UCPTRIE_SMALL_LIMIT") (by decide)
  have f6 := f (n% "UCPTRIE_SMALL_INDEX_LENGTH") (by decide)
  have f7 := f (n% "UCPTRIE_SHIFT_2") (by decide)
  have f8 := f (n% "UCPTRIE_INDEX_2_MASK") (by decide)
  have i1 : ((1024 : Nat) : Int) - (4 : Nat) = (1020 : Nat) := rfl
  have e31 (x : Nat) : x &&& 31 = x % 32 := Nat.and_two_pow_sub_one_eq_mod x 5
  have key (i : Nat) (hi : i = t.index1 s.c) : t.i3BlockOf s.c = (do let i2 ← t.index.get i; t.index.get (i2 + s.c >>> 9 % 32) : Py Nat) := by
    rw [CPTrie.i3BlockOf, hi, Nat.shiftRight_eq_div_pow]; rfl
  by_cases ht : t.trieType = 0
  · simp only [if_pos ht]
    by_cases hc : 0xFFFF < s.c ∧ s.c < t.highStart
    · rw [if_pos hc]
      have key := key (s.c >>> 14 + 1020) (by rw [CPTrie.index1, CPTrie.TYPE_FAST, if_pos ht, Nat.shiftRight_eq_div_pow]; rfl)
      have h1 : At v start limit null s (setVar (n% "i1") (.int (s.c >>> 14 + 1020 : Nat)) (setVar (n% "i1") (.int (s.c >>> 14 : Nat)) env)) := (h.set (by simp) _).set (by simp) _
      cases g1 : t.index.get (s.c >>> 14 + 1020) with
      | error e =>
        rw [show t.i3BlockOf s.c = .error e by rw [key, g1]; rfl]
        show exec _ _ _ _ _ _ = _
        py_run [indexThen, h.self, h.c, f1, f2, f3, f4, f7, f8, getVar_setVar, found hw, facts, T.trieType, T.highStart, T.index, T.indexAt, i1, e31, decide_eq_true ht, decide_eq_true hc.1, decide_eq_true hc.2, g1]
      | ok i2 =>
        cases g2 : t.index.get (i2 + s.c >>> 9 % 32) with
        | error e =>
          rw [show t.i3BlockOf s.c = .error e from key.trans (by rw [g1]; exact g2)]
          show exec _ _ _ _ _ _ = _
          py_run [indexThen, h.self, h.c, f1, f2, f3, f4, f7, f8, getVar_setVar, found hw, facts, T.trieType, T.highStart, T.index, T.indexAt, i1, e31, decide_eq_true ht, decide_eq_true hc.1, decide_eq_true hc.2, g1, g2]
        | ok i3 =>
          rw [show t.i3BlockOf s.c = .ok i3 from key.trans (by rw [g1]; exact g2)]
          refine ⟨_, ?_, h1.set (x := n% "i3Block") (by simp) (.int i3), by simp only [getVar_setVar, ↓reduceIte]⟩
          py_run [indexThen, h.self, h.c, f1, f2, f3, f4, f7, f8, getVar_setVar, found hw, facts, T.trieType, T.highStart, T.index, T.indexAt, i1, e31, decide_eq_true ht, decide_eq_true hc.1, decide_eq_true hc.2, g1, g2]
    · rw [if_neg hc]
      by_cases hc1 : 0xFFFF < s.c
      · have hc2 : ¬ s.c < t.highStart := fun x => hc ⟨hc1, x⟩
        py_run [indexThen, h.self, h.c, f1, f2, getVar_setVar, found hw, facts, T.trieType, T.highStart, decide_eq_true ht, decide_eq_true hc1, decide_eq_false hc2]
      · py_run [indexThen, h.self, h.c, f1, f2, getVar_setVar, found hw, facts, T.trieType, T.highStart, decide_eq_true ht, decide_eq_false hc1]
  · simp only [if_neg ht]
    by_cases hc : s.c < t.highStart ∧ t.highStart > 0x1000
    · have hc2 : 0x1000 < t.highStart := hc.2
      rw [if_pos hc]
      have key := key (s.c >>> 14 + 64) (by rw [CPTrie.index1, CPTrie.TYPE_FAST, if_neg ht, Nat.shiftRight_eq_div_pow]; rfl)
      have h1 : At v start limit null s (setVar (n% "i1") (.int (s.c >>> 14 + 64 : Nat)) (setVar (n% "i1") (.int (s.c >>> 14 : Nat)) env)) := (h.set (by simp) _).set (by simp) _
      cases g1 : t.index.get (s.c >>> 14 + 64) with
      | error e =>
        rw [show t.i3BlockOf s.c = .error e by rw [key, g1]; rfl]
        show exec _ _ _ _ _ _ = _
        py_run [indexThen, h.self, h.c, f1, f2, f5, f6, f7, f8, getVar_setVar, found hw, facts, facts', T.trieType, T.highStart, T.index, T.indexAt, e31, decide_eq_false ht, decide_eq_true hc.1, decide_eq_true hc2, g1]
      | ok i2 =>
        cases g2 : t.index.get (i2 + s.c >>> 9 % 32) with
        | error e =>
          rw [show t.i3BlockOf s.c = .error e from key.trans (by rw [g1]; exact g2)]
          show exec _ _ _ _ _ _ = _
          py_run [indexThen, h.self, h.c, f1, f2, f5, f6, f7, f8, getVar_setVar, found hw, facts, facts', T.trieType, T.highStart, T.index, T.indexAt, e31, decide_eq_false ht, decide_eq_true hc.1, decide_eq_true hc2, g1, g2]
        | ok i3 =>
          rw [show t.i3BlockOf s.c = .ok i3 from key.trans (by rw [g1]; exact g2)]
          refine ⟨_, ?_, h1.set (x := n% "i3Block") (by simp) (.int i3), by simp only [getVar_setVar, ↓reduceIte]⟩
          py_run [indexThen, h.self, h.c, f1, f2, f5, f6, f7, f8, getVar_setVar, found hw, facts, facts', T.trieType, T.highStart, T.index, T.indexAt, e31, decide_eq_false ht, decide_eq_true hc.1, decide_eq_true hc2, g1, g2]
    · rw [if_neg hc]
      by_cases hc1 : s.c < t.highStart
      · have hc2 : ¬ 0x1000 < t.highStart := fun x => hc ⟨hc1, x⟩
        py_run [indexThen, h.self, h.c, f1, f2, f5, getVar_setVar, found hw, facts, facts', T.trieType, T.highStart, decide_eq_false ht, decide_eq_true hc1, decide_eq_false hc2]
      · py_run [indexThen, h.self, h.c, f1, f2, f5, getVar_setVar, found hw, facts, facts', T.trieType, T.highStart, decide_eq_false ht, decide_eq_false hc1]

/-- CPTrie.py:274-295, as `enumPass` has it: the state, and the first value of `i3` unless the pass ends here. -/
def three (t : CPTrie) (start null i3Block : Nat) (s : EState) : Py (EState × Option Nat) :=
  if some i3Block = s.prevI3Block ∧ s.c - start ≥ 512 then
    if s.c % 512 = 0 then .ok ({ s with c := s.c + 512 }, none) else .error .assertionError
  else if i3Block = t.index3NullOffset then
    .ok ({ ({ s with prevI3Block := some i3Block } : EState).switch null with
      prevBlock := some t.dataNullOffset
      c := ((({ s with prevI3Block := some i3Block } : EState).switch null).c + 512) / 512 * 512 }, none)
  else .ok ({ s with prevI3Block := some i3Block }, some (s.c / 2 ^ 4 % 32))

theorem three_run {start limit null fuel i3 : Nat} {s : EState} {env : Env} {call : Call} (h : At v start limit null s env) (hb : getVar (n% "i3Block") env = some (.int i3)) :
    match three t start null i3 s with
    | .error e => exec w call fuel (n% "CPTrie") threePart (env, s.out.map item) = .error (.raised e)
    | .ok (s', none) => ∃ env', exec w call fuel (n% "CPTrie") threePart (env, s.out.map item) = .ok (.cont, (env', s'.out.map item)) ∧ At v start limit null s' env'
    | .ok (s', some k) => ∃ env', exec w call fuel (n% "CPTrie") threePart (env, s.out.map item) = .ok (.next, (env', s'.out.map item)) ∧ At v start limit null s' env' ∧
        In i3 16 env' ∧ getVar (n% "i3Start") env' = some (.int k) := by
  have f := fun x (hx : x ∉ locals) => h.free x hx
  have f1 := f (n% "UCPTRIE_CP_PER_INDEX_2_ENTRY") (by decide)
  have f2 := f (n% "UCPTRIE_SHIFT_3") (by decide)
  have f3 := f (n% "UCPTRIE_INDEX_3_MASK") (by decide)
  have f4 := f (n% "UCPTRIE_SMALL_DATA_BLOCK_LENGTH") (by decide)
  have e31 (x : Nat) : x &&& 31 = x % 32 := Nat.and_two_pow_sub_one_eq_mod x 5
  unfold three
  by_cases hs : some i3 = s.prevI3Block ∧ s.c - start ≥ 512
  · rw [if_pos hs]
    have hs1 := hs.1.symm
    have hs2 : 512 ≤ s.c - start := hs.2
    by_cases hm : s.c % 512 = 0
    · rw [if_pos hm]
      refine ⟨_, ?_, h.setC (s.c + 512)⟩
      py_run [threePart, hb, h.prevI3, h.c, h.start, f1, found hw, facts', eq_opt, decide_eq_true hs1, ↓ge_sub _ _ 512 (by decide), decide_eq_true hs2, sub512, mod511, decide_eq_true hm]
    · rw [if_neg hm]
      show exec _ _ _ _ _ _ = _
      py_run [threePart, hb, h.prevI3, h.c, h.start, f1, found hw, facts', eq_opt, decide_eq_true hs1, ↓ge_sub _ _ 512 (by decide), decide_eq_true hs2, sub512, mod511, decide_eq_false hm]
  · rw [if_neg hs]
    have te : eval w call (n% "CPTrie") env (.and (.bin .eq (.name (n% "i3Block")) (.name (n% "prevI3Block"))) (.bin .ge (.bin .sub (.name (n% "c")) (.name (n% "start"))) (.name (n% "UCPTRIE_CP_PER_INDEX_2_ENTRY")))) = .ok (.bool false) := by
      by_cases h1 : s.prevI3Block = some i3
      · have h2 : ¬ 512 ≤ s.c - start := fun x => hs ⟨h1.symm, x⟩
        py_run [hb, h.prevI3, h.c, h.start, f1, found hw, facts', eq_opt, decide_eq_true h1, ↓ge_sub _ _ 512 (by decide), decide_eq_false h2]
      · py_run [hb, h.prevI3, eq_opt, decide_eq_false h1]
    have h1 : At v start limit null { s with prevI3Block := some i3 } (setVar (n% "prevI3Block") (.int i3) env) := h.setI3 i3
    have b1 : getVar (n% "i3Block") (setVar (n% "prevI3Block") (.int i3) env) = some (.int i3) := by simp only [getVar_setVar, Nat.reduceEqDiff, ↓reduceIte, hb]
    generalize henv : setVar (n% "prevI3Block") (.int i3) env = env1 at h1 b1
    have g1 := h1.free (n% "UCPTRIE_CP_PER_INDEX_2_ENTRY") (by decide)
    have g2 := h1.free (n% "UCPTRIE_SHIFT_3") (by decide)
    have g3 := h1.free (n% "UCPTRIE_INDEX_3_MASK") (by decide)
    have g4 := h1.free (n% "UCPTRIE_SMALL_DATA_BLOCK_LENGTH") (by decide)
    by_cases hz : i3 = t.index3NullOffset
    · rw [if_pos hz]
      have sw := switch_run (fuel := fuel) (a := n% "nullValue") (b := n% "prevValue") (x := n% "nullValue") (value := null) (call := call) hw h1
        (by py_run [h1.null, h1.prevValue]) h1.null (by decide)
      have h2 := h1.switch null
      generalize switched { s with prevI3Block := some i3 } null env1 = env2 at sw h2
      generalize ({ s with prevI3Block := some i3 } : EState).switch null = S at sw h2
      have k1 := h2.free (n% "UCPTRIE_CP_PER_INDEX_2_ENTRY") (by decide)
      refine ⟨_, ?_, (h2.setBlock t.dataNullOffset).setC ((S.c + 512) / 512 * 512)⟩
      py_run [threePart, ↓te, hb, henv, b1, h1.self, T.index3NullOffset, decide_eq_true hz, sw, h2.self, T.dataNullOffset, h2.c, getVar_setVar, k1, found hw, facts', sub512, inv511]
    · rw [if_neg hz]
      refine ⟨_, ?_, (h1.set (x := n% "i3Start") (by simp) (.int (s.c >>> 4 % 32 : Nat))).set (x := n% "dataBlockLength") (by simp) (.int (16 : Nat)), ⟨?_, ?_⟩, ?_⟩
      · py_run [threePart, ↓te, hb, henv, b1, h1.self, T.index3NullOffset, decide_eq_false hz, h1.c, getVar_setVar, g2, g3, g4, found hw, facts', facts, e31]
      · simp only [getVar_setVar, Nat.reduceEqDiff, ↓reduceIte, b1]
      · simp only [getVar_setVar, ↓reduceIte]
      · simp only [getVar_setVar, Nat.reduceEqDiff, ↓reduceIte, Nat.shiftRight_eq_div_pow]

/-- CPTrie.py:297-340 -/
def blocksPart : Stmt := (.seq (.for (.name (n% "i3")) (.call (.name (n% "range")) (.cons (.name (n% "i3Start")) (.cons (.name (n% "dataBlockLength")) .nil))) blockBody) .skip)

theorem part_run {start limit null fuel b n k : Nat} {call : Call} {s : EState} {env : Env} (L : Len n) (hf : n < fuel) (h : At v start limit null s env) (hi : In b n env)
    (hk : getVar (n% "i3Start") env = some (.int k)) :
    match enumBlocks t start limit null n b (n - k) k s with
    | .error e => e = .diverges ∨ exec w call fuel (n% "CPTrie") blocksPart (env, s.out.map item) = .error (.raised e)
    | .ok s' => ∃ env', exec w call fuel (n% "CPTrie") blocksPart (env, s.out.map item) = .ok (.next, (env', s'.out.map item)) ∧ At v start limit null s' env' := by
  have hr : w.find (n% "CPTrie") 0 (n% "range") = none := by rw [found hw]; exact facts'.2.2.2.2.1
  have q := blocks_run (call := call) hw T L hf (n - k) k h hi
  have e := range_nat k n
  generalize (List.range' k (n - k)).map (fun (i : Nat) => Val.int (i : Int)) = l at q e
  cases g : enumBlocks t start limit null n b (n - k) k s with
  | error x =>
    rw [g] at q
    rcases q with q | q
    · exact .inl q
    · refine .inr ?_
      py_run [blocksPart, hk, hi.length, h.free (n% "range") (by decide), builtin_call hr, builtin, iter, e, q]
  | ok s' =>
    rw [g] at q
    obtain ⟨env', q, h'⟩ := q
    refine ⟨env', ?_, h'⟩
    py_run [blocksPart, hk, hi.length, h.free (n% "range") (by decide), builtin_call hr, builtin, iter, e, q]

omit hw T in
theorem pass_bmp {start limit null : Nat} {s : EState} (hb : s.c ≤ 0xFFFF ∧ (t.trieType = 0 ∨ s.c ≤ 0xFFF)) :
    enumPass t start limit null s = enumBlocks t start limit null (2 ^ 6) 0 (2 ^ 6 - s.c / 2 ^ 6) (s.c / 2 ^ 6) s := by
  unfold enumPass
  rw [if_pos (show (s.c ≤ 0xFFFF ∧ (t.trieType = CPTrie.TYPE_FAST ∨ s.c ≤ CPTrie.SMALL_MAX)) from hb)]
  rfl

omit hw T in
theorem pass_assert {start limit null : Nat} {s : EState} (hb : ¬ (s.c ≤ 0xFFFF ∧ (t.trieType = 0 ∨ s.c ≤ 0xFFF)))
    (ha : ¬ (if t.trieType = 0 then 0xFFFF < s.c ∧ s.c < t.highStart else s.c < t.highStart ∧ t.highStart > 0x1000)) :
    enumPass t start limit null s = .error .assertionError := by
  unfold enumPass
  rw [if_neg (show ¬ (s.c ≤ 0xFFFF ∧ (t.trieType = CPTrie.TYPE_FAST ∨ s.c ≤ CPTrie.SMALL_MAX)) from hb), if_pos (show ¬ (if t.trieType = CPTrie.TYPE_FAST then 0xFFFF < s.c ∧ s.c < t.highStart else s.c < t.highStart ∧ t.highStart > CPTrie.SMALL_LIMIT) from ha)]

/-- The rest of the pass after `three`. -/
def after (t : CPTrie) (start limit null i3 : Nat) : Py (EState × Option Nat) → Py EState
  | .error e => .error e
  | .ok (s', none) => .ok s'
  | .ok (s', some k) => enumBlocks t start limit null (2 ^ 4) i3 (2 ^ 4 - k) k s'

omit hw T in
theorem pass_error {start limit null : Nat} {e : PyErr} {s : EState} (hb : ¬ (s.c ≤ 0xFFFF ∧ (t.trieType = 0 ∨ s.c ≤ 0xFFF)))
    (ha : if t.trieType = 0 then 0xFFFF < s.c ∧ s.c < t.highStart else s.c < t.highStart ∧ t.highStart > 0x1000) (g : t.i3BlockOf s.c = .error e) :
    enumPass t start limit null s = .error e := by
  unfold enumPass
  rw [if_neg (show ¬ (s.c ≤ 0xFFFF ∧ (t.trieType = CPTrie.TYPE_FAST ∨ s.c ≤ CPTrie.SMALL_MAX)) from hb), if_neg (show ¬ ¬ (if t.trieType = CPTrie.TYPE_FAST then 0xFFFF < s.c ∧ s.c < t.highStart else s.c < t.highStart ∧ t.highStart > CPTrie.SMALL_LIMIT) from not_not_intro ha), g]
  rfl

omit hw T in
theorem pass_three {start limit null i3 : Nat} {s : EState} (hb : ¬ (s.c ≤ 0xFFFF ∧ (t.trieType = 0 ∨ s.c ≤ 0xFFF)))
    (ha : if t.trieType = 0 then 0xFFFF < s.c ∧ s.c < t.highStart else s.c < t.highStart ∧ t.highStart > 0x1000) (g : t.i3BlockOf s.c = .ok i3) :
    enumPass t start limit null s = after t start limit null i3 (three t start null i3 s) := by
  unfold enumPass
  rw [if_neg (show ¬ (s.c ≤ 0xFFFF ∧ (t.trieType = CPTrie.TYPE_FAST ∨ s.c ≤ CPTrie.SMALL_MAX)) from hb), if_neg (show ¬ ¬ (if t.trieType = CPTrie.TYPE_FAST then 0xFFFF < s.c ∧ s.c < t.highStart else s.c < t.highStart ∧ t.highStart > CPTrie.SMALL_LIMIT) from not_not_intro ha), g]
  simp only [bind, Except.bind]
  by_cases hs : some i3 = s.prevI3Block ∧ s.c - start ≥ 512
  · rw [if_pos (show some i3 = s.prevI3Block ∧ s.c - start ≥ CPTrie.CP_PER_INDEX_2_ENTRY from hs)]
    by_cases hm : s.c % 512 = 0
    · rw [if_pos (show s.c % CPTrie.CP_PER_INDEX_2_ENTRY = 0 from hm), three, if_pos hs, if_pos hm]
      rfl
    · rw [if_neg (show ¬ s.c % CPTrie.CP_PER_INDEX_2_ENTRY = 0 from hm), three, if_pos hs, if_neg hm]
      rfl
  · rw [if_neg (show ¬ (some i3 = s.prevI3Block ∧ s.c - start ≥ CPTrie.CP_PER_INDEX_2_ENTRY) from hs)]
    by_cases hz : i3 = t.index3NullOffset
    · rw [if_pos hz, three, if_neg hs, if_pos hz]
      rfl
    · rw [if_neg hz, three, if_neg hs, if_neg hz]
      rfl

theorem pass_run {start limit null fuel : Nat} {call : Call} {s : EState} {env : Env} (hf : 64 < fuel) (h : At v start limit null s env) :
    match enumPass t start limit null s with
    | .error e => e = .diverges ∨ exec w call fuel (n% "CPTrie") passBody (env, s.out.map item) = .error (.raised e)
    | .ok s' => ∃ env' f, (f = .next ∨ f = .cont) ∧ exec w call fuel (n% "CPTrie") passBody (env, s.out.map item) = .ok (f, (env', s'.out.map item)) ∧ At v start limit null s' env' := by
  have f1 := h.free (n% "UCPTRIE_FAST_SHIFT") (by decide)
  have f2 := h.free (n% "UCPTRIE_FAST_DATA_BLOCK_LENGTH") (by decide)
  have f3 := h.free (n% "UCPTRIE_SMALL_MAX") (by decide)
  have f4 := h.free (n% "UCPTRIE_TYPE_FAST") (by decide)
  by_cases hb : s.c ≤ 0xFFFF ∧ (t.trieType = 0 ∨ s.c ≤ 0xFFF)
  · rw [pass_bmp hb]
    have te : eval w call (n% "CPTrie") env bmpTest = .ok (.bool true) := by
      by_cases ht : t.trieType = 0
      · py_run [bmpTest, h.c, h.self, f3, f4, found hw, facts, T.trieType, decide_eq_true hb.1, decide_eq_true ht]
      · have hc : s.c ≤ 0xfff := hb.2.resolve_left ht
        py_run [bmpTest, h.c, h.self, f3, f4, found hw, facts, T.trieType, decide_eq_true hb.1, decide_eq_false ht, decide_eq_true hc]
    have h1 : At v start limit null s (setVar (n% "dataBlockLength") (.int (64 : Nat)) (setVar (n% "i3Start") (.int (s.c >>> 6 : Nat)) (setVar (n% "i3Block") (.int (0 : Nat)) env))) :=
      ((h.set (by simp) _).set (by simp) _).set (by simp) _
    have i1 : In 0 64 (setVar (n% "dataBlockLength") (.int (64 : Nat)) (setVar (n% "i3Start") (.int (s.c >>> 6 : Nat)) (setVar (n% "i3Block") (.int (0 : Nat)) env))) := by
      constructor <;> simp only [getVar_setVar, Nat.reduceEqDiff, ↓reduceIte]
    have k1 : getVar (n% "i3Start") (setVar (n% "dataBlockLength") (.int (64 : Nat)) (setVar (n% "i3Start") (.int (s.c >>> 6 : Nat)) (setVar (n% "i3Block") (.int (0 : Nat)) env))) = some (.int (s.c / 2 ^ 6 : Nat)) := by
      simp only [getVar_setVar, Nat.reduceEqDiff, ↓reduceIte, Nat.shiftRight_eq_div_pow]
    have e : exec w call fuel (n% "CPTrie") passBody (env, s.out.map item) = exec w call fuel (n% "CPTrie") blocksPart
        (setVar (n% "dataBlockLength") (.int (64 : Nat)) (setVar (n% "i3Start") (.int (s.c >>> 6 : Nat)) (setVar (n% "i3Block") (.int (0 : Nat)) env)), s.out.map item) := by
      have bp : exec w call fuel (n% "CPTrie") bmpPart (env, s.out.map item) = .ok (.next, (setVar (n% "dataBlockLength") (.int (64 : Nat)) (setVar (n% "i3Start") (.int (s.c >>> 6 : Nat)) (setVar (n% "i3Block") (.int (0 : Nat)) env)), s.out.map item)) := by
        py_run [bmpPart, h.c, f1, f2, getVar_setVar, found hw, facts, facts']
      rw [passBody, exec, exec, te]
      simp only [bind, Except.bind, Val.truth, ↓reduceIte, bp]
      rfl
    rw [e]
    generalize (setVar (n% "dataBlockLength") (.int (64 : Nat)) (setVar (n% "i3Start") (.int (s.c >>> 6 : Nat)) (setVar (n% "i3Block") (.int (0 : Nat)) env))) = env1 at h1 i1 k1
    have q := part_run (call := call) hw T (len_pow 6) hf h1 i1 k1
    cases g : enumBlocks t start limit null (2 ^ 6) 0 (2 ^ 6 - s.c / 2 ^ 6) (s.c / 2 ^ 6) s with
    | error x => rw [g] at q; exact q
    | ok s' => rw [g] at q; obtain ⟨env', q, h'⟩ := q; exact ⟨env', .next, .inl rfl, q, h'⟩
  · have te : eval w call (n% "CPTrie") env bmpTest = .ok (.bool false) := by
      by_cases hc : s.c ≤ 0xFFFF
      · have ht : ¬ t.trieType = 0 := fun x => hb ⟨hc, .inl x⟩
        have hd : ¬ s.c ≤ 0xfff := fun x => hb ⟨hc, .inr x⟩
        py_run [bmpTest, h.c, h.self, f3, f4, found hw, facts, T.trieType, decide_eq_true hc, decide_eq_false ht, decide_eq_false hd]
      · py_run [bmpTest, h.c, decide_eq_false hc]
    have e : exec w call fuel (n% "CPTrie") passBody (env, s.out.map item) = (do
        let r ← exec w call fuel (n% "CPTrie") (indexThen threePart) (env, s.out.map item)
        match r.1 with
        | .next => exec w call fuel (n% "CPTrie") blocksPart r.2
        | f => .ok (f, r.2)) := by
      rw [passBody, exec, exec, te]
      simp only [bind, Except.bind, Val.truth, Bool.false_eq_true, ↓reduceIte]
      cases exec w call fuel (n% "CPTrie") (indexThen threePart) (env, s.out.map item) with
      | error e => rfl
      | ok r => obtain ⟨f, r⟩ := r; cases f <;> rfl
    rw [e]
    have q := index_run (fuel := fuel) (out := s.out.map item) (call := call) hw T h threePart
    by_cases ha : (if t.trieType = 0 then 0xFFFF < s.c ∧ s.c < t.highStart else s.c < t.highStart ∧ t.highStart > 0x1000)
    · rw [if_pos ha] at q
      cases g : t.i3BlockOf s.c with
      | error x =>
        rw [g] at q
        rw [pass_error hb ha g, show exec _ _ _ _ _ _ = _ from q]
        exact .inr rfl
      | ok i3 =>
        rw [g] at q
        rw [pass_three hb ha g]
        obtain ⟨env1, q, h1, b1⟩ := q
        rw [q]
        have r := three_run (fuel := fuel) (call := call) hw T h1 b1
        cases g3 : three t start null i3 s with
        | error x =>
          rw [g3] at r
          rw [show exec _ _ _ _ _ _ = _ from r]
          exact .inr rfl
        | ok p =>
          obtain ⟨s', o⟩ := p
          rw [g3] at r
          cases o with
          | none =>
            obtain ⟨env', r, h'⟩ := r
            rw [r]
            exact ⟨env', .cont, .inr rfl, rfl, h'⟩
          | some k =>
            obtain ⟨env', r, h', i', k'⟩ := r
            rw [r]
            have q := part_run (fuel := fuel) (call := call) hw T (len_pow 4) (by omega) h' i' k'
            rw [after]
            cases g4 : enumBlocks t start limit null (2 ^ 4) i3 (2 ^ 4 - k) k s' with
            | error x => rw [g4] at q; exact q
            | ok s' => rw [g4] at q; obtain ⟨env', q, h'⟩ := q; exact ⟨env', .next, .inl rfl, q, h'⟩
    · rw [if_neg ha] at q
      rw [pass_assert hb ha, q]
      exact .inr rfl

theorem loop_run {start limit null fuel : Nat} {call : Call} (hf : 64 < fuel) : ∀ (k : Nat) {s : EState} {env : Env}, At v start limit null s env → ∀ k', k < k' →
    match enumLoop t start limit null k s with
    | .error e => e = .diverges ∨ loop (test w call (n% "CPTrie") passTest) (exec w call fuel (n% "CPTrie") passBody) k' (env, s.out.map item) = .error (.raised e)
    | .ok s' => ∃ env', loop (test w call (n% "CPTrie") passTest) (exec w call fuel (n% "CPTrie") passBody) k' (env, s.out.map item) = .ok (.next, (env', s'.out.map item)) ∧
        At v start limit null s' env' := by
  intro k
  have last : ∀ {s : EState} {env : Env}, At v start limit null s env → ¬ (s.c < limit ∧ s.c < t.highStart) → ∀ k',
      loop (test w call (n% "CPTrie") passTest) (exec w call fuel (n% "CPTrie") passBody) (k' + 1) (env, s.out.map item) = .ok (.next, (env, s.out.map item)) := by
    intro s env h hc k'
    rw [loop]
    by_cases hl : s.c < limit
    · have hh : ¬ s.c < t.highStart := fun x => hc ⟨hl, x⟩
      py_run [test, passTest, h.c, h.limit, h.self, T.highStart, decide_eq_true hl, decide_eq_false hh]
    · py_run [test, passTest, h.c, h.limit, decide_eq_false hl]
  induction k with
  | zero =>
    intro s env h k' hk
    obtain ⟨k', rfl⟩ : ∃ j, k' = j + 1 := ⟨k' - 1, by omega⟩
    rw [enumLoop]
    by_cases hc : s.c < limit ∧ s.c < t.highStart
    · rw [if_pos hc]
      exact .inl rfl
    · rw [if_neg hc]
      exact ⟨env, last h hc k', h⟩
  | succ k ih =>
    intro s env h k' hk
    obtain ⟨k', rfl⟩ : ∃ j, k' = j + 1 := ⟨k' - 1, by omega⟩
    rw [enumLoop]
    by_cases hc : s.c < limit ∧ s.c < t.highStart
    · rw [if_pos hc]
      have te : test w call (n% "CPTrie") passTest env = .ok true := by
        py_run [test, passTest, h.c, h.limit, h.self, T.highStart, decide_eq_true hc.1, decide_eq_true hc.2]
      have q := pass_run (call := call) hw T hf h
      rw [loop, te]
      cases g : enumPass t start limit null s with
      | error x =>
        rw [g] at q
        rcases q with q | q
        · exact .inl q
        · rw [q]; exact .inr rfl
      | ok s' =>
        rw [g] at q
        obtain ⟨env', f, hf', q, h'⟩ := q
        rw [q]
        have := ih h' k' (by omega)
        rcases hf' with rfl | rfl <;>
        · simp only [bind, Except.bind, ↓reduceIte]
          exact this
    · rw [if_neg hc]
      exact ⟨env, last h hc k', h⟩

omit hw T in
theorem finish_same {limit hv : Nat} {s : EState} (h1 : ¬ s.c > limit) (h2 : s.c < limit) (g : t.data.get (t.data.size - 2) = .ok hv) (hn : hv = s.prevValue) :
    enumFinish t limit s = .ok (if s.prev < s.c then s.out ++ [⟨s.prev, s.c, s.prevValue⟩] else s.out) := by
  unfold enumFinish
  rw [if_neg h1, if_pos h2, show t.data.get (t.data.size - CPTrie.HIGH_VALUE_NEG_DATA_OFFSET) = .ok hv from g]
  simp only [bind, Except.bind, pure, Except.pure, if_neg (not_not_intro hn)]

omit hw T in
theorem finish_other {limit hv : Nat} {s : EState} (h1 : ¬ s.c > limit) (h2 : s.c < limit) (g : t.data.get (t.data.size - 2) = .ok hv) (hn : hv ≠ s.prevValue) :
    enumFinish t limit s = .ok (if s.prev < s.c then (if s.prev < s.c then s.out ++ [⟨s.prev, s.c, s.prevValue⟩] else s.out) ++ [⟨s.prev, s.c, s.prevValue⟩]
      else (if s.prev < s.c then s.out ++ [⟨s.prev, s.c, s.prevValue⟩] else s.out)) := by
  unfold enumFinish
  rw [if_neg h1, if_pos h2, show t.data.get (t.data.size - CPTrie.HIGH_VALUE_NEG_DATA_OFFSET) = .ok hv from g]
  simp only [bind, Except.bind, pure, Except.pure, if_pos hn]

omit hw T in
theorem finish_error {limit : Nat} {x : PyErr} {s : EState} (h1 : ¬ s.c > limit) (h2 : s.c < limit) (g : t.data.get (t.data.size - 2) = .error x) :
    enumFinish t limit s = .error x := by
  unfold enumFinish
  rw [if_neg h1, if_pos h2, show t.data.get (t.data.size - CPTrie.HIGH_VALUE_NEG_DATA_OFFSET) = .error x from g]
  rfl

omit hw T in
theorem finish_over {limit : Nat} {s : EState} (h1 : s.c > limit) :
    enumFinish t limit s = .ok (if s.prev < limit then s.out ++ [⟨s.prev, limit, s.prevValue⟩] else s.out) := by
  unfold enumFinish
  rw [if_pos h1]
  rfl

omit hw T in
theorem finish_at {limit : Nat} {s : EState} (h1 : ¬ s.c > limit) (h2 : ¬ s.c < limit) :
    enumFinish t limit s = .ok (if s.prev < s.c then s.out ++ [⟨s.prev, s.c, s.prevValue⟩] else s.out) := by
  unfold enumFinish
  rw [if_neg h1, if_neg h2]
  rfl

theorem finish_run {start limit null fuel : Nat} {call : Call} {s : EState} {env : Env} (h : At v start limit null s env) :
    match enumFinish t limit s with
    | .error e => exec w call fuel (n% "CPTrie") (.seq endPart (emitThen .skip)) (env, s.out.map item) = .error (.raised e)
    | .ok l => ∃ env', exec w call fuel (n% "CPTrie") (.seq endPart (emitThen .skip)) (env, s.out.map item) = .ok (.next, (env', l.map item)) := by
  have hr : w.find (n% "CPTrie") 0 (n% "len") = none := by rw [found hw]; exact facts'.2.2.2.2.2
  have fl := h.free (n% "len") (by decide)
  have fh := h.free (n% "UCPTRIE_HIGH_VALUE_NEG_DATA_OFFSET") (by decide)
  have e2 : (t.data.size : Int) - (2 : Nat) = ((t.data.size - 2 : Nat) : Int) := by have := T.long; omega
  have finish {s : EState} {env : Env} (h : At v start limit null s env) : exec w call fuel (n% "CPTrie") (emitThen .skip) (env, s.out.map item) = .ok (.next, (env, (if s.prev < s.c then s.out ++ [⟨s.prev, s.c, s.prevValue⟩] else s.out).map item)) := by
    rw [emit_run hw h]
    rfl
  by_cases h1 : s.c > limit
  · have h1' : limit < s.c := h1
    rw [finish_over h1]
    have a : exec w call fuel (n% "CPTrie") endPart (env, s.out.map item) = .ok (.next, (setVar (n% "c") (.int limit) env, s.out.map item)) := by
      py_run [endPart, h.c, h.limit, decide_eq_true h1']
    refine ⟨setVar (n% "c") (.int limit) env, ?_⟩
    rw [exec, a]
    exact finish (h.setC limit)
  · have h1' : ¬ limit < s.c := h1
    by_cases h2 : s.c < limit
    · cases g : t.data.get (t.data.size - 2) with
      | error x =>
        have a : exec w call fuel (n% "CPTrie") endPart (env, s.out.map item) = .error (.raised x) := by
          py_run [endPart, h.c, h.limit, h.self, decide_eq_false h1', decide_eq_true h2, fl, fh, builtin_call hr, T.length, T.data, T.dataAt, found hw, facts, getVar_setVar, e2, g]
        rw [finish_error h1 h2 g]
        show exec _ _ _ _ _ _ = _
        rw [exec, a]
        rfl
      | ok hv =>
        have k1 : At v start limit null s (setVar (n% "highValue") (.int hv) (setVar (n% "di") (.int (t.data.size - 2 : Nat)) env)) := (h.set (by simp) _).set (by simp) _
        have k2 : getVar (n% "highValue") (setVar (n% "highValue") (.int hv) (setVar (n% "di") (.int (t.data.size - 2 : Nat)) env)) = some (.int hv) := by simp only [getVar_setVar, ↓reduceIte]
        generalize henv : setVar (n% "highValue") (.int hv) (setVar (n% "di") (.int (t.data.size - 2 : Nat)) env) = env1 at k1 k2
        have em := finish k1
        by_cases hn : hv = s.prevValue
        · have a : exec w call fuel (n% "CPTrie") endPart (env, s.out.map item) = .ok (.next, (env1, s.out.map item)) := by
            py_run [endPart, h.c, h.limit, h.self, decide_eq_false h1', decide_eq_true h2, fl, fh, builtin_call hr, T.length, T.data, T.dataAt, found hw, facts, getVar_setVar, e2, g, henv, k2, k1.prevValue, decide_eq_true hn, Bool.not_true, Bool.false_eq_true]
          rw [finish_same h1 h2 g hn]
          refine ⟨env1, ?_⟩
          rw [exec, a]
          exact em
        · have a : exec w call fuel (n% "CPTrie") endPart (env, s.out.map item) = .ok (.next, (env1, (if s.prev < s.c then s.out ++ [⟨s.prev, s.c, s.prevValue⟩] else s.out).map item)) := by
            py_run [endPart, h.c, h.limit, h.self, decide_eq_false h1', decide_eq_true h2, fl, fh, builtin_call hr, T.length, T.data, T.dataAt, found hw, facts, getVar_setVar, e2, g, henv, k2, k1.prevValue, decide_eq_false hn, Bool.not_false, em]
          rw [finish_other h1 h2 g hn]
          have k3 : At v start limit null { s with out := if s.prev < s.c then s.out ++ [⟨s.prev, s.c, s.prevValue⟩] else s.out } env1 := ⟨k1.self, k1.start, k1.limit, k1.null, k1.prevI3, k1.prevBlock, k1.prev, k1.prevValue, k1.c, k1.free⟩
          refine ⟨env1, ?_⟩
          rw [exec, a]
          have em3 := finish k3
          exact em3
    · rw [finish_at h1 h2]
      have a : exec w call fuel (n% "CPTrie") endPart (env, s.out.map item) = .ok (.next, (env, s.out.map item)) := by
        py_run [endPart, h.c, h.limit, decide_eq_false h1', decide_eq_false h2]
      refine ⟨env, ?_⟩
      rw [exec, a]
      exact finish h

/-- CPTrie.py:257-351 -/
def enumRest : Stmt := (.seq (.while passTest passBody) (.seq endPart (emitThen .skip)))

/-- The statements of `enumerator`. -/
def enumBody : Stmt := (.seq (.ifs (.or (.bin .ge (.name (n% "start")) (.num 0x110000)) (.bin .ge (.name (n% "start")) (.attr (.name (n% "self")) (n% "highStart")))) (.seq (.ret (.name (n% "None"))) .skip) .skip) (.seq (.assign (.name (n% "prevI3Block")) (.neg (.num 1))) (.seq (.assign (.name (n% "prevBlock")) (.neg (.num 1))) (.seq (.assign (.name (n% "prev")) (.name (n% "start"))) (.seq (.assign (.name (n% "nullValue")) (.index (.attr (.name (n% "self")) (n% "data")) (.attr (.name (n% "self")) (n% "dataNullOffset")))) (.seq (.assign (.name (n% "prevValue")) (.name (n% "nullValue"))) (.seq (.assign (.name (n% "c")) (.name (n% "start"))) enumRest)))))))

omit hw T in
theorem noNone : cptrie.find 0 (n% "None") = none := by decide +kernel

omit hw T in
theorem enumBody_yields : yields enumBody = true := rfl

omit T in
theorem enter_run (T : IsTrie w v iv dv t) (args : List Val) (n : Nat) : callMethod w (run w (n + 1)) v (n% "enumerator") (chain args) =
    (run w (n + 1) (n% "CPTrie") (.cons (.name (n% "self")) (.cons (.kwarg (n% "start") (.num 0)) (.cons (.kwarg (n% "limit") (.num 0x110000)) .nil))) enumBody (.cons v (chain args))).map Prod.fst := by
  rw [method hw T enumerator_method enumerator_text]
  rfl

omit T in
theorem enter_two (T : IsTrie w v iv dv t) (start limit n : Nat) : callMethod w (run w (n + 1)) v (n% "enumerator") (.cons (.int start) (.cons (.int limit) .nil)) = (do
    let r ← exec w (run w n) n (n% "CPTrie") enumBody ([(n% "self", v), (n% "start", .int start), (n% "limit", .int limit)], [])
    finish true r.1 r.2 : R (Val × Env)).map Prod.fst := by
  have enter : run w (n + 1) (n% "CPTrie") (.cons (.name (n% "self")) (.cons (.kwarg (n% "start") (.num 0)) (.cons (.kwarg (n% "limit") (.num 0x110000)) .nil))) enumBody
      (.cons v (.cons (.int start) (.cons (.int limit) .nil))) = (do
        let r ← exec w (run w n) n (n% "CPTrie") enumBody ([(n% "self", v), (n% "start", .int start), (n% "limit", .int limit)], [])
        finish (yields enumBody) r.1 r.2) := rfl
  rw [enumBody_yields] at enter
  rw [show callMethod w (run w (n + 1)) v (n% "enumerator") (.cons (.int start) (.cons (.int limit) .nil)) = _ from enter_run hw T [.int start, .int limit] n]
  exact congrArg (Except.map Prod.fst) enter

omit T in
/-- `start` and `limit` have the values 0 and 0x110000 if they are left out. -/
theorem defaults_run (T : IsTrie w v iv dv t) (start n : Nat) :
    callMethod w (run w (n + 1)) v (n% "enumerator") .nil = callMethod w (run w (n + 1)) v (n% "enumerator") (.cons (.int (0 : Nat)) (.cons (.int (0x110000 : Nat)) .nil)) ∧
    callMethod w (run w (n + 1)) v (n% "enumerator") (.cons (.int start) .nil) =
      callMethod w (run w (n + 1)) v (n% "enumerator") (.cons (.int start) (.cons (.int (0x110000 : Nat)) .nil)) :=
  ⟨(enter_run hw T [] n).trans (enter_run hw T [.int (0 : Nat), .int (0x110000 : Nat)] n).symm,
    (enter_run hw T [.int start] n).trans (enter_run hw T [.int start, .int (0x110000 : Nat)] n).symm⟩

omit hw in
theorem start_run {start limit null n : Nat} (h2 : ¬ 0x110000 ≤ start) (h3 : ¬ t.highStart ≤ start) (g : t.data.get t.dataNullOffset = .ok null) :
    ∃ env0, exec w (run w n) n (n% "CPTrie") enumBody ([(n% "self", v), (n% "start", .int start), (n% "limit", .int limit)], []) =
      exec w (run w n) n (n% "CPTrie") enumRest (env0, []) ∧ At v start limit null ⟨[], none, none, start, null, start⟩ env0 := by
  have h0 : At v start limit null ⟨[], none, none, start, null, start⟩ (setVar (n% "c") (.int start) (setVar (n% "prevValue") (.int null) (setVar (n% "nullValue") (.int null)
      (setVar (n% "prev") (.int start) (setVar (n% "prevBlock") (.int (-((1 : Nat) : Int))) (setVar (n% "prevI3Block") (.int (-((1 : Nat) : Int))) [(n% "self", v), (n% "start", .int start), (n% "limit", .int limit)])))))) := by
    refine ⟨?_, ?_, ?_, ?_, ?_, ?_, ?_, ?_, ?_, ?_⟩
    · simp only [getVar_setVar, getVar, Nat.reduceEqDiff, ↓reduceIte]
    · simp only [getVar_setVar, getVar, Nat.reduceEqDiff, ↓reduceIte]
    · simp only [getVar_setVar, getVar, Nat.reduceEqDiff, ↓reduceIte]
    · simp only [getVar_setVar, getVar, Nat.reduceEqDiff, ↓reduceIte]
    · simp only [getVar_setVar, getVar, Nat.reduceEqDiff, ↓reduceIte, opt]
    · simp only [getVar_setVar, getVar, Nat.reduceEqDiff, ↓reduceIte, opt]
    · simp only [getVar_setVar, getVar, Nat.reduceEqDiff, ↓reduceIte]
    · simp only [getVar_setVar, getVar, Nat.reduceEqDiff, ↓reduceIte]
    · simp only [getVar_setVar, getVar, Nat.reduceEqDiff, ↓reduceIte]
    · refine free_set (by decide) (free_set (by decide) (free_set (by decide) (free_set (by decide) (free_set (by decide) (free_set (by decide) ?_)))))
      intro x hx
      have a : n% "self" ≠ x := fun e => hx (e ▸ by decide)
      have b : n% "start" ≠ x := fun e => hx (e ▸ by decide)
      have c : n% "limit" ≠ x := fun e => hx (e ▸ by decide)
      simp only [getVar, if_neg a, if_neg b, if_neg c]
  generalize henv : (setVar (n% "c") (.int start) (setVar (n% "prevValue") (.int null) (setVar (n% "nullValue") (.int null)
      (setVar (n% "prev") (.int start) (setVar (n% "prevBlock") (.int (-((1 : Nat) : Int))) (setVar (n% "prevI3Block") (.int (-((1 : Nat) : Int))) [(n% "self", v), (n% "start", .int start), (n% "limit", .int limit)])))))) = env0 at h0
  have e : exec w (run w n) n (n% "CPTrie") enumBody ([(n% "self", v), (n% "start", .int start), (n% "limit", .int limit)], []) =
      exec w (run w n) n (n% "CPTrie") enumRest (env0, []) := by
    py_run [enumBody, decide_eq_false h2, decide_eq_false h3, T.highStart, T.data, T.dataAt, T.dataNullOffset, g, getVar_setVar]
    rw [← henv]
    rfl
  exact ⟨env0, e, h0⟩

theorem enumerator_run (start limit k n : Nat) (hn : 64 < n) (hk : k < n) (hd : t.enumeratorFuel start limit k ≠ .error .diverges) :
    callMethod w (run w (n + 1)) v (n% "enumerator") (.cons (.int start) (.cons (.int limit) .nil)) =
      lift ((t.enumeratorFuel start limit k).map fun l => .list (chain (l.map item))) := by
  have enter : callMethod w (run w (n + 1)) v (n% "enumerator") (.cons (.int start) (.cons (.int limit) .nil)) = (do
        let r ← exec w (run w n) n (n% "CPTrie") enumBody ([(n% "self", v), (n% "start", .int start), (n% "limit", .int limit)], [])
        finish true r.1 r.2 : R (Val × Env)).map Prod.fst := enter_two hw T.toIsTrie start limit n
  rw [enter]
  unfold CPTrie.enumeratorFuel
  unfold CPTrie.enumeratorFuel at hd
  by_cases h1 : start ≥ 0x110000 ∨ start ≥ t.highStart
  · rw [if_pos h1]
    by_cases h2 : 0x110000 ≤ start
    · py_run [enumBody, decide_eq_true h2, found hw, noNone]
      rfl
    · have h3 : t.highStart ≤ start := h1.resolve_left h2
      py_run [enumBody, decide_eq_false h2, T.highStart, decide_eq_true h3, found hw, noNone]
      rfl
  · rw [if_neg h1]
    rw [if_neg h1] at hd
    have h2 : ¬ 0x110000 ≤ start := fun x => h1 (.inl x)
    have h3 : ¬ t.highStart ≤ start := fun x => h1 (.inr x)
    cases g : t.data.get t.dataNullOffset with
    | error x => py_run [enumBody, decide_eq_false h2, decide_eq_false h3, T.highStart, T.data, T.dataAt, T.dataNullOffset, getVar_setVar, g]
    | ok null =>
      rw [g] at hd
      obtain ⟨env0, e, h0⟩ := start_run (limit := limit) (n := n) T h2 h3 g
      rw [e, enumRest, exec, exec]
      have q := loop_run (call := run w n) hw T hn k h0 n hk
      cases g1 : enumLoop t start limit null k ⟨[], none, none, start, null, start⟩ with
      | error x =>
        rw [g1] at q
        have hx : ¬ x = .diverges := fun y => hd (by
          show (enumLoop t start limit null k ⟨[], none, none, start, null, start⟩ >>= fun s => enumFinish t limit s) = _
          rw [g1, y]
          rfl)
        rw [show loop _ _ _ (env0, []) = _ from q.resolve_left hx]
        show _ = lift ((enumLoop t start limit null k ⟨[], none, none, start, null, start⟩ >>= fun s => enumFinish t limit s).map _)
        rw [g1]
        rfl
      | ok s =>
        rw [g1] at q
        obtain ⟨env1, q, h'⟩ := q
        rw [show loop _ _ _ (env0, []) = _ from q]
        have r := finish_run (fuel := n) (call := run w n) hw T h'
        show _ = lift ((enumLoop t start limit null k ⟨[], none, none, start, null, start⟩ >>= fun s => enumFinish t limit s).map _)
        rw [g1]
        show (do let r ← exec w (run w n) n (n% "CPTrie") (.seq endPart (emitThen .skip)) (env1, s.out.map item); finish true r.1 r.2 : R (Val × Env)).map Prod.fst = lift ((enumFinish t limit s).map _)
        cases g2 : enumFinish t limit s with
        | error x =>
          rw [g2] at r
          rw [show exec _ _ _ _ _ _ = _ from r]
          rfl
        | ok l =>
          rw [g2] at r
          obtain ⟨env', r⟩ := r
          rw [r]
          rfl

/-! ## When the main loop never ends -/

section
omit hw T
theorem get_ends (a : Arr) (i : Nat) : a.get i ≠ .error .diverges := by
  unfold Arr.get
  split
  · exact fun h => nomatch h
  · exact fun h => nomatch h

theorem bind_ends {α β : Type} {x : Py α} {f : α → Py β} (hx : x ≠ .error .diverges) (hf : ∀ a, f a ≠ .error .diverges) : (x >>= f) ≠ .error .diverges := by
  cases x with
  | error e => exact fun h => hx (congrArg Except.error (Except.error.inj h))
  | ok a => exact hf a

theorem values_ends {limit n : Nat} (hn : ∀ c, (c + 1) % n = 0 ∨ (c + 1) % n = c % n + 1) : ∀ (k di : Nat) (s : EState), s.c % n = 0 ∨ n ≤ k + s.c % n →
    s.c % n < n → enumValues t limit n k di s ≠ .error .diverges := by
  intro k
  induction k with
  | zero =>
    intro di s h hl
    rw [enumValues, if_neg (fun x => by have := x.2; omega)]
    exact fun h => nomatch h
  | succ k ih =>
    intro di s h hl
    rw [enumValues]
    split
    · rename_i hc
      refine bind_ends (get_ends _ _) fun a => ih _ _ ?_ ?_
      · rw [show ({ s.switch a with c := (s.switch a).c + 1 } : EState).c = s.c + 1 from congrArg (· + 1) (switch_c a)]
        rcases hn s.c with e | e
        · exact .inl e
        · right; have := hc.2; omega
      · exact Nat.mod_lt _ (by omega)
    · exact fun h => nomatch h

theorem block_ends (b i3 : Nat) : t.blockAt b i3 ≠ .error .diverges := by
  unfold CPTrie.blockAt
  split
  · exact get_ends _ _
  · exact bind_ends (get_ends _ _) fun a => bind_ends (get_ends _ _) fun b h => nomatch h

theorem use_ends {start limit null n block : Nat} {s : EState} (hn : ∀ c, (c + 1) % n = 0 ∨ (c + 1) % n = c % n + 1) (hp : 0 < n) :
    useModel t start limit null n block s ≠ .error .diverges := by
  unfold useModel
  split
  · split
    · exact fun h => nomatch h
    · exact fun h => nomatch h
  · dsimp only
    split
    · exact fun h => nomatch h
    · exact bind_ends (get_ends _ _) fun a => values_ends hn _ _ _ (.inr (by omega)) (Nat.mod_lt _ hp)

theorem blocks_ends {start limit null n b : Nat} (hn : ∀ c, (c + 1) % n = 0 ∨ (c + 1) % n = c % n + 1) (hp : 0 < n) :
    ∀ (k i3 : Nat) (s : EState), enumBlocks t start limit null n b k i3 s ≠ .error .diverges := by
  intro k
  induction k with
  | zero => intro i3 s h; cases h
  | succ k ih =>
    intro i3 s
    rw [enumBlocks]
    split
    · exact fun h => nomatch h
    · refine bind_ends ?_ fun s' => ih _ s'
      rw [enumBlock_use]
      exact bind_ends (block_ends _ _) fun _ => use_ends hn hp

theorem pass_ends (start limit null : Nat) (s : EState) : enumPass t start limit null s ≠ .error .diverges := by
  by_cases hb : s.c ≤ 0xFFFF ∧ (t.trieType = 0 ∨ s.c ≤ 0xFFF)
  · rw [pass_bmp hb]
    exact blocks_ends (by omega) (by decide) _ _ _
  · by_cases ha : (if t.trieType = 0 then 0xFFFF < s.c ∧ s.c < t.highStart else s.c < t.highStart ∧ t.highStart > 0x1000)
    · cases g : t.i3BlockOf s.c with
      | error e =>
        rw [pass_error hb ha g]
        exact fun h => (bind_ends (get_ends _ _) fun _ => get_ends _ _ : t.i3BlockOf s.c ≠ .error .diverges) (g.trans (congrArg Except.error (Except.error.inj h)))
      | ok i3 =>
        rw [pass_three hb ha g]
        unfold three
        split
        · split
          · exact fun h => nomatch h
          · exact fun h => nomatch h
        · split
          · exact fun h => nomatch h
          · exact blocks_ends (by omega) (by decide) _ _ _
    · rw [pass_assert hb ha]
      exact fun h => nomatch h

theorem finish_ends (limit : Nat) (s : EState) : enumFinish t limit s ≠ .error .diverges := by
  by_cases h1 : s.c > limit
  · rw [finish_over h1]; exact fun h => nomatch h
  · by_cases h2 : s.c < limit
    · cases g : t.data.get (t.data.size - 2) with
      | error e => rw [finish_error h1 h2 g]; exact fun h => get_ends _ _ (g.trans (congrArg Except.error (Except.error.inj h)))
      | ok hv =>
        by_cases hn : hv = s.prevValue
        · rw [finish_same h1 h2 g hn]; exact fun h => nomatch h
        · rw [finish_other h1 h2 g hn]; exact fun h => nomatch h
    · rw [finish_at h1 h2]; exact fun h => nomatch h
end

theorem loop_never {start limit null fuel : Nat} {call : Call} (hf : 64 < fuel) : ∀ (k' : Nat) {s : EState} {env : Env}, At v start limit null s env →
    (∀ k, enumLoop t start limit null k s = .error .diverges) →
    loop (test w call (n% "CPTrie") passTest) (exec w call fuel (n% "CPTrie") passBody) k' (env, s.out.map item) = .error .stuck := by
  intro k'
  induction k' with
  | zero => intro s env h hd; rfl
  | succ k' ih =>
    intro s env h hd
    have hc : s.c < limit ∧ s.c < t.highStart := by
      refine Classical.byContradiction fun hc => ?_
      have := hd 0
      rw [enumLoop, if_neg hc] at this
      cases this
    have te : test w call (n% "CPTrie") passTest env = .ok true := by
      py_run [test, passTest, h.c, h.limit, h.self, T.highStart, decide_eq_true hc.1, decide_eq_true hc.2]
    have q := pass_run (call := call) hw T hf h
    rw [loop, te]
    cases g : enumPass t start limit null s with
    | error x =>
      have := hd 1
      rw [enumLoop, if_pos hc, g] at this
      exact absurd (g.trans (congrArg Except.error (Except.error.inj this))) (pass_ends start limit null s)
    | ok s' =>
      rw [g] at q
      obtain ⟨env', f, hf', q, h'⟩ := q
      rw [q]
      have := ih h' fun k => by
        have := hd (k + 1)
        rw [enumLoop, if_pos hc, g] at this
        exact this
      rcases hf' with rfl | rfl <;>
      · simp only [bind, Except.bind, ↓reduceIte]
        exact this

/-- If the model says that the enumerator never ends, the text neither returns nor raises, whatever the number of steps. -/
theorem enumerator_never (start limit : Nat) (hd : ∀ k, t.enumeratorFuel start limit k = .error .diverges) (n : Nat) (hn : 64 < n) :
    callMethod w (run w (n + 1)) v (n% "enumerator") (.cons (.int start) (.cons (.int limit) .nil)) = .error .stuck := by
  rw [enter_two hw T.toIsTrie start limit n]
  have h1 : ¬ (start ≥ 0x110000 ∨ start ≥ t.highStart) := fun h => by
    have := hd 0
    rw [CPTrie.enumeratorFuel, if_pos h] at this
    cases this
  have hd (k : Nat) : (t.data.get t.dataNullOffset >>= fun null => enumLoop t start limit null k ⟨[], none, none, start, null, start⟩ >>= fun s => enumFinish t limit s) = .error .diverges := by
    have := hd k
    rw [CPTrie.enumeratorFuel, if_neg h1] at this
    exact this
  cases g : t.data.get t.dataNullOffset with
  | error x =>
    have := hd 0
    rw [g] at this
    exact absurd (g.trans (congrArg Except.error (Except.error.inj this))) (get_ends _ _)
  | ok null =>
    obtain ⟨env0, e, h0⟩ := start_run (limit := limit) (n := n) T (fun x => h1 (.inl x)) (fun x => h1 (.inr x)) g
    have never := loop_never (call := run w n) hw T hn n h0 fun k => by
      have := hd k
      rw [g] at this
      cases g1 : enumLoop t start limit null k ⟨[], none, none, start, null, start⟩ with
      | error x =>
        replace this : (enumLoop t start limit null k ⟨[], none, none, start, null, start⟩ >>= fun s => enumFinish t limit s) = .error .diverges := this
        rw [g1] at this
        exact congrArg Except.error (Except.error.inj this)
      | ok s =>
        replace this : (enumLoop t start limit null k ⟨[], none, none, start, null, start⟩ >>= fun s => enumFinish t limit s) = .error .diverges := this
        rw [g1] at this
        exact absurd this (finish_ends limit s)
    rw [e, enumRest, exec, exec, show loop _ _ _ (env0, []) = _ from never]
    rfl

end Verif.PyRun.CPTries

import Verif.Lemmas.RunTrie
import Verif.Model.CPTrie
/-! # `CPTrie.get`, executed from the text of CPTrie.py -/
namespace Verif.PyRun.CPTries
open Verif.PySyntax Verif.Library Verif.Data
set_option maxRecDepth 4000

noncomputable def cptrie : Scope := scopeOf (define withUtilities depth (n% "CPTrie") 0 (before 0 Syntax.CPTrie.module) [(0, n% "sstruct", .val .other)])

theorem cptrie_ok : define withUtilities depth (n% "CPTrie") 0 (before 0 Syntax.CPTrie.module) [(0, n% "sstruct", .val .other)] = .ok cptrie := by
  decide +kernel

theorem facts : cptrie.find 0 (n% "UCPTRIE_FAST_SHIFT") = some (.val (.int (6 : Nat))) ∧
    cptrie.find 0 (n% "UCPTRIE_FAST_DATA_MASK") = some (.val (.int (63 : Nat))) ∧
    cptrie.find 0 (n% "UCPTRIE_SMALL_MAX") = some (.val (.int (0xfff : Nat))) ∧
    cptrie.find 0 (n% "UCPTRIE_ERROR_VALUE_NEG_DATA_OFFSET") = some (.val (.int (1 : Nat))) ∧
    cptrie.find 0 (n% "UCPTRIE_HIGH_VALUE_NEG_DATA_OFFSET") = some (.val (.int (2 : Nat))) ∧
    cptrie.find 0 (n% "UCPTRIE_BMP_INDEX_LENGTH") = some (.val (.int (1024 : Nat))) ∧
    cptrie.find 0 (n% "UCPTRIE_SMALL_INDEX_LENGTH") = some (.val (.int (64 : Nat))) ∧
    cptrie.find 0 (n% "UCPTRIE_SHIFT_3") = some (.val (.int (4 : Nat))) ∧
    cptrie.find 0 (n% "UCPTRIE_SHIFT_2") = some (.val (.int (9 : Nat))) ∧
    cptrie.find 0 (n% "UCPTRIE_SHIFT_1") = some (.val (.int (14 : Nat))) ∧
    cptrie.find 0 (n% "UCPTRIE_OMITTED_BMP_INDEX_1_LENGTH") = some (.val (.int (4 : Nat))) ∧
    cptrie.find 0 (n% "UCPTRIE_INDEX_2_MASK") = some (.val (.int (31 : Nat))) ∧
    cptrie.find 0 (n% "UCPTRIE_INDEX_3_MASK") = some (.val (.int (31 : Nat))) ∧
    cptrie.find 0 (n% "UCPTRIE_SMALL_DATA_MASK") = some (.val (.int (15 : Nat))) ∧
    cptrie.find 0 (n% "UCPTRIE_TYPE_FAST") = some (.val (.int (0 : Nat))) := by decide +kernel

theorem methods : cptrie.find (n% "CPTrie") (n% "fastIndex") = fnOf (n% "CPTrie") Syntax.CPTrie.CPTrie.fastIndex ∧
    cptrie.find (n% "CPTrie") (n% "internalSmallIndex") = fnOf (n% "CPTrie") Syntax.CPTrie.CPTrie.internalSmallIndex ∧
    cptrie.find (n% "CPTrie") (n% "smallIndex") = fnOf (n% "CPTrie") Syntax.CPTrie.CPTrie.smallIndex ∧
    cptrie.find (n% "CPTrie") (n% "cpIndex") = fnOf (n% "CPTrie") Syntax.CPTrie.CPTrie.cpIndex ∧
    cptrie.find (n% "CPTrie") (n% "get") = fnOf (n% "CPTrie") Syntax.CPTrie.CPTrie.get := by decide +kernel

/-- `v` is a `CPTrie` with the numbers of `t`; `iv` and `dv` are its lists. -/
structure IsTrie (w : World) (v iv dv : Val) (t : CPTrie) : Prop where
  object : ∃ fs, v = .obj (n% "CPTrie") (n% "CPTrie") fs
  index : attr w v (n% "index") = .ok iv
  data : attr w v (n% "data") = .ok dv
  dataLength : attr w v (n% "dataLength") = .ok (.int t.data.size)
  trieType : attr w v (n% "trieType") = .ok (.int t.trieType)
  highStart : attr w v (n% "highStart") = .ok (.int t.highStart)
  indexAt : ∀ i : Nat, PyRun.index w iv (.int i) = match t.index.get i with | .ok e => .ok (.int e) | .error e => .error (.raised e)
  dataAt : ∀ i : Nat, PyRun.index w dv (.int i) = match t.data.get i with | .ok e => .ok (.int e) | .error e => .error (.raised e)
  long : 2 ≤ t.data.size

variable {w : World} {v iv dv : Val} {t : CPTrie} (hw : w.scope (n% "CPTrie") = cptrie) (T : IsTrie w v iv dv t)
include hw

theorem found (x : Nat) : w.find (n% "CPTrie") 0 x = cptrie.find 0 x := by rw [World.find, hw]

include T

theorem method {x y : Nat} {call : Call} {args : Val} {d b : Stmt} {ps : Expr} (h : cptrie.find (n% "CPTrie") x = fnOf (n% "CPTrie") d)
    (hd : d = .defn y ps b) : callMethod w call v x args = (call (n% "CPTrie") ps b (.cons v args)).map Prod.fst := by
  obtain ⟨fs, e⟩ := T.object
  simp only [e, callMethod, World.find, hw, h, hd, fnOf]

theorem fast_run (c n : Nat) : callMethod w (run w (n + 1)) v (n% "fastIndex") (.cons (.int c) .nil) =
    lift ((t.fastIndex c).map fun e => .int e) := by
  rw [method hw T methods.1 rfl]
  unfold CPTrie.fastIndex
  simp only [CPTrie.FAST_SHIFT, CPTrie.FAST_DATA_BLOCK_LENGTH, ← Nat.shiftRight_eq_div_pow, ← Nat.and_two_pow_sub_one_eq_mod]
  cases h : t.index.get (c >>> 6) <;> py_run [T.index, found hw, facts, T.indexAt, h]

omit hw T in
theorem and_inv (a : Nat) : pyAnd (a : Int) (-((7 : Nat) : Int) - 1) = ((a / 8 * 8 : Nat) : Int) := by
  show ((a - (a &&& 2 ^ 3 - 1) : Nat) : Int) = _
  rw [Nat.and_two_pow_sub_one_eq_mod]
  omega

theorem internal_run (c n : Nat) : callMethod w (run w (n + 1)) v (n% "internalSmallIndex") (.cons (.int c) .nil) =
    lift ((t.internalSmallIndex c).map fun e => .int e) := by
  rw [method hw T methods.2.1 rfl]
  have key : ∀ i1 : Nat, i1 = t.index1 c → t.internalSmallIndex c = (do
      let i2 ← t.index.get i1
      let i3Block ← t.index.get (i2 + (c >>> 9 &&& 31))
      let dataBlock ← (if i3Block &&& 0x8000 = 0 then t.index.get (i3Block + (c >>> 4 &&& 31))
        else do
          let hi ← t.index.get ((i3Block &&& 0x7FFF) + (c >>> 4 &&& 31) / 8 * 8 + (c >>> 4 &&& 31) >>> 3)
          let lo ← t.index.get ((i3Block &&& 0x7FFF) + (c >>> 4 &&& 31) / 8 * 8 + (c >>> 4 &&& 31) >>> 3 + 1 + (c >>> 4 &&& 31 &&& 7))
          return (hi <<< (2 + 2 * (c >>> 4 &&& 31 &&& 7)) &&& 0x30000) ||| lo)
      return dataBlock + (c &&& 15) : Py Nat) := by
    intro i1 h1
    unfold CPTrie.internalSmallIndex CPTrie.i3BlockOf CPTrie.blockAt
    have e3 (x : Nat) : x &&& 7 = x % 8 := Nat.and_two_pow_sub_one_eq_mod x 3
    simp only [h1, CPTrie.SHIFT_2, CPTrie.SHIFT_3, CPTrie.INDEX_2_BLOCK_LENGTH, CPTrie.INDEX_3_BLOCK_LENGTH, CPTrie.SMALL_DATA_BLOCK_LENGTH,
      CPTrie.SHIFT_1_2, CPTrie.SHIFT_2_3, CPTrie.SHIFT_1, Nat.shiftRight_eq_div_pow, e3, Nat.shiftLeft_eq,
      show ∀ x, x &&& 31 = x % 2 ^ 5 from fun x => Nat.and_two_pow_sub_one_eq_mod x 5, show ∀ x, x &&& 15 = x % 2 ^ 4 from fun x => Nat.and_two_pow_sub_one_eq_mod x 4,
      bind_assoc, Nat.reduceAdd, Nat.add_right_comm _ 1]
  have i1 : ((1024 : Nat) : Int) - (4 : Nat) = (1020 : Nat) := rfl
  by_cases ht : t.trieType = 0
  · have d := decide_eq_true ht
    rw [key (c >>> 14 + 1020) (by rw [CPTrie.index1, CPTrie.TYPE_FAST, if_pos ht, Nat.shiftRight_eq_div_pow]; rfl)]
    cases h1 : t.index.get (c >>> 14 + 1020) with
    | error x => py_run [T.index, T.trieType, found hw, facts, T.indexAt, i1, d, h1]
    | ok i2 =>
      cases h2 : t.index.get (i2 + (c >>> 9 &&& 31)) with
      | error x => py_run [T.index, T.trieType, found hw, facts, T.indexAt, i1, d, h1, h2]
      | ok b =>
        by_cases h3 : b &&& 0x8000 = 0
        · have d3 := decide_eq_true h3
          cases h4 : t.index.get (b + (c >>> 4 &&& 31)) <;>
            py_run [T.index, T.trieType, found hw, facts, T.indexAt, i1, d, h1, h2, d3, if_pos h3, h4]
        · have d3 := decide_eq_false h3
          cases h4 : t.index.get ((b &&& 0x7FFF) + (c >>> 4 &&& 31) / 8 * 8 + (c >>> 4 &&& 31) >>> 3) with
          | error x => py_run [T.index, T.trieType, found hw, facts, T.indexAt, i1, d, h1, h2, d3, if_neg h3, h4, and_inv, mul_nat]
          | ok hi =>
            cases h5 : t.index.get ((b &&& 0x7FFF) + (c >>> 4 &&& 31) / 8 * 8 + (c >>> 4 &&& 31) >>> 3 + 1 + (c >>> 4 &&& 31 &&& 7)) <;>
              py_run [T.index, T.trieType, found hw, facts, T.indexAt, i1, d, h1, h2, d3, if_neg h3, h4, h5, and_inv, mul_nat]
  · have d := decide_eq_false ht
    rw [key (c >>> 14 + 64) (by rw [CPTrie.index1, CPTrie.TYPE_FAST, if_neg ht, Nat.shiftRight_eq_div_pow]; rfl)]
    cases h1 : t.index.get (c >>> 14 + 64) with
    | error x => py_run [T.index, T.trieType, found hw, facts, T.indexAt, i1, d, h1]
    | ok i2 =>
      cases h2 : t.index.get (i2 + (c >>> 9 &&& 31)) with
      | error x => py_run [T.index, T.trieType, found hw, facts, T.indexAt, i1, d, h1, h2]
      | ok b =>
        by_cases h3 : b &&& 0x8000 = 0
        · have d3 := decide_eq_true h3
          cases h4 : t.index.get (b + (c >>> 4 &&& 31)) <;>
            py_run [T.index, T.trieType, found hw, facts, T.indexAt, i1, d, h1, h2, d3, if_pos h3, h4]
        · have d3 := decide_eq_false h3
          cases h4 : t.index.get ((b &&& 0x7FFF) + (c >>> 4 &&& 31) / 8 * 8 + (c >>> 4 &&& 31) >>> 3) with
          | error x => py_run [T.index, T.trieType, found hw, facts, T.indexAt, i1, d, h1, h2, d3, if_neg h3, h4, and_inv, mul_nat]
          | ok hi =>
            cases h5 : t.index.get ((b &&& 0x7FFF) + (c >>> 4 &&& 31) / 8 * 8 + (c >>> 4 &&& 31) >>> 3 + 1 + (c >>> 4 &&& 31 &&& 7)) <;>
              py_run [T.index, T.trieType, found hw, facts, T.indexAt, i1, d, h1, h2, d3, if_neg h3, h4, h5, and_inv, mul_nat]

theorem small_run (c n : Nat) : callMethod w (run w (n + 2)) v (n% "smallIndex") (.cons (.int c) .nil) =
    lift ((t.smallIndex c).map fun e => .int e) := by
  rw [method hw T methods.2.2.1 rfl]
  unfold CPTrie.smallIndex
  have e : (t.data.size : Int) - (2 : Nat) = ((t.data.size - 2 : Nat) : Int) := by have := T.long; omega
  by_cases h : t.highStart ≤ c
  · py_run [T.highStart, T.dataLength, found hw, facts, decide_eq_true h, if_pos h, e, CPTrie.HIGH_VALUE_NEG_DATA_OFFSET]
  · cases h' : t.internalSmallIndex c <;> py_run [T.highStart, found hw, facts, decide_eq_false h, if_neg h, internal_run hw T, h']

theorem cp_run (m c n : Nat) : callMethod w (run w (n + 3)) v (n% "cpIndex") (.cons (.int m) (.cons (.int c) .nil)) =
    lift ((t.cpIndex m c).map fun e => .int e) := by
  rw [method hw T methods.2.2.2.1 rfl]
  unfold CPTrie.cpIndex
  have e : (t.data.size : Int) - (1 : Nat) = ((t.data.size - 1 : Nat) : Int) := by have := T.long; omega
  by_cases h : c ≤ m
  · cases h' : t.fastIndex c <;> py_run [decide_eq_true h, if_pos h, fast_run hw T, h']
  · by_cases h2 : c ≤ 0x10FFFF
    · cases h' : t.smallIndex c <;> py_run [decide_eq_false h, if_neg h, decide_eq_true h2, if_pos h2, small_run hw T, h']
    · py_run [decide_eq_false h, if_neg h, decide_eq_false h2, if_neg h2, T.dataLength, found hw, facts, e, CPTrie.ERROR_VALUE_NEG_DATA_OFFSET]

theorem get_run (c n : Nat) : callMethod w (run w (n + 4)) v (n% "get") (.cons (.int c) .nil) = lift ((t.get c).map fun e => .int e) := by
  rw [method hw T methods.2.2.2.2 rfl]
  unfold CPTrie.get CPTrie.TYPE_FAST CPTrie.SMALL_MAX
  by_cases h : c ≤ 0x7F
  · cases h' : t.data.get c <;> py_run [decide_eq_true h, if_pos h, T.data, T.dataAt, h']
  · by_cases ht : t.trieType = 0
    · cases h1 : t.cpIndex 0xFFFF c with
      | error x => py_run [decide_eq_false h, if_neg h, decide_eq_true ht, if_pos ht, T.trieType, T.data, T.dataAt, found hw, facts, cp_run hw T, h1]
      | ok i =>
        cases h2 : t.data.get i <;>
          py_run [decide_eq_false h, if_neg h, decide_eq_true ht, if_pos ht, T.trieType, T.data, T.dataAt, found hw, facts, cp_run hw T, h1, h2]
    · cases h1 : t.cpIndex 0xFFF c with
      | error x => py_run [decide_eq_false h, if_neg h, decide_eq_false ht, if_neg ht, T.trieType, T.data, T.dataAt, found hw, facts, cp_run hw T, h1]
      | ok i =>
        cases h2 : t.data.get i <;>
          py_run [decide_eq_false h, if_neg h, decide_eq_false ht, if_neg ht, T.trieType, T.data, T.dataAt, found hw, facts, cp_run hw T, h1, h2]

end Verif.PyRun.CPTries

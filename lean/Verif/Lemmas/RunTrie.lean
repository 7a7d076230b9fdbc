import Verif.Lemmas.PyRun
/-! # `UTrie2.get`, executed from the text of Utrie2.py -/
namespace Verif.PyRun
open Verif.PySyntax Verif.Library Verif.Data

def utilities : Scope := scopeOf (define empty depth (n% "Utilities") 0 Syntax.Utilities.module [])

theorem utilities_ok : define empty depth (n% "Utilities") 0 Syntax.Utilities.module [] = .ok utilities := by decide +kernel

def withUtilities : World := { empty with modules := [(n% "Utilities", utilities)] }

def trie2 : Scope := scopeOf (define withUtilities depth (n% "Utrie2") 0 Syntax.Utrie2.module [])

theorem trie2_ok : define withUtilities depth (n% "Utrie2") 0 Syntax.Utrie2.module [] = .ok trie2 := by decide +kernel

theorem trie2_facts : trie2.find (n% "UTrie2") (n% "SHIFT_1") = some (.val (.int (11 : Nat))) ∧
    trie2.find (n% "UTrie2") (n% "SHIFT_2") = some (.val (.int (5 : Nat))) ∧
    trie2.find (n% "UTrie2") (n% "INDEX_SHIFT") = some (.val (.int (2 : Nat))) ∧
    trie2.find (n% "UTrie2") (n% "DATA_MASK") = some (.val (.int (31 : Nat))) ∧
    trie2.find (n% "UTrie2") (n% "INDEX_2_MASK") = some (.val (.int (63 : Nat))) ∧
    trie2.find (n% "UTrie2") (n% "INDEX_1_OFFSET") = some (.val (.int (0x840 : Nat))) ∧
    trie2.find (n% "UTrie2") (n% "OMITTED_BMP_INDEX_1_LENGTH") = some (.val (.int (32 : Nat))) ∧
    trie2.find (n% "UTrie2") (n% "LSCP_INDEX_2_OFFSET") = some (.val (.int (2048 : Nat))) ∧
    trie2.find (n% "UTrie2") (n% "BAD_UTF8_DATA_OFFSET") = some (.val (.int (128 : Nat))) ∧
    trie2.find (n% "UTrie2") (n% "get") = fnOf (n% "Utrie2") Syntax.Utrie2.UTrie2.get ∧
    trie2.find (n% "UTrie2") (n% "indexRaw") = fnOf (n% "Utrie2") Syntax.Utrie2.UTrie2.indexRaw ∧
    trie2.find (n% "UTrie2") (n% "indexFromCodePoint") = fnOf (n% "Utrie2") Syntax.Utrie2.UTrie2.indexFromCodePoint ∧
    trie2.find (n% "UTrie2") (n% "indexFromSupp") = fnOf (n% "Utrie2") Syntax.Utrie2.UTrie2.indexFromSupp := by decide +kernel

/-- The object that `UTrie2(…)` makes. -/
def trieObj (k : Nat) (t : UTrie2) : Val :=
  .obj (n% "Utrie2") (n% "UTrie2") (.field (n% "index") (.arr k 0 t.index.size) (.field (n% "indexLength") (.int t.indexLength)
    (.field (n% "dataLength") (.int ((t.index.size : Int) - t.indexLength)) (.field (n% "index2NullOffset") (.int t.index2NullOffset)
    (.field (n% "dataNullOffset") (.int t.dataNullOffset) (.field (n% "highStart") (.int t.highStart)
    (.field (n% "highValueIndex") (.int t.highValueIndex) (.field (n% "initialValue") (.int t.initialValue) .nil))))))))

variable {w : World} {k : Nat} {t : UTrie2}

theorem fields (w : World) (k : Nat) (t : UTrie2) : attr w (trieObj k t) (n% "index") = .ok (.arr k 0 t.index.size) ∧
    attr w (trieObj k t) (n% "indexLength") = .ok (.int t.indexLength) ∧ attr w (trieObj k t) (n% "highStart") = .ok (.int t.highStart) ∧
    attr w (trieObj k t) (n% "highValueIndex") = .ok (.int t.highValueIndex) :=
  ⟨rfl, rfl, rfl, rfl⟩

theorem constants (hw : w.scope (n% "Utrie2") = trie2) : attr w (trieObj k t) (n% "SHIFT_1") = .ok (.int (11 : Nat)) ∧
    attr w (trieObj k t) (n% "SHIFT_2") = .ok (.int (5 : Nat)) ∧ attr w (trieObj k t) (n% "INDEX_SHIFT") = .ok (.int (2 : Nat)) ∧
    attr w (trieObj k t) (n% "DATA_MASK") = .ok (.int (31 : Nat)) ∧ attr w (trieObj k t) (n% "INDEX_2_MASK") = .ok (.int (63 : Nat)) ∧
    attr w (trieObj k t) (n% "INDEX_1_OFFSET") = .ok (.int (0x840 : Nat)) ∧
    attr w (trieObj k t) (n% "OMITTED_BMP_INDEX_1_LENGTH") = .ok (.int (32 : Nat)) ∧
    attr w (trieObj k t) (n% "LSCP_INDEX_2_OFFSET") = .ok (.int (2048 : Nat)) ∧
    attr w (trieObj k t) (n% "BAD_UTF8_DATA_OFFSET") = .ok (.int (128 : Nat)) := by
  simp only [trieObj, attr, Val.getField, Nat.reduceEqDiff, ↓reduceIte, World.find, hw, trie2_facts, and_self]

theorem method {x : Nat} {call : Call} {args : Val} {ps : Expr} {b : Stmt} (hw : w.scope (n% "Utrie2") = trie2)
    (h : trie2.find (n% "UTrie2") x = some (.fn (n% "Utrie2") ps b false)) :
    callMethod w call (trieObj k t) x args = (call (n% "Utrie2") ps b (.cons (trieObj k t) args)).map Prod.fst := by
  simp only [trieObj, callMethod, World.find, hw, h]

/-- `a` has the numbers of `b`. -/
def Same (a b : Arr) : Prop := ∀ i, i < b.size → a.at' i = b.at' i

/-- Table `k` has the numbers of the index of the trie. -/
def Holds (w : World) (k : Nat) (t : UTrie2) : Prop := Same (w.tables k) t.index

theorem index_arr (hk : Holds w k t) (i : Nat) :
    index w (.arr k 0 t.index.size) (.int i) = match t.index.get i with | .ok e => .ok (.int e) | .error e => .error (.raised e) := by
  have h := hk i
  unfold index Arr.getInt Arr.get
  by_cases hi : i < t.index.size
  · simp [hi, lift, h hi]; rfl
  · simp [hi, lift]; rfl

theorem index_table {a : Arr} (h : Same (w.tables k) a) (i : Nat) :
    index w (.arr k 0 a.size) (.int i) = match a.get i with | .ok e => .ok (.int e) | .error e => .error (.raised e) := by
  have h := h i
  unfold index Arr.getInt Arr.get
  by_cases hi : i < a.size
  · simp [hi, lift, h hi]; rfl
  · simp [hi, lift]; rfl

theorem raw_run (hw : w.scope (n% "Utrie2") = trie2) (hk : Holds w k t) (o c n : Nat) :
    callMethod w (run w (n + 1)) (trieObj k t) (n% "indexRaw") (.cons (.int o) (.cons (.int c) .nil)) =
      lift ((t.indexRaw o c).map fun e => .int e) := by
  rw [method hw trie2_facts.2.2.2.2.2.2.2.2.2.2.1]
  unfold UTrie2.indexRaw
  simp only [UTrie2.SHIFT_2, UTrie2.INDEX_SHIFT, UTrie2.DATA_BLOCK_LENGTH, ← Nat.shiftRight_eq_div_pow, ← Nat.shiftLeft_eq,
    ← Nat.and_two_pow_sub_one_eq_mod]
  cases h : t.index.get (o + c >>> 5) <;> py_run [fields, constants hw, index_arr hk, h]

theorem supp_run (hw : w.scope (n% "Utrie2") = trie2) (hk : Holds w k t) (c n : Nat) :
    callMethod w (run w (n + 1)) (trieObj k t) (n% "indexFromSupp") (.cons (.int c) .nil) =
      lift ((t.indexFromSupp c).map fun e => .int e) := by
  rw [method hw trie2_facts.2.2.2.2.2.2.2.2.2.2.2.2]
  have e : ((2112 : Nat) : Int) - (32 : Nat) = (2080 : Nat) := rfl
  unfold UTrie2.indexFromSupp
  simp only [UTrie2.SHIFT_2, UTrie2.SHIFT_1, UTrie2.INDEX_SHIFT, UTrie2.INDEX_2_BLOCK_LENGTH, UTrie2.SHIFT_1_2,
    UTrie2.DATA_BLOCK_LENGTH, ← Nat.shiftRight_eq_div_pow, ← Nat.shiftLeft_eq, ← Nat.and_two_pow_sub_one_eq_mod]
  rw [show UTrie2.INDEX_1_OFFSET - UTrie2.OMITTED_BMP_INDEX_1_LENGTH = 2080 from rfl]
  cases h : t.index.get (2080 + c >>> 11) with
  | error x => py_run [fields, constants hw, index_arr hk, h, e]
  | ok v =>
    cases h' : t.index.get (v + (c >>> 5 &&& 63)) <;> py_run [fields, constants hw, index_arr hk, h, h', e]

theorem code_run (hw : w.scope (n% "Utrie2") = trie2) (hk : Holds w k t) (a c n : Nat) :
    callMethod w (run w (n + 2)) (trieObj k t) (n% "indexFromCodePoint") (.cons (.int a) (.cons (.int c) .nil)) =
      lift ((t.indexFromCodePoint a c).map fun e => .int e) := by
  rw [method hw trie2_facts.2.2.2.2.2.2.2.2.2.2.2.1]
  unfold UTrie2.indexFromCodePoint
  by_cases h1 : c < 0xD800
  · rw [if_pos h1]
    cases h : t.indexRaw 0 c <;> py_run [raw_run hw hk, decide_eq_true h1, h]
  · rw [if_neg h1]
    have d1 := decide_eq_false h1
    by_cases h2 : c ≤ 0xFFFF
    · rw [if_pos h2]
      have d2 := decide_eq_true h2
      by_cases h3 : 0xDC00 ≤ c
      · rw [if_pos h3]
        cases h : t.indexRaw 0 c <;> py_run [raw_run hw hk, d1, d2, decide_eq_true h3, h]
      · rw [if_neg h3, show UTrie2.LSCP_INDEX_2_OFFSET - 0xD800 / 2 ^ UTrie2.SHIFT_2 = 320 from rfl]
        have e : ((2048 : Nat) : Int) - (1728 : Nat) = (320 : Nat) := rfl
        cases h : t.indexRaw 320 c <;> py_run [raw_run hw hk, constants hw, d1, d2, decide_eq_false h3, h, e, Nat.reduceShiftRight]
    · rw [if_neg h2]
      have d2 := decide_eq_false h2
      by_cases h3 : 0x10FFFF ≤ c
      · rw [if_pos h3]
        py_run [fields, constants hw, d1, d2, decide_eq_true h3, UTrie2.BAD_UTF8_DATA_OFFSET]
      · rw [if_neg h3]
        have d3 := decide_eq_false h3
        by_cases h4 : t.highStart ≤ c
        · rw [if_pos h4]
          py_run [fields, d1, d2, d3, decide_eq_true h4]
        · rw [if_neg h4]
          cases h : t.indexFromSupp c <;> py_run [fields, supp_run hw hk, d1, d2, d3, decide_eq_false h4, h]

theorem get_run (hw : w.scope (n% "Utrie2") = trie2) (hk : Holds w k t) (c n : Nat) :
    callMethod w (run w (n + 3)) (trieObj k t) (n% "get") (.cons (.int c) .nil) = lift ((t.get c).map fun e => .int e) := by
  rw [method hw trie2_facts.2.2.2.2.2.2.2.2.2.1]
  unfold UTrie2.get
  cases h : t.indexFromCodePoint t.indexLength c with
  | error x => py_run [fields, code_run hw hk, h]
  | ok v => cases h' : t.index.get v <;> py_run [fields, code_run hw hk, index_arr hk, h, h']

end Verif.PyRun

import Verif.Lemmas.RunUtilities
import Verif.Model.BidiProps
/-! # The functions of BidiProps.py, executed from its text -/
namespace Verif.PyRun.BidiProps
open Verif.PySyntax Verif.Library Verif.Data
set_option maxRecDepth 4000

/-- Names of BidiProps.py and what they stand for. -/
noncomputable def names : List (Nat × Option Def) :=
   [(n% "UBIDI_CLASS_MASK", some (.val (.int (31 : Nat)))),
    (n% "arithmeticShift", fnOf (n% "Utilities") Syntax.Utilities.arithmeticShift),
    (n% "UBIDI_MIRROR_DELTA_BITS", some (.val (.int (3 : Nat)))),
    (n% "UBIDI_MIRROR_INDEX_SHIFT", some (.val (.int (21 : Nat)))),
    (n% "bidiPropsTrie", some (.val (trieObj (n% "ubidi_props_trieIndex") Bidi.bidiPropsTrie))),
    (n% "getClassFromProps", fnOf (n% "BidiProps") Syntax.BidiProps.getClassFromProps),
    (n% "getFlagFromProps", fnOf (n% "BidiProps") Syntax.BidiProps.getFlagFromProps),
    (n% "UBIDI_IS_MIRRORED_SHIFT", some (.val (.int (12 : Nat)))),
    (n% "getMirrorDeltaFromProps", fnOf (n% "BidiProps") Syntax.BidiProps.getMirrorDeltaFromProps),
    (n% "UBIDI_ESC_MIRROR_DELTA", some (.val (.int (-4)))),
    (n% "ubidi_props_mirrors", some (.val (.arr (n% "ubidi_props_mirrors") 0 bidiMirrors.size))),
    (n% "getMirrorCodePointFromProps", fnOf (n% "BidiProps") Syntax.BidiProps.getMirrorCodePointFromProps),
    (n% "getMirrorIndexFromProps", fnOf (n% "BidiProps") Syntax.BidiProps.getMirrorIndexFromProps),
    (n% "getMirrorFromProps", fnOf (n% "BidiProps") Syntax.BidiProps.getMirrorFromProps),
    (n% "UBIDI_BIDI_CONTROL_SHIFT", some (.val (.int (11 : Nat)))),
    (n% "UBIDI_JOIN_CONTROL_SHIFT", some (.val (.int (10 : Nat)))),
    (n% "UBIDI_JT_MASK", some (.val (.int (224 : Nat)))),
    (n% "UBIDI_JT_SHIFT", some (.val (.int (5 : Nat)))),
    (n% "ubidi_props_indexes", some (.val (.arr (n% "ubidi_props_indexes") 0 bidiIndexes.size))),
    (n% "UBIDI_IX_JG_START", some (.val (.int (4 : Nat)))),
    (n% "UBIDI_IX_JG_LIMIT", some (.val (.int (5 : Nat)))),
    (n% "range", none),
    (n% "ubidi_props_jgArray", some (.val (.arr (n% "ubidi_props_jgArray") 0 bidiJg1.size))),
    (n% "UBIDI_IX_JG_START2", some (.val (.int (6 : Nat)))),
    (n% "UBIDI_IX_JG_LIMIT2", some (.val (.int (7 : Nat)))),
    (n% "ubidi_props_jgArray2", some (.val (.arr (n% "ubidi_props_jgArray2") 0 bidiJg2.size))),
    (n% "U_JG_NO_JOINING_GROUP", some (.val (.int (0 : Nat)))),
    (n% "UBIDI_BPT_MASK", some (.val (.int (768 : Nat)))),
    (n% "UBIDI_BPT_SHIFT", some (.val (.int (8 : Nat)))),
    (n% "getCharDirection", fnOf (n% "BidiProps") Syntax.BidiProps.getCharDirection),
    (n% "isMirrored", fnOf (n% "BidiProps") Syntax.BidiProps.isMirrored),
    (n% "getMirror", fnOf (n% "BidiProps") Syntax.BidiProps.getMirror),
    (n% "isBidiControl", fnOf (n% "BidiProps") Syntax.BidiProps.isBidiControl),
    (n% "isJoinControl", fnOf (n% "BidiProps") Syntax.BidiProps.isJoinControl),
    (n% "getJoiningType", fnOf (n% "BidiProps") Syntax.BidiProps.getJoiningType),
    (n% "getJoiningGroup", fnOf (n% "BidiProps") Syntax.BidiProps.getJoiningGroup),
    (n% "getPairedBracketType", fnOf (n% "BidiProps") Syntax.BidiProps.getPairedBracketType),
    (n% "getPairedBracket", fnOf (n% "BidiProps") Syntax.BidiProps.getPairedBracket),
    (n% "True", none),
    (n% "False", none),
    (n% "None", none)]

/-- A world where BidiProps.py was imported. -/
structure Imported (w : World) : Prop where
  trie : w.scope (n% "Utrie2") = trie2
  name : ∀ p ∈ names, w.find (n% "BidiProps") 0 p.1 = p.2
  props : Same (w.tables (n% "ubidi_props_trieIndex")) bidiIndex.arr
  mirrors : Same (w.tables (n% "ubidi_props_mirrors")) bidiMirrors.arr
  indexes : Same (w.tables (n% "ubidi_props_indexes")) bidiIndexes.arr
  groups : Same (w.tables (n% "ubidi_props_jgArray")) bidiJg1.arr
  groups2 : Same (w.tables (n% "ubidi_props_jgArray2")) bidiJg2.arr

variable {w : World} (H : Imported w)
include H

theorem found (i : Nat) (h : i < names.length) : w.find (n% "BidiProps") 0 names[i].1 = names[i].2 :=
  H.name _ (List.getElem_mem h)

theorem Names.UBIDI_CLASS_MASK : w.find (n% "BidiProps") 0 (n% "UBIDI_CLASS_MASK") = some (.val (.int (31 : Nat))) := found H 0 (by decide)

theorem Names.arithmeticShift : w.find (n% "BidiProps") 0 (n% "arithmeticShift") = fnOf (n% "Utilities") Syntax.Utilities.arithmeticShift := found H 1 (by decide)

theorem Names.UBIDI_MIRROR_DELTA_BITS : w.find (n% "BidiProps") 0 (n% "UBIDI_MIRROR_DELTA_BITS") = some (.val (.int (3 : Nat))) := found H 2 (by decide)

theorem Names.UBIDI_MIRROR_INDEX_SHIFT : w.find (n% "BidiProps") 0 (n% "UBIDI_MIRROR_INDEX_SHIFT") = some (.val (.int (21 : Nat))) := found H 3 (by decide)

theorem Names.bidiPropsTrie : w.find (n% "BidiProps") 0 (n% "bidiPropsTrie") = some (.val (trieObj (n% "ubidi_props_trieIndex") Bidi.bidiPropsTrie)) := found H 4 (by decide)

theorem Names.getClassFromProps : w.find (n% "BidiProps") 0 (n% "getClassFromProps") = fnOf (n% "BidiProps") Syntax.BidiProps.getClassFromProps := found H 5 (by decide)

theorem Names.getFlagFromProps : w.find (n% "BidiProps") 0 (n% "getFlagFromProps") = fnOf (n% "BidiProps") Syntax.BidiProps.getFlagFromProps := found H 6 (by decide)

theorem Names.UBIDI_IS_MIRRORED_SHIFT : w.find (n% "BidiProps") 0 (n% "UBIDI_IS_MIRRORED_SHIFT") = some (.val (.int (12 : Nat))) := found H 7 (by decide)

theorem Names.getMirrorDeltaFromProps : w.find (n% "BidiProps") 0 (n% "getMirrorDeltaFromProps") = fnOf (n% "BidiProps") Syntax.BidiProps.getMirrorDeltaFromProps := found H 8 (by decide)

theorem Names.UBIDI_ESC_MIRROR_DELTA : w.find (n% "BidiProps") 0 (n% "UBIDI_ESC_MIRROR_DELTA") = some (.val (.int (-4))) := found H 9 (by decide)

theorem Names.ubidi_props_mirrors : w.find (n% "BidiProps") 0 (n% "ubidi_props_mirrors") = some (.val (.arr (n% "ubidi_props_mirrors") 0 bidiMirrors.size)) := found H 10 (by decide)

theorem Names.getMirrorCodePointFromProps : w.find (n% "BidiProps") 0 (n% "getMirrorCodePointFromProps") = fnOf (n% "BidiProps") Syntax.BidiProps.getMirrorCodePointFromProps := found H 11 (by decide)

theorem Names.getMirrorIndexFromProps : w.find (n% "BidiProps") 0 (n% "getMirrorIndexFromProps") = fnOf (n% "BidiProps") Syntax.BidiProps.getMirrorIndexFromProps := found H 12 (by decide)

theorem Names.getMirrorFromProps : w.find (n% "BidiProps") 0 (n% "getMirrorFromProps") = fnOf (n% "BidiProps") Syntax.BidiProps.getMirrorFromProps := found H 13 (by decide)

theorem Names.UBIDI_BIDI_CONTROL_SHIFT : w.find (n% "BidiProps") 0 (n% "UBIDI_BIDI_CONTROL_SHIFT") = some (.val (.int (11 : Nat))) := found H 14 (by decide)

theorem Names.UBIDI_JOIN_CONTROL_SHIFT : w.find (n% "BidiProps") 0 (n% "UBIDI_JOIN_CONTROL_SHIFT") = some (.val (.int (10 : Nat))) := found H 15 (by decide)

theorem Names.UBIDI_JT_MASK : w.find (n% "BidiProps") 0 (n% "UBIDI_JT_MASK") = some (.val (.int (224 : Nat))) := found H 16 (by decide)

theorem Names.UBIDI_JT_SHIFT : w.find (n% "BidiProps") 0 (n% "UBIDI_JT_SHIFT") = some (.val (.int (5 : Nat))) := found H 17 (by decide)

theorem Names.ubidi_props_indexes : w.find (n% "BidiProps") 0 (n% "ubidi_props_indexes") = some (.val (.arr (n% "ubidi_props_indexes") 0 bidiIndexes.size)) := found H 18 (by decide)

theorem Names.UBIDI_IX_JG_START : w.find (n% "BidiProps") 0 (n% "UBIDI_IX_JG_START") = some (.val (.int (4 : Nat))) := found H 19 (by decide)

theorem Names.UBIDI_IX_JG_LIMIT : w.find (n% "BidiProps") 0 (n% "UBIDI_IX_JG_LIMIT") = some (.val (.int (5 : Nat))) := found H 20 (by decide)

theorem Names.range : w.find (n% "BidiProps") 0 (n% "range") = none := found H 21 (by decide)

theorem Names.ubidi_props_jgArray : w.find (n% "BidiProps") 0 (n% "ubidi_props_jgArray") = some (.val (.arr (n% "ubidi_props_jgArray") 0 bidiJg1.size)) := found H 22 (by decide)

theorem Names.UBIDI_IX_JG_START2 : w.find (n% "BidiProps") 0 (n% "UBIDI_IX_JG_START2") = some (.val (.int (6 : Nat))) := found H 23 (by decide)

theorem Names.UBIDI_IX_JG_LIMIT2 : w.find (n% "BidiProps") 0 (n% "UBIDI_IX_JG_LIMIT2") = some (.val (.int (7 : Nat))) := found H 24 (by decide)

theorem Names.ubidi_props_jgArray2 : w.find (n% "BidiProps") 0 (n% "ubidi_props_jgArray2") = some (.val (.arr (n% "ubidi_props_jgArray2") 0 bidiJg2.size)) := found H 25 (by decide)

theorem Names.U_JG_NO_JOINING_GROUP : w.find (n% "BidiProps") 0 (n% "U_JG_NO_JOINING_GROUP") = some (.val (.int (0 : Nat))) := found H 26 (by decide)

theorem Names.UBIDI_BPT_MASK : w.find (n% "BidiProps") 0 (n% "UBIDI_BPT_MASK") = some (.val (.int (768 : Nat))) := found H 27 (by decide)

theorem Names.UBIDI_BPT_SHIFT : w.find (n% "BidiProps") 0 (n% "UBIDI_BPT_SHIFT") = some (.val (.int (8 : Nat))) := found H 28 (by decide)

theorem Names.getCharDirection : w.find (n% "BidiProps") 0 (n% "getCharDirection") = fnOf (n% "BidiProps") Syntax.BidiProps.getCharDirection := found H 29 (by decide)

theorem Names.isMirrored : w.find (n% "BidiProps") 0 (n% "isMirrored") = fnOf (n% "BidiProps") Syntax.BidiProps.isMirrored := found H 30 (by decide)

theorem Names.getMirror : w.find (n% "BidiProps") 0 (n% "getMirror") = fnOf (n% "BidiProps") Syntax.BidiProps.getMirror := found H 31 (by decide)

theorem Names.isBidiControl : w.find (n% "BidiProps") 0 (n% "isBidiControl") = fnOf (n% "BidiProps") Syntax.BidiProps.isBidiControl := found H 32 (by decide)

theorem Names.isJoinControl : w.find (n% "BidiProps") 0 (n% "isJoinControl") = fnOf (n% "BidiProps") Syntax.BidiProps.isJoinControl := found H 33 (by decide)

theorem Names.getJoiningType : w.find (n% "BidiProps") 0 (n% "getJoiningType") = fnOf (n% "BidiProps") Syntax.BidiProps.getJoiningType := found H 34 (by decide)

theorem Names.getJoiningGroup : w.find (n% "BidiProps") 0 (n% "getJoiningGroup") = fnOf (n% "BidiProps") Syntax.BidiProps.getJoiningGroup := found H 35 (by decide)

theorem Names.getPairedBracketType : w.find (n% "BidiProps") 0 (n% "getPairedBracketType") = fnOf (n% "BidiProps") Syntax.BidiProps.getPairedBracketType := found H 36 (by decide)

theorem Names.getPairedBracket : w.find (n% "BidiProps") 0 (n% "getPairedBracket") = fnOf (n% "BidiProps") Syntax.BidiProps.getPairedBracket := found H 37 (by decide)

theorem Names.True : w.find (n% "BidiProps") 0 (n% "True") = none := found H 38 (by decide)

theorem Names.False : w.find (n% "BidiProps") 0 (n% "False") = none := found H 39 (by decide)

theorem Names.None : w.find (n% "BidiProps") 0 (n% "None") = none := found H 40 (by decide)

theorem trie_get (c n : Nat) : callMethod w (run w (n + 3)) (trieObj (n% "ubidi_props_trieIndex") Bidi.bidiPropsTrie) (n% "get")
    (.cons (.int c) .nil) = lift ((Bidi.bidiPropsTrie.get c).map fun e => .int e) :=
  get_run H.trie (show Holds w _ Bidi.bidiPropsTrie from H.props) c n

theorem table_mirrors (i : Nat) : index w (.arr (n% "ubidi_props_mirrors") 0 bidiMirrors.size) (.int i) =
    match bidiMirrors.arr.get i with | .ok e => .ok (.int e) | .error e => .error (.raised e) :=
  index_table (a := bidiMirrors.arr) H.mirrors i

theorem table_indexes (i : Nat) : index w (.arr (n% "ubidi_props_indexes") 0 bidiIndexes.size) (.int i) =
    match bidiIndexes.arr.get i with | .ok e => .ok (.int e) | .error e => .error (.raised e) :=
  index_table (a := bidiIndexes.arr) H.indexes i

theorem table_groups (i : Nat) : index w (.arr (n% "ubidi_props_jgArray") 0 bidiJg1.size) (.int i) =
    match bidiJg1.arr.get i with | .ok e => .ok (.int e) | .error e => .error (.raised e) :=
  index_table (a := bidiJg1.arr) H.groups i

theorem table_groups2 (i : Nat) : index w (.arr (n% "ubidi_props_jgArray2") 0 bidiJg2.size) (.int i) =
    match bidiJg2.arr.get i with | .ok e => .ok (.int e) | .error e => .error (.raised e) :=
  index_table (a := bidiJg2.arr) H.groups2 i

theorem range_call {call : Call} {args : Val} : callName w call (n% "BidiProps") (n% "range") args = builtin (n% "range") args :=
  builtin_call (Names.range H)

local notation "call[" n ", " f ", " a "]" => callName w (run w n) (n% "BidiProps") f a

local macro "start" h:term : tactic => `(tactic| rw [fn_call $h rfl])

theorem getClassFromProps_run (p n : Nat) : call[n + 1, n% "getClassFromProps", .cons (.int p) .nil] = .ok (.int (Bidi.getClassFromProps p)) := by
  start (Names.getClassFromProps H)
  py_run [Bidi.getClassFromProps, Names.UBIDI_CLASS_MASK H]

theorem getFlagFromProps_run (p s n : Nat) : call[n + 1, n% "getFlagFromProps", .cons (.int p) (.cons (.int s) .nil)] =
    .ok (.bool (Bidi.getFlagFromProps p s)) := by
  start (Names.getFlagFromProps H)
  py_run [Bidi.getFlagFromProps]

theorem getMirrorDeltaFromProps_run (p n : Nat) : call[n + 2, n% "getMirrorDeltaFromProps", .cons (.int p) .nil] =
    lift ((Bidi.getMirrorDeltaFromProps p).map .int) := by
  start (Names.getMirrorDeltaFromProps H)
  unfold Bidi.getMirrorDeltaFromProps
  have e := Utilities.arithmeticShift_run (Names.arithmeticShift H) p 16 3 n
  cases h : Verif.Utilities.arithmeticShift p 16 Bidi.MIRROR_DELTA_BITS with
  | error x => rw [show Bidi.MIRROR_DELTA_BITS = 3 from rfl] at h; rw [h] at e; py_run [Names.UBIDI_MIRROR_DELTA_BITS H, e]
  | ok x => rw [show Bidi.MIRROR_DELTA_BITS = 3 from rfl] at h; rw [h] at e; py_run [Names.UBIDI_MIRROR_DELTA_BITS H, e]

theorem getMirrorCodePointFromProps_run (p n : Nat) : call[n + 1, n% "getMirrorCodePointFromProps", .cons (.int p) .nil] =
    .ok (.int (Bidi.getMirrorCodePointFromProps p)) := by
  start (Names.getMirrorCodePointFromProps H)
  py_run [Bidi.getMirrorCodePointFromProps]

theorem getMirrorIndexFromProps_run (p n : Nat) : call[n + 1, n% "getMirrorIndexFromProps", .cons (.int p) .nil] =
    .ok (.int (Bidi.getMirrorIndexFromProps p)) := by
  start (Names.getMirrorIndexFromProps H)
  py_run [Bidi.getMirrorIndexFromProps, Names.UBIDI_MIRROR_INDEX_SHIFT H]

theorem getCharDirection_run (c n : Nat) : call[n + 4, n% "getCharDirection", .cons (.int c) .nil] =
    lift ((Bidi.getCharDirection c).map fun e => .int e) := by
  start (Names.getCharDirection H)
  unfold Bidi.getCharDirection
  cases h : Bidi.bidiPropsTrie.get c <;> py_run [Names.bidiPropsTrie H, trie_get H, getClassFromProps_run H, h]

theorem isMirrored_run (c n : Nat) : call[n + 4, n% "isMirrored", .cons (.int c) .nil] = lift ((Bidi.isMirrored c).map .bool) := by
  start (Names.isMirrored H)
  unfold Bidi.isMirrored
  cases h : Bidi.bidiPropsTrie.get c <;> py_run [Names.bidiPropsTrie H, trie_get H, getFlagFromProps_run H, Names.UBIDI_IS_MIRRORED_SHIFT H, h]

theorem isBidiControl_run (c n : Nat) : call[n + 4, n% "isBidiControl", .cons (.int c) .nil] = lift ((Bidi.isBidiControl c).map .bool) := by
  start (Names.isBidiControl H)
  unfold Bidi.isBidiControl
  cases h : Bidi.bidiPropsTrie.get c <;> py_run [Names.bidiPropsTrie H, trie_get H, getFlagFromProps_run H, Names.UBIDI_BIDI_CONTROL_SHIFT H, h]

theorem isJoinControl_run (c n : Nat) : call[n + 4, n% "isJoinControl", .cons (.int c) .nil] = lift ((Bidi.isJoinControl c).map .bool) := by
  start (Names.isJoinControl H)
  unfold Bidi.isJoinControl
  cases h : Bidi.bidiPropsTrie.get c <;> py_run [Names.bidiPropsTrie H, trie_get H, getFlagFromProps_run H, Names.UBIDI_JOIN_CONTROL_SHIFT H, h]

theorem getJoiningType_run (c n : Nat) : call[n + 4, n% "getJoiningType", .cons (.int c) .nil] =
    lift ((Bidi.getJoiningType c).map fun e => .int e) := by
  start (Names.getJoiningType H)
  unfold Bidi.getJoiningType
  cases h : Bidi.bidiPropsTrie.get c <;> py_run [Names.bidiPropsTrie H, trie_get H, Names.UBIDI_JT_MASK H, Names.UBIDI_JT_SHIFT H, h]

theorem getPairedBracketType_run (c n : Nat) : call[n + 4, n% "getPairedBracketType", .cons (.int c) .nil] =
    lift ((Bidi.getPairedBracketType c).map fun e => .int e) := by
  start (Names.getPairedBracketType H)
  unfold Bidi.getPairedBracketType
  cases h : Bidi.bidiPropsTrie.get c <;> py_run [Names.bidiPropsTrie H, trie_get H, Names.UBIDI_BPT_MASK H, Names.UBIDI_BPT_SHIFT H, h]

/-- BidiProps.py:93-100, the body of the loop. -/
def mirrorBody : Stmt :=
  .seq (.assign (.name (n% "c2")) (.call (.name (n% "getMirrorCodePointFromProps")) (.cons (.name (n% "m")) .nil)))
    (.seq (.ifs (.bin .eq (.name (n% "c")) (.name (n% "c2")))
      (.seq (.assign (.name (n% "mirrorIndex")) (.call (.name (n% "getMirrorIndexFromProps")) (.cons (.name (n% "m")) .nil)))
        (.seq (.ret (.call (.name (n% "getMirrorCodePointFromProps")) (.cons (.index (.name (n% "ubidi_props_mirrors")) (.name (n% "mirrorIndex"))) .nil)))
          .skip)) .skip)
      (.seq (.ifs (.bin .lt (.name (n% "c")) (.name (n% "c2"))) (.seq .brk .skip) .skip) .skip))

/-- What the loop does: it returns a number, or ends without. -/
def Found (c : Nat) (r : R (Flow × St)) (m : Py Int) : Prop :=
  match m with
  | .error e => r = .error (.raised e)
  | .ok v => ∃ s, r = .ok (.ret (.int v), s) ∨ (r = .ok (.next, s) ∧ v = c ∧ getVar (n% "c") s.1 = some (.int c))

omit H in
theorem each_next {x : Nat} {body : St → R (Flow × St)} {v : Val} {vs : List Val} {s s' : St}
    (h : body (setVar x v s.1, s.2) = .ok (.next, s')) : each (.name x) body (v :: vs) s = each (.name x) body vs s' := by
  rw [each]
  show (do let r ← body (setVar x v s.1, s.2); _) = _
  rw [h]
  rfl

omit H in
theorem each_brk {x : Nat} {body : St → R (Flow × St)} {v : Val} {vs : List Val} {s s' : St}
    (h : body (setVar x v s.1, s.2) = .ok (.brk, s')) : each (.name x) body (v :: vs) s = .ok (.next, s') := by
  rw [each]
  show (do let r ← body (setVar x v s.1, s.2); _) = _
  rw [h]
  rfl

theorem search_run (c n k : Nat) (p dl : Val) : ∀ i rest, i + k = bidiMirrors.size →
    (rest = [] ∨ ∃ x y, rest = [(n% "m", x), (n% "c2", y)]) →
    Found c (each (.name (n% "m")) (exec w (run w (n + 1)) (n + 1) (n% "BidiProps") mirrorBody)
      ((List.range' i k).map fun j => .int ((w.tables (n% "ubidi_props_mirrors")).at' (0 + j)))
      ((n% "c", .int c) :: (n% "props", p) :: (n% "delta", dl) :: rest, [])) (Verif.Bidi.searchMirrors bidiMirrors.arr c k i) := by
  induction k with
  | zero =>
    intro i rest hi hr
    exact ⟨_, .inr ⟨rfl, rfl, rfl⟩⟩
  | succ k ih =>
    intro i rest hi hr
    have hi' : i < bidiMirrors.size := by omega
    have hg : bidiMirrors.arr.get i = .ok (bidiMirrors.arr.at' i) := by
      unfold Arr.get
      exact if_pos hi'
    rw [List.range'_succ, List.map_cons, Nat.zero_add, H.mirrors i hi', Verif.Bidi.searchMirrors, hg]
    have hj := ih (i + 1)
    generalize bidiMirrors.arr.at' i = m at *
    generalize List.map (fun j => Val.int ((w.tables (n% "ubidi_props_mirrors")).at' (0 + j))) (List.range' (i + 1) k) = l at *
    show Found c _ (if c = Bidi.getMirrorCodePointFromProps m then _ else _)
    by_cases h : c = Bidi.getMirrorCodePointFromProps m
    · rw [if_pos h]
      have d := decide_eq_true h
      cases hg : bidiMirrors.arr.get (Bidi.getMirrorIndexFromProps m) <;> rcases hr with rfl | ⟨x, y, rfl⟩ <;>
        py_run [Found, each, mirrorBody, getMirrorCodePointFromProps_run H, getMirrorIndexFromProps_run H, d, Names.ubidi_props_mirrors H,
          table_mirrors H, hg] <;> exact ⟨_, .inl rfl⟩
    · rw [if_neg h]
      have d := decide_eq_false h
      by_cases h' : c < Bidi.getMirrorCodePointFromProps m
      · rw [if_pos h']
        have d' := decide_eq_true h'
        rcases hr with rfl | ⟨x, y, rfl⟩ <;> refine ⟨((n% "c", .int c) :: (n% "props", p) :: (n% "delta", dl) :: [(n% "m", .int m), (n% "c2", .int (Bidi.getMirrorCodePointFromProps m))], []), .inr ⟨each_brk ?_, rfl, ?_⟩⟩ <;>
          first | py_run [mirrorBody, getMirrorCodePointFromProps_run H, d, d'] | rfl
      · rw [if_neg h']
        have d' := decide_eq_false h'
        rcases hr with rfl | ⟨x, y, rfl⟩
        · rw [each_next (s' := ((n% "c", .int c) :: (n% "props", p) :: (n% "delta", dl) :: [(n% "m", .int m), (n% "c2", .int (Bidi.getMirrorCodePointFromProps m))], [])) (by
            py_run [mirrorBody, getMirrorCodePointFromProps_run H, d, d'])]
          exact hj _ (by omega) (.inr ⟨_, _, rfl⟩)
        · rw [each_next (s' := ((n% "c", .int c) :: (n% "props", p) :: (n% "delta", dl) :: [(n% "m", .int m), (n% "c2", .int (Bidi.getMirrorCodePointFromProps m))], [])) (by
            py_run [mirrorBody, getMirrorCodePointFromProps_run H, d, d'])]
          exact hj _ (by omega) (.inr ⟨_, _, rfl⟩)

theorem getMirrorFromProps_run (c p n : Nat) : call[n + 3, n% "getMirrorFromProps", .cons (.int c) (.cons (.int p) .nil)] =
    lift ((Bidi.getMirrorFromProps c p).map .int) := by
  rw [fn_call (b := .seq (.assign (.name (n% "delta")) (.call (.name (n% "getMirrorDeltaFromProps")) (.cons (.name (n% "props")) .nil)))
    (.seq (.ifs (.bin .ne (.name (n% "delta")) (.name (n% "UBIDI_ESC_MIRROR_DELTA")))
      (.seq (.ret (.bin .add (.name (n% "c")) (.name (n% "delta")))) .skip) .skip)
      (.seq (.for (.name (n% "m")) (.name (n% "ubidi_props_mirrors")) mirrorBody) (.seq (.ret (.name (n% "c"))) .skip))))
    (Names.getMirrorFromProps H) rfl]
  unfold Bidi.getMirrorFromProps
  have y : yields mirrorBody = false := rfl
  cases hd : Bidi.getMirrorDeltaFromProps p with
  | error e => py_run [getMirrorDeltaFromProps_run H, hd, y]
  | ok v =>
    show _ = lift ((if v ≠ -4 then _ else _ : Py Int).map _)
    by_cases h : v = -4
    · rw [if_neg (by simpa using h)]
      have d := decide_eq_true h
      have f := search_run H c (n + 1) bidiMirrors.size (.int p) (.int v) 0 [] (by omega) (.inl rfl)
      rw [← List.range_eq_range'] at f
      unfold Found at f
      cases hs : Bidi.searchMirrors bidiMirrors.arr c bidiMirrors.size 0 with
      | error e =>
        rw [hs] at f
        dsimp only at f
        py_run [getMirrorDeltaFromProps_run H, hd, y, Names.UBIDI_ESC_MIRROR_DELTA H, d, Names.ubidi_props_mirrors H, iter, f, Bool.not_true]
      | ok r =>
        rw [hs] at f
        obtain ⟨s, f | ⟨f, rfl, hc⟩⟩ := f
        · py_run [getMirrorDeltaFromProps_run H, hd, y, Names.UBIDI_ESC_MIRROR_DELTA H, d, Names.ubidi_props_mirrors H, iter, f, Bool.not_true]
        · py_run [getMirrorDeltaFromProps_run H, hd, y, Names.UBIDI_ESC_MIRROR_DELTA H, d, Names.ubidi_props_mirrors H, iter, f, Bool.not_true, hc]
    · rw [if_pos (by simpa using h)]
      have d := decide_eq_false h
      py_run [getMirrorDeltaFromProps_run H, hd, y, Names.UBIDI_ESC_MIRROR_DELTA H, d, Bool.not_false]

theorem getMirror_run (c n : Nat) : call[n + 4, n% "getMirror", .cons (.int c) .nil] = lift ((Bidi.getMirror c).map .int) := by
  start (Names.getMirror H)
  unfold Bidi.getMirror
  cases h : Bidi.bidiPropsTrie.get c with
  | error e => py_run [Names.bidiPropsTrie H, trie_get H, h]
  | ok p =>
    show _ = lift ((Bidi.getMirrorFromProps c p).map _)
    cases h' : Bidi.getMirrorFromProps c p <;> py_run [Names.bidiPropsTrie H, trie_get H, getMirrorFromProps_run H, h, h']

theorem getPairedBracket_run (c n : Nat) : call[n + 4, n% "getPairedBracket", .cons (.int c) .nil] = lift ((Bidi.getPairedBracket c).map .int) := by
  start (Names.getPairedBracket H)
  unfold Bidi.getPairedBracket
  cases h : Bidi.bidiPropsTrie.get c with
  | error e => py_run [Names.bidiPropsTrie H, trie_get H, h]
  | ok p =>
    show _ = lift ((if p &&& 0x300 = 0 then _ else _ : Py Int).map _)
    by_cases h0 : p &&& 0x300 = 0
    · rw [if_pos h0]
      have d := decide_eq_true h0
      py_run [Names.bidiPropsTrie H, trie_get H, h, d, Names.UBIDI_BPT_MASK H]
    · rw [if_neg h0]
      have d := decide_eq_false h0
      cases h' : Bidi.getMirrorFromProps c p <;> py_run [Names.bidiPropsTrie H, trie_get H, getMirrorFromProps_run H, h, h', d, Names.UBIDI_BPT_MASK H]

theorem getJoiningGroup_run (c n : Nat) : call[n + 4, n% "getJoiningGroup", .cons (.int c) .nil] =
    lift ((Bidi.getJoiningGroup c).map fun e => .int e) := by
  start (Names.getJoiningGroup H)
  unfold Bidi.getJoiningGroup
  cases h4 : bidiIndexes.arr.get 4 with
  | error e => py_run [Names.ubidi_props_indexes H, Names.UBIDI_IX_JG_START H, table_indexes H, h4]
  | ok s =>
  cases h5 : bidiIndexes.arr.get 5 with
  | error e => py_run [Names.ubidi_props_indexes H, Names.UBIDI_IX_JG_START H, Names.UBIDI_IX_JG_LIMIT H, table_indexes H, h4, h5]
  | ok l =>
  show _ = lift ((if s ≤ c ∧ c < l then _ else _ : Py Nat).map _)
  by_cases i : s ≤ c ∧ c < l
  · rw [if_pos i]
    have d : (decide (s ≤ c) && decide (c < l)) = true := by grind
    have e : ((c : Int) - (s : Nat)) = ((c - s : Nat) : Int) := by omega
    cases h : bidiJg1.arr.get (c - s) <;>
      py_run [Names.ubidi_props_indexes H, Names.UBIDI_IX_JG_START H, Names.UBIDI_IX_JG_LIMIT H, table_indexes H, h4, h5, range_call H, builtin, d,
        Names.ubidi_props_jgArray H, e, table_groups H, h]
  · rw [if_neg i]
    have d : (decide (s ≤ c) && decide (c < l)) = false := by grind
    cases h6 : bidiIndexes.arr.get 6 with
    | error e => py_run [Names.ubidi_props_indexes H, Names.UBIDI_IX_JG_START H, Names.UBIDI_IX_JG_LIMIT H, table_indexes H, h4, h5, range_call H, builtin, d,
        Names.UBIDI_IX_JG_START2 H, h6]
    | ok s2 =>
    cases h7 : bidiIndexes.arr.get 7 with
    | error e => py_run [Names.ubidi_props_indexes H, Names.UBIDI_IX_JG_START H, Names.UBIDI_IX_JG_LIMIT H, table_indexes H, h4, h5, range_call H, builtin, d,
        Names.UBIDI_IX_JG_START2 H, Names.UBIDI_IX_JG_LIMIT2 H, h6, h7]
    | ok l2 =>
    show _ = lift ((if s2 ≤ c ∧ c < l2 then _ else _ : Py Nat).map _)
    by_cases i2 : s2 ≤ c ∧ c < l2
    · rw [if_pos i2]
      have d2 : (decide (s2 ≤ c) && decide (c < l2)) = true := by grind
      have e : ((c : Int) - (s2 : Nat)) = ((c - s2 : Nat) : Int) := by omega
      cases h : bidiJg2.arr.get (c - s2) <;>
        py_run [Names.ubidi_props_indexes H, Names.UBIDI_IX_JG_START H, Names.UBIDI_IX_JG_LIMIT H, table_indexes H, h4, h5, range_call H, builtin, d,
          Names.UBIDI_IX_JG_START2 H, Names.UBIDI_IX_JG_LIMIT2 H, h6, h7, d2, Names.ubidi_props_jgArray2 H, e, table_groups2 H, h]
    · rw [if_neg i2]
      have d2 : (decide (s2 ≤ c) && decide (c < l2)) = false := by grind
      py_run [Names.ubidi_props_indexes H, Names.UBIDI_IX_JG_START H, Names.UBIDI_IX_JG_LIMIT H, table_indexes H, h4, h5, range_call H, builtin, d,
        Names.UBIDI_IX_JG_START2 H, Names.UBIDI_IX_JG_LIMIT2 H, h6, h7, d2, Names.U_JG_NO_JOINING_GROUP H]

end Verif.PyRun.BidiProps

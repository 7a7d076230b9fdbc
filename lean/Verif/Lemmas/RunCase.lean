import Verif.Lemmas.RunUtilities
import Verif.Lemmas.PyImport
import Verif.Lemmas.ShippedTries
import Verif.Model.CaseProps
/-! # The functions of CaseProps.py, executed from its text -/
namespace Verif.PyRun.CaseProps
open Verif.PySyntax Verif.Library Verif.Data
set_option maxRecDepth 4000

/-- Names of CaseProps.py and what they stand for. -/
noncomputable def names : List (Nat × Option Def) :=
   [(n% "arithmeticShift", fnOf (n% "Utilities") Syntax.Utilities.arithmeticShift),
    (n% "UCASE_PROPS_BITS", some (.val (.int (16 : Nat)))),
    (n% "UCASE_DELTA_BITS", some (.val (.int (9 : Nat)))),
    (n% "UCASE_TYPE_MASK", some (.val (.int (3 : Nat)))),
    (n% "UCASE_IGNORABLE", some (.val (.int (4 : Nat)))),
    (n% "UCASE_UPPER", some (.val (.int (2 : Nat)))),
    (n% "UCASE_TITLE", some (.val (.int (3 : Nat)))),
    (n% "UCASE_EXCEPTION", some (.val (.int (8 : Nat)))),
    (n% "flagsOffset", some (.val (.list (chain ((DataText.values caseFlagsOffset).map fun (e : Nat) => .int e))))),
    (n% "slotOffset", fnOf (n% "CaseProps") Syntax.CaseProps.slotOffset),
    (n% "UCASE_EXC_DOUBLE_SLOTS", some (.val (.int (256 : Nat)))),
    (n% "ucase_props_exceptions", some (.val (.arr (n% "ucase_props_exceptions") 0 caseExceptions.size))),
    (n% "casePropsTrie", some (.val (trieObj (n% "ucase_props_trieIndex") Case.casePropsTrie))),
    (n% "hasException", fnOf (n% "CaseProps") Syntax.CaseProps.hasException),
    (n% "isUpperOrTitle", fnOf (n% "CaseProps") Syntax.CaseProps.isUpperOrTitle),
    (n% "getDeltaFromProps", fnOf (n% "CaseProps") Syntax.CaseProps.getDeltaFromProps),
    (n% "UCASE_EXC_SHIFT", some (.val (.int (4 : Nat)))),
    (n% "hasSlot", fnOf (n% "CaseProps") Syntax.CaseProps.hasSlot),
    (n% "UCASE_EXC_DELTA", some (.val (.int (4 : Nat)))),
    (n% "getSlotValue", fnOf (n% "CaseProps") Syntax.CaseProps.getSlotValue),
    (n% "UCASE_EXC_DELTA_IS_NEGATIVE", some (.val (.int (1024 : Nat)))),
    (n% "UCASE_EXC_LOWER", some (.val (.int (0 : Nat)))),
    (n% "getTypeFromProps", fnOf (n% "CaseProps") Syntax.CaseProps.getTypeFromProps),
    (n% "UCASE_LOWER", some (.val (.int (1 : Nat)))),
    (n% "UCASE_EXC_UPPER", some (.val (.int (2 : Nat)))),
    (n% "UCASE_EXC_TITLE", some (.val (.int (3 : Nat)))),
    (n% "chr", none),
    (n% "UCASE_EXC_CONDITIONAL_SPECIAL", some (.val (.int (16384 : Nat)))),
    (n% "UCASE_EXC_FULL_MAPPINGS", some (.val (.int (7 : Nat)))),
    (n% "UCASE_FULL_LOWER", some (.val (.int (15 : Nat)))),
    (n% "range", none),
    (n% "toUpperOrTitle", fnOf (n% "CaseProps") Syntax.CaseProps.toUpperOrTitle),
    (n% "getTypeAndIgnorableFromProps", fnOf (n% "CaseProps") Syntax.CaseProps.getTypeAndIgnorableFromProps),
    (n% "toLower", fnOf (n% "CaseProps") Syntax.CaseProps.toLower),
    (n% "toUpper", fnOf (n% "CaseProps") Syntax.CaseProps.toUpper),
    (n% "toTitle", fnOf (n% "CaseProps") Syntax.CaseProps.toTitle),
    (n% "toFullLower", fnOf (n% "CaseProps") Syntax.CaseProps.toFullLower),
    (n% "toFullUpper", fnOf (n% "CaseProps") Syntax.CaseProps.toFullUpper),
    (n% "toFullTitle", fnOf (n% "CaseProps") Syntax.CaseProps.toFullTitle),
    (n% "True", none),
    (n% "False", none),
    (n% "None", none)]

/-- A world where CaseProps.py was imported. -/
structure Imported (w : World) : Prop where
  trie : w.scope (n% "Utrie2") = trie2
  name : ∀ p ∈ names, w.find (n% "CaseProps") 0 p.1 = p.2
  props : Same (w.tables (n% "ucase_props_trieIndex")) caseIndex.arr
  exceptions : Same (w.tables (n% "ucase_props_exceptions")) caseExceptions.arr

theorem elems_chain (l : List Val) : (chain l).elems = l := by
  induction l with
  | nil => rfl
  | cons a l ih => rw [chain, Val.elems, ih]

theorem flags_index (w : World) (i : Nat) : index w (.list (chain ((DataText.values caseFlagsOffset).map fun (e : Nat) => .int e))) (.int i) =
    match caseFlagsOffset.arr.get i with | .ok e => .ok (.int e) | .error e => .error (.raised e) := by
  rw [index, elems_chain, pyGet, if_pos (by omega), Int.toNat_natCast, List.getElem?_map]
  have h := DataText.Props.values_get caseFlagsOffset i
  rw [← h, Arr.get, Arr.ofList]
  by_cases h' : i < (DataText.values caseFlagsOffset).length
  · rw [if_pos h', List.getElem?_eq_getElem h']
    simp only [Option.map, lift, List.getD_eq_getElem?_getD, List.getElem?_eq_getElem h', Option.getD_some]
  · rw [if_neg h', List.getElem?_eq_none (by omega)]
    rfl

variable {w : World} (H : Imported w)
include H

theorem found (i : Nat) (h : i < names.length) : w.find (n% "CaseProps") 0 names[i].1 = names[i].2 :=
  H.name _ (List.getElem_mem h)

theorem Names.arithmeticShift : w.find (n% "CaseProps") 0 (n% "arithmeticShift") = fnOf (n% "Utilities") Syntax.Utilities.arithmeticShift := found H 0 (by decide)

theorem Names.UCASE_PROPS_BITS : w.find (n% "CaseProps") 0 (n% "UCASE_PROPS_BITS") = some (.val (.int (16 : Nat))) := found H 1 (by decide)

theorem Names.UCASE_DELTA_BITS : w.find (n% "CaseProps") 0 (n% "UCASE_DELTA_BITS") = some (.val (.int (9 : Nat))) := found H 2 (by decide)

theorem Names.UCASE_TYPE_MASK : w.find (n% "CaseProps") 0 (n% "UCASE_TYPE_MASK") = some (.val (.int (3 : Nat))) := found H 3 (by decide)

theorem Names.UCASE_IGNORABLE : w.find (n% "CaseProps") 0 (n% "UCASE_IGNORABLE") = some (.val (.int (4 : Nat))) := found H 4 (by decide)

theorem Names.UCASE_UPPER : w.find (n% "CaseProps") 0 (n% "UCASE_UPPER") = some (.val (.int (2 : Nat))) := found H 5 (by decide)

theorem Names.UCASE_TITLE : w.find (n% "CaseProps") 0 (n% "UCASE_TITLE") = some (.val (.int (3 : Nat))) := found H 6 (by decide)

theorem Names.UCASE_EXCEPTION : w.find (n% "CaseProps") 0 (n% "UCASE_EXCEPTION") = some (.val (.int (8 : Nat))) := found H 7 (by decide)

theorem Names.flagsOffset : w.find (n% "CaseProps") 0 (n% "flagsOffset") = some (.val (.list (chain ((DataText.values caseFlagsOffset).map fun (e : Nat) => .int e)))) := found H 8 (by decide)

theorem Names.slotOffset : w.find (n% "CaseProps") 0 (n% "slotOffset") = fnOf (n% "CaseProps") Syntax.CaseProps.slotOffset := found H 9 (by decide)

theorem Names.UCASE_EXC_DOUBLE_SLOTS : w.find (n% "CaseProps") 0 (n% "UCASE_EXC_DOUBLE_SLOTS") = some (.val (.int (256 : Nat))) := found H 10 (by decide)

theorem Names.ucase_props_exceptions : w.find (n% "CaseProps") 0 (n% "ucase_props_exceptions") = some (.val (.arr (n% "ucase_props_exceptions") 0 caseExceptions.size)) := found H 11 (by decide)

theorem Names.casePropsTrie : w.find (n% "CaseProps") 0 (n% "casePropsTrie") = some (.val (trieObj (n% "ucase_props_trieIndex") Case.casePropsTrie)) := found H 12 (by decide)

theorem Names.hasException : w.find (n% "CaseProps") 0 (n% "hasException") = fnOf (n% "CaseProps") Syntax.CaseProps.hasException := found H 13 (by decide)

theorem Names.isUpperOrTitle : w.find (n% "CaseProps") 0 (n% "isUpperOrTitle") = fnOf (n% "CaseProps") Syntax.CaseProps.isUpperOrTitle := found H 14 (by decide)

theorem Names.getDeltaFromProps : w.find (n% "CaseProps") 0 (n% "getDeltaFromProps") = fnOf (n% "CaseProps") Syntax.CaseProps.getDeltaFromProps := found H 15 (by decide)

theorem Names.UCASE_EXC_SHIFT : w.find (n% "CaseProps") 0 (n% "UCASE_EXC_SHIFT") = some (.val (.int (4 : Nat))) := found H 16 (by decide)

theorem Names.hasSlot : w.find (n% "CaseProps") 0 (n% "hasSlot") = fnOf (n% "CaseProps") Syntax.CaseProps.hasSlot := found H 17 (by decide)

theorem Names.UCASE_EXC_DELTA : w.find (n% "CaseProps") 0 (n% "UCASE_EXC_DELTA") = some (.val (.int (4 : Nat))) := found H 18 (by decide)

theorem Names.getSlotValue : w.find (n% "CaseProps") 0 (n% "getSlotValue") = fnOf (n% "CaseProps") Syntax.CaseProps.getSlotValue := found H 19 (by decide)

theorem Names.UCASE_EXC_DELTA_IS_NEGATIVE : w.find (n% "CaseProps") 0 (n% "UCASE_EXC_DELTA_IS_NEGATIVE") = some (.val (.int (1024 : Nat))) := found H 20 (by decide)

theorem Names.UCASE_EXC_LOWER : w.find (n% "CaseProps") 0 (n% "UCASE_EXC_LOWER") = some (.val (.int (0 : Nat))) := found H 21 (by decide)

theorem Names.getTypeFromProps : w.find (n% "CaseProps") 0 (n% "getTypeFromProps") = fnOf (n% "CaseProps") Syntax.CaseProps.getTypeFromProps := found H 22 (by decide)

theorem Names.UCASE_LOWER : w.find (n% "CaseProps") 0 (n% "UCASE_LOWER") = some (.val (.int (1 : Nat))) := found H 23 (by decide)

theorem Names.UCASE_EXC_UPPER : w.find (n% "CaseProps") 0 (n% "UCASE_EXC_UPPER") = some (.val (.int (2 : Nat))) := found H 24 (by decide)

theorem Names.UCASE_EXC_TITLE : w.find (n% "CaseProps") 0 (n% "UCASE_EXC_TITLE") = some (.val (.int (3 : Nat))) := found H 25 (by decide)

theorem Names.chr : w.find (n% "CaseProps") 0 (n% "chr") = none := found H 26 (by decide)

theorem Names.UCASE_EXC_CONDITIONAL_SPECIAL : w.find (n% "CaseProps") 0 (n% "UCASE_EXC_CONDITIONAL_SPECIAL") = some (.val (.int (16384 : Nat))) := found H 27 (by decide)

theorem Names.UCASE_EXC_FULL_MAPPINGS : w.find (n% "CaseProps") 0 (n% "UCASE_EXC_FULL_MAPPINGS") = some (.val (.int (7 : Nat))) := found H 28 (by decide)

theorem Names.UCASE_FULL_LOWER : w.find (n% "CaseProps") 0 (n% "UCASE_FULL_LOWER") = some (.val (.int (15 : Nat))) := found H 29 (by decide)

theorem Names.range : w.find (n% "CaseProps") 0 (n% "range") = none := found H 30 (by decide)

theorem Names.toUpperOrTitle : w.find (n% "CaseProps") 0 (n% "toUpperOrTitle") = fnOf (n% "CaseProps") Syntax.CaseProps.toUpperOrTitle := found H 31 (by decide)

theorem Names.getTypeAndIgnorableFromProps : w.find (n% "CaseProps") 0 (n% "getTypeAndIgnorableFromProps") = fnOf (n% "CaseProps") Syntax.CaseProps.getTypeAndIgnorableFromProps := found H 32 (by decide)

theorem Names.toLower : w.find (n% "CaseProps") 0 (n% "toLower") = fnOf (n% "CaseProps") Syntax.CaseProps.toLower := found H 33 (by decide)

theorem Names.toUpper : w.find (n% "CaseProps") 0 (n% "toUpper") = fnOf (n% "CaseProps") Syntax.CaseProps.toUpper := found H 34 (by decide)

theorem Names.toTitle : w.find (n% "CaseProps") 0 (n% "toTitle") = fnOf (n% "CaseProps") Syntax.CaseProps.toTitle := found H 35 (by decide)

theorem Names.toFullLower : w.find (n% "CaseProps") 0 (n% "toFullLower") = fnOf (n% "CaseProps") Syntax.CaseProps.toFullLower := found H 36 (by decide)

theorem Names.toFullUpper : w.find (n% "CaseProps") 0 (n% "toFullUpper") = fnOf (n% "CaseProps") Syntax.CaseProps.toFullUpper := found H 37 (by decide)

theorem Names.toFullTitle : w.find (n% "CaseProps") 0 (n% "toFullTitle") = fnOf (n% "CaseProps") Syntax.CaseProps.toFullTitle := found H 38 (by decide)

theorem Names.True : w.find (n% "CaseProps") 0 (n% "True") = none := found H 39 (by decide)

theorem Names.False : w.find (n% "CaseProps") 0 (n% "False") = none := found H 40 (by decide)

theorem Names.None : w.find (n% "CaseProps") 0 (n% "None") = none := found H 41 (by decide)

theorem trie_get (c n : Nat) : callMethod w (run w (n + 3)) (trieObj (n% "ucase_props_trieIndex") Case.casePropsTrie) (n% "get")
    (.cons (.int c) .nil) = lift ((Case.casePropsTrie.get c).map fun e => .int e) :=
  get_run H.trie (show Holds w _ Case.casePropsTrie from H.props) c n

theorem table_exceptions (i : Nat) : index w (.arr (n% "ucase_props_exceptions") 0 caseExceptions.size) (.int i) =
    match caseExceptions.arr.get i with | .ok e => .ok (.int e) | .error e => .error (.raised e) :=
  index_table (a := caseExceptions.arr) H.exceptions i

theorem range_call {call : Call} {args : Val} : callName w call (n% "CaseProps") (n% "range") args = builtin (n% "range") args :=
  builtin_call (Names.range H)

theorem chr_call {call : Call} (v : Int) : callName w call (n% "CaseProps") (n% "chr") (.cons (.int v) .nil) = lift ((Case.chr v).map .str) := by
  rw [builtin_call (Names.chr H), builtin, Case.chr]
  by_cases h : 0 ≤ v ∧ v ≤ 0x10FFFF
  · rw [if_pos h, if_pos h]; rfl
  · rw [if_neg h, if_neg h]; rfl

local notation "call[" n ", " f ", " a "]" => callName w (run w n) (n% "CaseProps") f a

local macro "start" h:term : tactic => `(tactic| rw [fn_call $h rfl])

theorem getDeltaFromProps_run (p n : Nat) : call[n + 2, n% "getDeltaFromProps", .cons (.int p) .nil] =
    lift ((Case.getDeltaFromProps p).map .int) := by
  start (Names.getDeltaFromProps H)
  unfold Case.getDeltaFromProps
  have e := Utilities.arithmeticShift_run (Names.arithmeticShift H) p 16 9 n
  cases h : Verif.Utilities.arithmeticShift p 16 9 <;> rw [h] at e <;> py_run [Names.UCASE_PROPS_BITS H, Names.UCASE_DELTA_BITS H, e]

theorem getTypeFromProps_run (p n : Nat) : call[n + 1, n% "getTypeFromProps", .cons (.int p) .nil] = .ok (.int (Case.getTypeFromProps p)) := by
  start (Names.getTypeFromProps H)
  py_run [Case.getTypeFromProps, Names.UCASE_TYPE_MASK H]

theorem getTypeAndIgnorableFromProps_run (p n : Nat) : call[n + 1, n% "getTypeAndIgnorableFromProps", .cons (.int p) .nil] =
    .ok (.int (Case.getTypeAndIgnorableFromProps p)) := by
  start (Names.getTypeAndIgnorableFromProps H)
  py_run [Case.getTypeAndIgnorableFromProps, Names.UCASE_TYPE_MASK H, Names.UCASE_IGNORABLE H]

theorem isUpperOrTitle_run (p n : Nat) : call[n + 1, n% "isUpperOrTitle", .cons (.int p) .nil] = .ok (.bool (Case.isUpperOrTitle p)) := by
  start (Names.isUpperOrTitle H)
  py_run [Case.isUpperOrTitle, Names.UCASE_UPPER H, Names.UCASE_TITLE H]

theorem hasException_run (p n : Nat) : call[n + 1, n% "hasException", .cons (.int p) .nil] = .ok (.bool (Case.hasException p)) := by
  start (Names.hasException H)
  py_run [Case.hasException, Names.UCASE_EXCEPTION H]

theorem hasSlot_run (f i n : Nat) : call[n + 1, n% "hasSlot", .cons (.int f) (.cons (.int i) .nil)] = .ok (.bool (Case.hasSlot f i)) := by
  start (Names.hasSlot H)
  py_run [Case.hasSlot]

theorem slotOffset_run (f i n : Nat) : call[n + 1, n% "slotOffset", .cons (.int f) (.cons (.int i) .nil)] =
    lift ((Case.slotOffset f i).map fun e => .int e) := by
  start (Names.slotOffset H)
  unfold Case.slotOffset
  have p : 0 < 1 <<< i := by rw [Nat.shiftLeft_eq]; exact Nat.mul_pos (by decide) (Nat.two_pow_pos i)
  have e : ((1 <<< i : Nat) : Int) - (1 : Nat) = ((1 <<< i - 1 : Nat) : Int) := by omega
  cases h : caseFlagsOffset.arr.get (f &&& (1 <<< i - 1)) <;> py_run [Names.flagsOffset H, e, flags_index w, h]

theorem getSlotValue_run (x i e n : Nat) : call[n + 2, n% "getSlotValue", .cons (.int x) (.cons (.int i) (.cons (.int e) .nil))] =
    lift ((Case.getSlotValue caseExceptions.arr x i e).map fun r => .tuple (.cons (.int r.1) (.cons (.int r.2) .nil))) := by
  start (Names.getSlotValue H)
  unfold Case.getSlotValue
  cases hs : Case.slotOffset x i with
  | error a => py_run [slotOffset_run H, hs]
  | ok s =>
  show _ = lift ((if x &&& 0x100 = 0 then _ else _ : Py (Nat × Nat)).map _)
  by_cases h : x &&& 0x100 = 0
  · rw [if_pos h]
    have d := decide_eq_true h
    cases hg : caseExceptions.arr.get (e + s) <;>
      py_run [slotOffset_run H, hs, d, Names.UCASE_EXC_DOUBLE_SLOTS H, Names.ucase_props_exceptions H, table_exceptions H, hg]
  · rw [if_neg h]
    have d := decide_eq_false h
    have m : ((2 : Nat) : Int) * (s : Int) = ((2 * s : Nat) : Int) := by omega
    cases hg : caseExceptions.arr.get (e + 2 * s) with
    | error a => py_run [slotOffset_run H, hs, d, m, Names.UCASE_EXC_DOUBLE_SLOTS H, Names.ucase_props_exceptions H, table_exceptions H, hg]
    | ok a =>
      cases hg' : caseExceptions.arr.get (e + 2 * s + 1) <;>
        py_run [slotOffset_run H, hs, d, m, Names.UCASE_EXC_DOUBLE_SLOTS H, Names.ucase_props_exceptions H, table_exceptions H, hg, hg']

theorem toLower_run (c n : Nat) : call[n + 4, n% "toLower", .cons (.int c) .nil] = lift ((Case.toLower c).map .int) := by
  start (Names.toLower H)
  unfold Case.toLower
  cases ht : Case.casePropsTrie.get c with
  | error a => py_run [Names.casePropsTrie H, trie_get H, ht]
  | ok p =>
  cases he : Case.hasException p
  · cases hu : Case.isUpperOrTitle p
    · py_run [Names.casePropsTrie H, trie_get H, ht, hasException_run H, he, isUpperOrTitle_run H, getTypeFromProps_run H, getDeltaFromProps_run H, hasSlot_run H,
      getSlotValue_run H, Names.UCASE_EXC_SHIFT H, Names.ucase_props_exceptions H, table_exceptions H, Names.UCASE_EXC_DELTA H, Names.UCASE_EXC_LOWER H,
      Names.UCASE_EXC_UPPER H, Names.UCASE_EXC_TITLE H, Names.UCASE_LOWER H, Names.UCASE_EXC_DELTA_IS_NEGATIVE H, assign.unpack, Bool.not_true, Bool.not_false,
      not_true_eq_false, Bool.and_self, Bool.true_and, Bool.false_and, Bool.and_true, Bool.and_false, Case.toLowerProps, Case.toUpperProps,
      Case.toTitleProps, Case.EXC_DELTA, Case.EXC_LOWER, Case.EXC_UPPER, Case.EXC_TITLE, Case.EXC_FULL_MAPPINGS, Case.addDelta, chr_call H, Names.UCASE_EXC_CONDITIONAL_SPECIAL H,
      Names.UCASE_EXC_FULL_MAPPINGS H, Names.UCASE_FULL_LOWER H, hu]
    · cases hd : Case.getDeltaFromProps p <;> py_run [Names.casePropsTrie H, trie_get H, ht, hasException_run H, he, isUpperOrTitle_run H, getTypeFromProps_run H, getDeltaFromProps_run H, hasSlot_run H,
      getSlotValue_run H, Names.UCASE_EXC_SHIFT H, Names.ucase_props_exceptions H, table_exceptions H, Names.UCASE_EXC_DELTA H, Names.UCASE_EXC_LOWER H,
      Names.UCASE_EXC_UPPER H, Names.UCASE_EXC_TITLE H, Names.UCASE_LOWER H, Names.UCASE_EXC_DELTA_IS_NEGATIVE H, assign.unpack, Bool.not_true, Bool.not_false,
      not_true_eq_false, Bool.and_self, Bool.true_and, Bool.false_and, Bool.and_true, Bool.and_false, Case.toLowerProps, Case.toUpperProps,
      Case.toTitleProps, Case.EXC_DELTA, Case.EXC_LOWER, Case.EXC_UPPER, Case.EXC_TITLE, Case.EXC_FULL_MAPPINGS, Case.addDelta, chr_call H, Names.UCASE_EXC_CONDITIONAL_SPECIAL H,
      Names.UCASE_EXC_FULL_MAPPINGS H, Names.UCASE_FULL_LOWER H, hu, hd]
  · cases hx : caseExceptions.arr.get (p >>> 4) with
    | error a => py_run [Names.casePropsTrie H, trie_get H, ht, hasException_run H, he, isUpperOrTitle_run H, getTypeFromProps_run H, getDeltaFromProps_run H, hasSlot_run H,
      getSlotValue_run H, Names.UCASE_EXC_SHIFT H, Names.ucase_props_exceptions H, table_exceptions H, Names.UCASE_EXC_DELTA H, Names.UCASE_EXC_LOWER H,
      Names.UCASE_EXC_UPPER H, Names.UCASE_EXC_TITLE H, Names.UCASE_LOWER H, Names.UCASE_EXC_DELTA_IS_NEGATIVE H, assign.unpack, Bool.not_true, Bool.not_false,
      not_true_eq_false, Bool.and_self, Bool.true_and, Bool.false_and, Bool.and_true, Bool.and_false, Case.toLowerProps, Case.toUpperProps,
      Case.toTitleProps, Case.EXC_DELTA, Case.EXC_LOWER, Case.EXC_UPPER, Case.EXC_TITLE, Case.EXC_FULL_MAPPINGS, Case.addDelta, chr_call H, Names.UCASE_EXC_CONDITIONAL_SPECIAL H,
      Names.UCASE_EXC_FULL_MAPPINGS H, Names.UCASE_FULL_LOWER H, hx]
    | ok x =>
    cases hs : Case.hasSlot x 4 && Case.isUpperOrTitle p with
    | true =>
      rw [Bool.and_eq_true] at hs
      cases hv : Case.getSlotValue caseExceptions.arr x 4 (p >>> 4 + 1) with
      | error a => py_run [Names.casePropsTrie H, trie_get H, ht, hasException_run H, he, isUpperOrTitle_run H, getTypeFromProps_run H, getDeltaFromProps_run H, hasSlot_run H,
      getSlotValue_run H, Names.UCASE_EXC_SHIFT H, Names.ucase_props_exceptions H, table_exceptions H, Names.UCASE_EXC_DELTA H, Names.UCASE_EXC_LOWER H,
      Names.UCASE_EXC_UPPER H, Names.UCASE_EXC_TITLE H, Names.UCASE_LOWER H, Names.UCASE_EXC_DELTA_IS_NEGATIVE H, assign.unpack, Bool.not_true, Bool.not_false,
      not_true_eq_false, Bool.and_self, Bool.true_and, Bool.false_and, Bool.and_true, Bool.and_false, Case.toLowerProps, Case.toUpperProps,
      Case.toTitleProps, Case.EXC_DELTA, Case.EXC_LOWER, Case.EXC_UPPER, Case.EXC_TITLE, Case.EXC_FULL_MAPPINGS, Case.addDelta, chr_call H, Names.UCASE_EXC_CONDITIONAL_SPECIAL H,
      Names.UCASE_EXC_FULL_MAPPINGS H, Names.UCASE_FULL_LOWER H, hx, hs.1, hs.2, hv]
      | ok r =>
        by_cases hn : x &&& 0x400 = 0
        · have d := decide_eq_true hn
          py_run [Names.casePropsTrie H, trie_get H, ht, hasException_run H, he, isUpperOrTitle_run H, getTypeFromProps_run H, getDeltaFromProps_run H, hasSlot_run H,
      getSlotValue_run H, Names.UCASE_EXC_SHIFT H, Names.ucase_props_exceptions H, table_exceptions H, Names.UCASE_EXC_DELTA H, Names.UCASE_EXC_LOWER H,
      Names.UCASE_EXC_UPPER H, Names.UCASE_EXC_TITLE H, Names.UCASE_LOWER H, Names.UCASE_EXC_DELTA_IS_NEGATIVE H, assign.unpack, Bool.not_true, Bool.not_false,
      not_true_eq_false, Bool.and_self, Bool.true_and, Bool.false_and, Bool.and_true, Bool.and_false, Case.toLowerProps, Case.toUpperProps,
      Case.toTitleProps, Case.EXC_DELTA, Case.EXC_LOWER, Case.EXC_UPPER, Case.EXC_TITLE, Case.EXC_FULL_MAPPINGS, Case.addDelta, chr_call H, Names.UCASE_EXC_CONDITIONAL_SPECIAL H,
      Names.UCASE_EXC_FULL_MAPPINGS H, Names.UCASE_FULL_LOWER H, hx, hs.1, hs.2, hv, d, if_pos hn]
        · have d := decide_eq_false hn
          py_run [Names.casePropsTrie H, trie_get H, ht, hasException_run H, he, isUpperOrTitle_run H, getTypeFromProps_run H, getDeltaFromProps_run H, hasSlot_run H,
      getSlotValue_run H, Names.UCASE_EXC_SHIFT H, Names.ucase_props_exceptions H, table_exceptions H, Names.UCASE_EXC_DELTA H, Names.UCASE_EXC_LOWER H,
      Names.UCASE_EXC_UPPER H, Names.UCASE_EXC_TITLE H, Names.UCASE_LOWER H, Names.UCASE_EXC_DELTA_IS_NEGATIVE H, assign.unpack, Bool.not_true, Bool.not_false,
      not_true_eq_false, Bool.and_self, Bool.true_and, Bool.false_and, Bool.and_true, Bool.and_false, Case.toLowerProps, Case.toUpperProps,
      Case.toTitleProps, Case.EXC_DELTA, Case.EXC_LOWER, Case.EXC_UPPER, Case.EXC_TITLE, Case.EXC_FULL_MAPPINGS, Case.addDelta, chr_call H, Names.UCASE_EXC_CONDITIONAL_SPECIAL H,
      Names.UCASE_EXC_FULL_MAPPINGS H, Names.UCASE_FULL_LOWER H, hx, hs.1, hs.2, hv, d, if_neg hn]
    | false =>
      cases h0 : Case.hasSlot x 0
      · cases h4 : Case.hasSlot x 4
        · py_run [Names.casePropsTrie H, trie_get H, ht, hasException_run H, he, isUpperOrTitle_run H, getTypeFromProps_run H, getDeltaFromProps_run H, hasSlot_run H,
      getSlotValue_run H, Names.UCASE_EXC_SHIFT H, Names.ucase_props_exceptions H, table_exceptions H, Names.UCASE_EXC_DELTA H, Names.UCASE_EXC_LOWER H,
      Names.UCASE_EXC_UPPER H, Names.UCASE_EXC_TITLE H, Names.UCASE_LOWER H, Names.UCASE_EXC_DELTA_IS_NEGATIVE H, assign.unpack, Bool.not_true, Bool.not_false,
      not_true_eq_false, Bool.and_self, Bool.true_and, Bool.false_and, Bool.and_true, Bool.and_false, Case.toLowerProps, Case.toUpperProps,
      Case.toTitleProps, Case.EXC_DELTA, Case.EXC_LOWER, Case.EXC_UPPER, Case.EXC_TITLE, Case.EXC_FULL_MAPPINGS, Case.addDelta, chr_call H, Names.UCASE_EXC_CONDITIONAL_SPECIAL H,
      Names.UCASE_EXC_FULL_MAPPINGS H, Names.UCASE_FULL_LOWER H, hx, h4, h0]
        · have hu : Case.isUpperOrTitle p = false := by rwa [h4, Bool.true_and] at hs
          py_run [Names.casePropsTrie H, trie_get H, ht, hasException_run H, he, isUpperOrTitle_run H, getTypeFromProps_run H, getDeltaFromProps_run H, hasSlot_run H,
      getSlotValue_run H, Names.UCASE_EXC_SHIFT H, Names.ucase_props_exceptions H, table_exceptions H, Names.UCASE_EXC_DELTA H, Names.UCASE_EXC_LOWER H,
      Names.UCASE_EXC_UPPER H, Names.UCASE_EXC_TITLE H, Names.UCASE_LOWER H, Names.UCASE_EXC_DELTA_IS_NEGATIVE H, assign.unpack, Bool.not_true, Bool.not_false,
      not_true_eq_false, Bool.and_self, Bool.true_and, Bool.false_and, Bool.and_true, Bool.and_false, Case.toLowerProps, Case.toUpperProps,
      Case.toTitleProps, Case.EXC_DELTA, Case.EXC_LOWER, Case.EXC_UPPER, Case.EXC_TITLE, Case.EXC_FULL_MAPPINGS, Case.addDelta, chr_call H, Names.UCASE_EXC_CONDITIONAL_SPECIAL H,
      Names.UCASE_EXC_FULL_MAPPINGS H, Names.UCASE_FULL_LOWER H, hx, h4, hu, h0]
      · cases hv : Case.getSlotValue caseExceptions.arr x 0 (p >>> 4 + 1) <;> cases h4 : Case.hasSlot x 4
        · py_run [Names.casePropsTrie H, trie_get H, ht, hasException_run H, he, isUpperOrTitle_run H, getTypeFromProps_run H, getDeltaFromProps_run H, hasSlot_run H,
      getSlotValue_run H, Names.UCASE_EXC_SHIFT H, Names.ucase_props_exceptions H, table_exceptions H, Names.UCASE_EXC_DELTA H, Names.UCASE_EXC_LOWER H,
      Names.UCASE_EXC_UPPER H, Names.UCASE_EXC_TITLE H, Names.UCASE_LOWER H, Names.UCASE_EXC_DELTA_IS_NEGATIVE H, assign.unpack, Bool.not_true, Bool.not_false,
      not_true_eq_false, Bool.and_self, Bool.true_and, Bool.false_and, Bool.and_true, Bool.and_false, Case.toLowerProps, Case.toUpperProps,
      Case.toTitleProps, Case.EXC_DELTA, Case.EXC_LOWER, Case.EXC_UPPER, Case.EXC_TITLE, Case.EXC_FULL_MAPPINGS, Case.addDelta, chr_call H, Names.UCASE_EXC_CONDITIONAL_SPECIAL H,
      Names.UCASE_EXC_FULL_MAPPINGS H, Names.UCASE_FULL_LOWER H, hx, h4, h0, hv]
        · have hu : Case.isUpperOrTitle p = false := by rwa [h4, Bool.true_and] at hs
          py_run [Names.casePropsTrie H, trie_get H, ht, hasException_run H, he, isUpperOrTitle_run H, getTypeFromProps_run H, getDeltaFromProps_run H, hasSlot_run H,
      getSlotValue_run H, Names.UCASE_EXC_SHIFT H, Names.ucase_props_exceptions H, table_exceptions H, Names.UCASE_EXC_DELTA H, Names.UCASE_EXC_LOWER H,
      Names.UCASE_EXC_UPPER H, Names.UCASE_EXC_TITLE H, Names.UCASE_LOWER H, Names.UCASE_EXC_DELTA_IS_NEGATIVE H, assign.unpack, Bool.not_true, Bool.not_false,
      not_true_eq_false, Bool.and_self, Bool.true_and, Bool.false_and, Bool.and_true, Bool.and_false, Case.toLowerProps, Case.toUpperProps,
      Case.toTitleProps, Case.EXC_DELTA, Case.EXC_LOWER, Case.EXC_UPPER, Case.EXC_TITLE, Case.EXC_FULL_MAPPINGS, Case.addDelta, chr_call H, Names.UCASE_EXC_CONDITIONAL_SPECIAL H,
      Names.UCASE_EXC_FULL_MAPPINGS H, Names.UCASE_FULL_LOWER H, hx, h4, hu, h0, hv]
        · py_run [Names.casePropsTrie H, trie_get H, ht, hasException_run H, he, isUpperOrTitle_run H, getTypeFromProps_run H, getDeltaFromProps_run H, hasSlot_run H,
      getSlotValue_run H, Names.UCASE_EXC_SHIFT H, Names.ucase_props_exceptions H, table_exceptions H, Names.UCASE_EXC_DELTA H, Names.UCASE_EXC_LOWER H,
      Names.UCASE_EXC_UPPER H, Names.UCASE_EXC_TITLE H, Names.UCASE_LOWER H, Names.UCASE_EXC_DELTA_IS_NEGATIVE H, assign.unpack, Bool.not_true, Bool.not_false,
      not_true_eq_false, Bool.and_self, Bool.true_and, Bool.false_and, Bool.and_true, Bool.and_false, Case.toLowerProps, Case.toUpperProps,
      Case.toTitleProps, Case.EXC_DELTA, Case.EXC_LOWER, Case.EXC_UPPER, Case.EXC_TITLE, Case.EXC_FULL_MAPPINGS, Case.addDelta, chr_call H, Names.UCASE_EXC_CONDITIONAL_SPECIAL H,
      Names.UCASE_EXC_FULL_MAPPINGS H, Names.UCASE_FULL_LOWER H, hx, h4, h0, hv]
        · have hu : Case.isUpperOrTitle p = false := by rwa [h4, Bool.true_and] at hs
          py_run [Names.casePropsTrie H, trie_get H, ht, hasException_run H, he, isUpperOrTitle_run H, getTypeFromProps_run H, getDeltaFromProps_run H, hasSlot_run H,
      getSlotValue_run H, Names.UCASE_EXC_SHIFT H, Names.ucase_props_exceptions H, table_exceptions H, Names.UCASE_EXC_DELTA H, Names.UCASE_EXC_LOWER H,
      Names.UCASE_EXC_UPPER H, Names.UCASE_EXC_TITLE H, Names.UCASE_LOWER H, Names.UCASE_EXC_DELTA_IS_NEGATIVE H, assign.unpack, Bool.not_true, Bool.not_false,
      not_true_eq_false, Bool.and_self, Bool.true_and, Bool.false_and, Bool.and_true, Bool.and_false, Case.toLowerProps, Case.toUpperProps,
      Case.toTitleProps, Case.EXC_DELTA, Case.EXC_LOWER, Case.EXC_UPPER, Case.EXC_TITLE, Case.EXC_FULL_MAPPINGS, Case.addDelta, chr_call H, Names.UCASE_EXC_CONDITIONAL_SPECIAL H,
      Names.UCASE_EXC_FULL_MAPPINGS H, Names.UCASE_FULL_LOWER H, hx, h4, hu, h0, hv]

theorem toUpper_run (c n : Nat) : call[n + 4, n% "toUpper", .cons (.int c) .nil] = lift ((Case.toUpper c).map .int) := by
  start (Names.toUpper H)
  unfold Case.toUpper
  cases ht : Case.casePropsTrie.get c with
  | error a => py_run [Names.casePropsTrie H, trie_get H, ht]
  | ok p =>
  cases he : Case.hasException p
  · by_cases ho : Case.getTypeFromProps p = 1
    · have o := decide_eq_true ho
      cases hd : Case.getDeltaFromProps p <;> py_run [Names.casePropsTrie H, trie_get H, ht, hasException_run H, he, isUpperOrTitle_run H, getTypeFromProps_run H, getDeltaFromProps_run H, hasSlot_run H,
      getSlotValue_run H, Names.UCASE_EXC_SHIFT H, Names.ucase_props_exceptions H, table_exceptions H, Names.UCASE_EXC_DELTA H, Names.UCASE_EXC_LOWER H,
      Names.UCASE_EXC_UPPER H, Names.UCASE_EXC_TITLE H, Names.UCASE_LOWER H, Names.UCASE_EXC_DELTA_IS_NEGATIVE H, assign.unpack, Bool.not_true, Bool.not_false,
      not_true_eq_false, Bool.and_self, Bool.true_and, Bool.false_and, Bool.and_true, Bool.and_false, Case.toLowerProps, Case.toUpperProps,
      Case.toTitleProps, Case.EXC_DELTA, Case.EXC_LOWER, Case.EXC_UPPER, Case.EXC_TITLE, Case.EXC_FULL_MAPPINGS, Case.addDelta, chr_call H, Names.UCASE_EXC_CONDITIONAL_SPECIAL H,
      Names.UCASE_EXC_FULL_MAPPINGS H, Names.UCASE_FULL_LOWER H, o, if_pos ho, hd]
    · have o := decide_eq_false ho
      py_run [Names.casePropsTrie H, trie_get H, ht, hasException_run H, he, isUpperOrTitle_run H, getTypeFromProps_run H, getDeltaFromProps_run H, hasSlot_run H,
      getSlotValue_run H, Names.UCASE_EXC_SHIFT H, Names.ucase_props_exceptions H, table_exceptions H, Names.UCASE_EXC_DELTA H, Names.UCASE_EXC_LOWER H,
      Names.UCASE_EXC_UPPER H, Names.UCASE_EXC_TITLE H, Names.UCASE_LOWER H, Names.UCASE_EXC_DELTA_IS_NEGATIVE H, assign.unpack, Bool.not_true, Bool.not_false,
      not_true_eq_false, Bool.and_self, Bool.true_and, Bool.false_and, Bool.and_true, Bool.and_false, Case.toLowerProps, Case.toUpperProps,
      Case.toTitleProps, Case.EXC_DELTA, Case.EXC_LOWER, Case.EXC_UPPER, Case.EXC_TITLE, Case.EXC_FULL_MAPPINGS, Case.addDelta, chr_call H, Names.UCASE_EXC_CONDITIONAL_SPECIAL H,
      Names.UCASE_EXC_FULL_MAPPINGS H, Names.UCASE_FULL_LOWER H, o, if_neg ho]
  · cases hx : caseExceptions.arr.get (p >>> 4) with
    | error a => py_run [Names.casePropsTrie H, trie_get H, ht, hasException_run H, he, isUpperOrTitle_run H, getTypeFromProps_run H, getDeltaFromProps_run H, hasSlot_run H,
      getSlotValue_run H, Names.UCASE_EXC_SHIFT H, Names.ucase_props_exceptions H, table_exceptions H, Names.UCASE_EXC_DELTA H, Names.UCASE_EXC_LOWER H,
      Names.UCASE_EXC_UPPER H, Names.UCASE_EXC_TITLE H, Names.UCASE_LOWER H, Names.UCASE_EXC_DELTA_IS_NEGATIVE H, assign.unpack, Bool.not_true, Bool.not_false,
      not_true_eq_false, Bool.and_self, Bool.true_and, Bool.false_and, Bool.and_true, Bool.and_false, Case.toLowerProps, Case.toUpperProps,
      Case.toTitleProps, Case.EXC_DELTA, Case.EXC_LOWER, Case.EXC_UPPER, Case.EXC_TITLE, Case.EXC_FULL_MAPPINGS, Case.addDelta, chr_call H, Names.UCASE_EXC_CONDITIONAL_SPECIAL H,
      Names.UCASE_EXC_FULL_MAPPINGS H, Names.UCASE_FULL_LOWER H, hx]
    | ok x =>
    cases hs : Case.hasSlot x 4 && decide (Case.getTypeFromProps p = 1) with
    | true =>
      rw [Bool.and_eq_true] at hs
      cases hv : Case.getSlotValue caseExceptions.arr x 4 (p >>> 4 + 1) with
      | error a => py_run [Names.casePropsTrie H, trie_get H, ht, hasException_run H, he, isUpperOrTitle_run H, getTypeFromProps_run H, getDeltaFromProps_run H, hasSlot_run H,
      getSlotValue_run H, Names.UCASE_EXC_SHIFT H, Names.ucase_props_exceptions H, table_exceptions H, Names.UCASE_EXC_DELTA H, Names.UCASE_EXC_LOWER H,
      Names.UCASE_EXC_UPPER H, Names.UCASE_EXC_TITLE H, Names.UCASE_LOWER H, Names.UCASE_EXC_DELTA_IS_NEGATIVE H, assign.unpack, Bool.not_true, Bool.not_false,
      not_true_eq_false, Bool.and_self, Bool.true_and, Bool.false_and, Bool.and_true, Bool.and_false, Case.toLowerProps, Case.toUpperProps,
      Case.toTitleProps, Case.EXC_DELTA, Case.EXC_LOWER, Case.EXC_UPPER, Case.EXC_TITLE, Case.EXC_FULL_MAPPINGS, Case.addDelta, chr_call H, Names.UCASE_EXC_CONDITIONAL_SPECIAL H,
      Names.UCASE_EXC_FULL_MAPPINGS H, Names.UCASE_FULL_LOWER H, hx, hs.1, hs.2, hv]
      | ok r =>
        by_cases hn : x &&& 0x400 = 0
        · have d := decide_eq_true hn
          py_run [Names.casePropsTrie H, trie_get H, ht, hasException_run H, he, isUpperOrTitle_run H, getTypeFromProps_run H, getDeltaFromProps_run H, hasSlot_run H,
      getSlotValue_run H, Names.UCASE_EXC_SHIFT H, Names.ucase_props_exceptions H, table_exceptions H, Names.UCASE_EXC_DELTA H, Names.UCASE_EXC_LOWER H,
      Names.UCASE_EXC_UPPER H, Names.UCASE_EXC_TITLE H, Names.UCASE_LOWER H, Names.UCASE_EXC_DELTA_IS_NEGATIVE H, assign.unpack, Bool.not_true, Bool.not_false,
      not_true_eq_false, Bool.and_self, Bool.true_and, Bool.false_and, Bool.and_true, Bool.and_false, Case.toLowerProps, Case.toUpperProps,
      Case.toTitleProps, Case.EXC_DELTA, Case.EXC_LOWER, Case.EXC_UPPER, Case.EXC_TITLE, Case.EXC_FULL_MAPPINGS, Case.addDelta, chr_call H, Names.UCASE_EXC_CONDITIONAL_SPECIAL H,
      Names.UCASE_EXC_FULL_MAPPINGS H, Names.UCASE_FULL_LOWER H, hx, hs.1, hs.2, hv, d, if_pos hn]
        · have d := decide_eq_false hn
          py_run [Names.casePropsTrie H, trie_get H, ht, hasException_run H, he, isUpperOrTitle_run H, getTypeFromProps_run H, getDeltaFromProps_run H, hasSlot_run H,
      getSlotValue_run H, Names.UCASE_EXC_SHIFT H, Names.ucase_props_exceptions H, table_exceptions H, Names.UCASE_EXC_DELTA H, Names.UCASE_EXC_LOWER H,
      Names.UCASE_EXC_UPPER H, Names.UCASE_EXC_TITLE H, Names.UCASE_LOWER H, Names.UCASE_EXC_DELTA_IS_NEGATIVE H, assign.unpack, Bool.not_true, Bool.not_false,
      not_true_eq_false, Bool.and_self, Bool.true_and, Bool.false_and, Bool.and_true, Bool.and_false, Case.toLowerProps, Case.toUpperProps,
      Case.toTitleProps, Case.EXC_DELTA, Case.EXC_LOWER, Case.EXC_UPPER, Case.EXC_TITLE, Case.EXC_FULL_MAPPINGS, Case.addDelta, chr_call H, Names.UCASE_EXC_CONDITIONAL_SPECIAL H,
      Names.UCASE_EXC_FULL_MAPPINGS H, Names.UCASE_FULL_LOWER H, hx, hs.1, hs.2, hv, d, if_neg hn]
    | false =>
      cases h0 : Case.hasSlot x 2
      · cases h4 : Case.hasSlot x 4
        · py_run [Names.casePropsTrie H, trie_get H, ht, hasException_run H, he, isUpperOrTitle_run H, getTypeFromProps_run H, getDeltaFromProps_run H, hasSlot_run H,
      getSlotValue_run H, Names.UCASE_EXC_SHIFT H, Names.ucase_props_exceptions H, table_exceptions H, Names.UCASE_EXC_DELTA H, Names.UCASE_EXC_LOWER H,
      Names.UCASE_EXC_UPPER H, Names.UCASE_EXC_TITLE H, Names.UCASE_LOWER H, Names.UCASE_EXC_DELTA_IS_NEGATIVE H, assign.unpack, Bool.not_true, Bool.not_false,
      not_true_eq_false, Bool.and_self, Bool.true_and, Bool.false_and, Bool.and_true, Bool.and_false, Case.toLowerProps, Case.toUpperProps,
      Case.toTitleProps, Case.EXC_DELTA, Case.EXC_LOWER, Case.EXC_UPPER, Case.EXC_TITLE, Case.EXC_FULL_MAPPINGS, Case.addDelta, chr_call H, Names.UCASE_EXC_CONDITIONAL_SPECIAL H,
      Names.UCASE_EXC_FULL_MAPPINGS H, Names.UCASE_FULL_LOWER H, hx, h4, h0]
        · have hu : decide (Case.getTypeFromProps p = 1) = false := by rwa [h4, Bool.true_and] at hs
          py_run [Names.casePropsTrie H, trie_get H, ht, hasException_run H, he, isUpperOrTitle_run H, getTypeFromProps_run H, getDeltaFromProps_run H, hasSlot_run H,
      getSlotValue_run H, Names.UCASE_EXC_SHIFT H, Names.ucase_props_exceptions H, table_exceptions H, Names.UCASE_EXC_DELTA H, Names.UCASE_EXC_LOWER H,
      Names.UCASE_EXC_UPPER H, Names.UCASE_EXC_TITLE H, Names.UCASE_LOWER H, Names.UCASE_EXC_DELTA_IS_NEGATIVE H, assign.unpack, Bool.not_true, Bool.not_false,
      not_true_eq_false, Bool.and_self, Bool.true_and, Bool.false_and, Bool.and_true, Bool.and_false, Case.toLowerProps, Case.toUpperProps,
      Case.toTitleProps, Case.EXC_DELTA, Case.EXC_LOWER, Case.EXC_UPPER, Case.EXC_TITLE, Case.EXC_FULL_MAPPINGS, Case.addDelta, chr_call H, Names.UCASE_EXC_CONDITIONAL_SPECIAL H,
      Names.UCASE_EXC_FULL_MAPPINGS H, Names.UCASE_FULL_LOWER H, hx, h4, hu, h0]
      · cases hv : Case.getSlotValue caseExceptions.arr x 2 (p >>> 4 + 1) <;> cases h4 : Case.hasSlot x 4
        · py_run [Names.casePropsTrie H, trie_get H, ht, hasException_run H, he, isUpperOrTitle_run H, getTypeFromProps_run H, getDeltaFromProps_run H, hasSlot_run H,
      getSlotValue_run H, Names.UCASE_EXC_SHIFT H, Names.ucase_props_exceptions H, table_exceptions H, Names.UCASE_EXC_DELTA H, Names.UCASE_EXC_LOWER H,
      Names.UCASE_EXC_UPPER H, Names.UCASE_EXC_TITLE H, Names.UCASE_LOWER H, Names.UCASE_EXC_DELTA_IS_NEGATIVE H, assign.unpack, Bool.not_true, Bool.not_false,
      not_true_eq_false, Bool.and_self, Bool.true_and, Bool.false_and, Bool.and_true, Bool.and_false, Case.toLowerProps, Case.toUpperProps,
      Case.toTitleProps, Case.EXC_DELTA, Case.EXC_LOWER, Case.EXC_UPPER, Case.EXC_TITLE, Case.EXC_FULL_MAPPINGS, Case.addDelta, chr_call H, Names.UCASE_EXC_CONDITIONAL_SPECIAL H,
      Names.UCASE_EXC_FULL_MAPPINGS H, Names.UCASE_FULL_LOWER H, hx, h4, h0, hv]
        · have hu : decide (Case.getTypeFromProps p = 1) = false := by rwa [h4, Bool.true_and] at hs
          py_run [Names.casePropsTrie H, trie_get H, ht, hasException_run H, he, isUpperOrTitle_run H, getTypeFromProps_run H, getDeltaFromProps_run H, hasSlot_run H,
      getSlotValue_run H, Names.UCASE_EXC_SHIFT H, Names.ucase_props_exceptions H, table_exceptions H, Names.UCASE_EXC_DELTA H, Names.UCASE_EXC_LOWER H,
      Names.UCASE_EXC_UPPER H, Names.UCASE_EXC_TITLE H, Names.UCASE_LOWER H, Names.UCASE_EXC_DELTA_IS_NEGATIVE H, assign.unpack, Bool.not_true, Bool.not_false,
      not_true_eq_false, Bool.and_self, Bool.true_and, Bool.false_and, Bool.and_true, Bool.and_false, Case.toLowerProps, Case.toUpperProps,
      Case.toTitleProps, Case.EXC_DELTA, Case.EXC_LOWER, Case.EXC_UPPER, Case.EXC_TITLE, Case.EXC_FULL_MAPPINGS, Case.addDelta, chr_call H, Names.UCASE_EXC_CONDITIONAL_SPECIAL H,
      Names.UCASE_EXC_FULL_MAPPINGS H, Names.UCASE_FULL_LOWER H, hx, h4, hu, h0, hv]
        · py_run [Names.casePropsTrie H, trie_get H, ht, hasException_run H, he, isUpperOrTitle_run H, getTypeFromProps_run H, getDeltaFromProps_run H, hasSlot_run H,
      getSlotValue_run H, Names.UCASE_EXC_SHIFT H, Names.ucase_props_exceptions H, table_exceptions H, Names.UCASE_EXC_DELTA H, Names.UCASE_EXC_LOWER H,
      Names.UCASE_EXC_UPPER H, Names.UCASE_EXC_TITLE H, Names.UCASE_LOWER H, Names.UCASE_EXC_DELTA_IS_NEGATIVE H, assign.unpack, Bool.not_true, Bool.not_false,
      not_true_eq_false, Bool.and_self, Bool.true_and, Bool.false_and, Bool.and_true, Bool.and_false, Case.toLowerProps, Case.toUpperProps,
      Case.toTitleProps, Case.EXC_DELTA, Case.EXC_LOWER, Case.EXC_UPPER, Case.EXC_TITLE, Case.EXC_FULL_MAPPINGS, Case.addDelta, chr_call H, Names.UCASE_EXC_CONDITIONAL_SPECIAL H,
      Names.UCASE_EXC_FULL_MAPPINGS H, Names.UCASE_FULL_LOWER H, hx, h4, h0, hv]
        · have hu : decide (Case.getTypeFromProps p = 1) = false := by rwa [h4, Bool.true_and] at hs
          py_run [Names.casePropsTrie H, trie_get H, ht, hasException_run H, he, isUpperOrTitle_run H, getTypeFromProps_run H, getDeltaFromProps_run H, hasSlot_run H,
      getSlotValue_run H, Names.UCASE_EXC_SHIFT H, Names.ucase_props_exceptions H, table_exceptions H, Names.UCASE_EXC_DELTA H, Names.UCASE_EXC_LOWER H,
      Names.UCASE_EXC_UPPER H, Names.UCASE_EXC_TITLE H, Names.UCASE_LOWER H, Names.UCASE_EXC_DELTA_IS_NEGATIVE H, assign.unpack, Bool.not_true, Bool.not_false,
      not_true_eq_false, Bool.and_self, Bool.true_and, Bool.false_and, Bool.and_true, Bool.and_false, Case.toLowerProps, Case.toUpperProps,
      Case.toTitleProps, Case.EXC_DELTA, Case.EXC_LOWER, Case.EXC_UPPER, Case.EXC_TITLE, Case.EXC_FULL_MAPPINGS, Case.addDelta, chr_call H, Names.UCASE_EXC_CONDITIONAL_SPECIAL H,
      Names.UCASE_EXC_FULL_MAPPINGS H, Names.UCASE_FULL_LOWER H, hx, h4, hu, h0, hv]

/-- CaseProps.py:204-205 -/
def slotBody : Stmt := (.seq (.ifs (.call (.name (n% "hasSlot")) (.cons (.name (n% "excWord")) (.cons (.name (n% "slot")) .nil))) (.seq (.ret (.index (.call (.name (n% "getSlotValue")) (.cons (.name (n% "excWord")) (.cons (.name (n% "slot")) (.cons (.name (n% "exceptionIndex")) .nil)))) (.num 0))) .skip) .skip) .skip)

omit H in
theorem pair_index (a b : Val) : index w (.tuple (.cons a (.cons b .nil))) (.int ((0 : Nat) : Int)) = .ok a := rfl

theorem toTitle_run (c n : Nat) : call[n + 4, n% "toTitle", .cons (.int c) .nil] = lift ((Case.toTitle c).map .int) := by
  rw [fn_call (b := (.seq (.assign (.name (n% "props")) (.call (.attr (.name (n% "casePropsTrie")) (n% "get")) (.cons (.name (n% "c")) .nil))) (.seq (.ifs (.not (.call (.name (n% "hasException")) (.cons (.name (n% "props")) .nil))) (.seq (.ifs (.bin .eq (.call (.name (n% "getTypeFromProps")) (.cons (.name (n% "props")) .nil)) (.name (n% "UCASE_LOWER"))) (.seq (.aug .add (.name (n% "c")) (.call (.name (n% "getDeltaFromProps")) (.cons (.name (n% "props")) .nil))) .skip) .skip) .skip) (.seq (.assign (.name (n% "exceptionIndex")) (.bin .shr (.name (n% "props")) (.name (n% "UCASE_EXC_SHIFT")))) (.seq (.assign (.name (n% "excWord")) (.index (.name (n% "ucase_props_exceptions")) (.name (n% "exceptionIndex")))) (.seq (.aug .add (.name (n% "exceptionIndex")) (.num 1)) (.seq (.ifs (.and (.call (.name (n% "hasSlot")) (.cons (.name (n% "excWord")) (.cons (.name (n% "UCASE_EXC_DELTA")) .nil))) (.bin .eq (.call (.name (n% "getTypeFromProps")) (.cons (.name (n% "props")) .nil)) (.name (n% "UCASE_LOWER")))) (.seq (.assign (.tuple (.cons (.name (n% "delta")) (.cons (.name (n% "_")) .nil))) (.call (.name (n% "getSlotValue")) (.cons (.name (n% "excWord")) (.cons (.name (n% "UCASE_EXC_DELTA")) (.cons (.name (n% "exceptionIndex")) .nil))))) (.seq (.ret (.cond (.bin .eq (.bin .and (.name (n% "excWord")) (.name (n% "UCASE_EXC_DELTA_IS_NEGATIVE"))) (.num 0)) (.bin .add (.name (n% "c")) (.name (n% "delta"))) (.bin .sub (.name (n% "c")) (.name (n% "delta"))))) .skip)) .skip) (.seq (.for (.name (n% "slot")) (.list (.cons (.name (n% "UCASE_EXC_TITLE")) (.cons (.name (n% "UCASE_EXC_UPPER")) .nil))) slotBody) .skip)))))) (.seq (.ret (.name (n% "c"))) .skip)))) (Names.toTitle H) rfl]
  have y : yields slotBody = false := rfl
  unfold Case.toTitle
  cases ht : Case.casePropsTrie.get c with
  | error a => py_run [Names.casePropsTrie H, trie_get H, ht, y]
  | ok p =>
  cases he : Case.hasException p
  · by_cases ho : Case.getTypeFromProps p = 1
    · have o := decide_eq_true ho
      cases hd : Case.getDeltaFromProps p <;> py_run [Names.casePropsTrie H, trie_get H, ht, hasException_run H, he, isUpperOrTitle_run H, getTypeFromProps_run H, getDeltaFromProps_run H, hasSlot_run H,
      getSlotValue_run H, Names.UCASE_EXC_SHIFT H, Names.ucase_props_exceptions H, table_exceptions H, Names.UCASE_EXC_DELTA H, Names.UCASE_EXC_LOWER H,
      Names.UCASE_EXC_UPPER H, Names.UCASE_EXC_TITLE H, Names.UCASE_LOWER H, Names.UCASE_EXC_DELTA_IS_NEGATIVE H, assign.unpack, Bool.not_true, Bool.not_false,
      not_true_eq_false, Bool.and_self, Bool.true_and, Bool.false_and, Bool.and_true, Bool.and_false, Case.toLowerProps, Case.toUpperProps,
      Case.toTitleProps, Case.EXC_DELTA, Case.EXC_LOWER, Case.EXC_UPPER, Case.EXC_TITLE, Case.EXC_FULL_MAPPINGS, Case.addDelta, chr_call H, Names.UCASE_EXC_CONDITIONAL_SPECIAL H,
      Names.UCASE_EXC_FULL_MAPPINGS H, Names.UCASE_FULL_LOWER H, o, if_pos ho, hd, y]
    · have o := decide_eq_false ho
      py_run [Names.casePropsTrie H, trie_get H, ht, hasException_run H, he, isUpperOrTitle_run H, getTypeFromProps_run H, getDeltaFromProps_run H, hasSlot_run H,
      getSlotValue_run H, Names.UCASE_EXC_SHIFT H, Names.ucase_props_exceptions H, table_exceptions H, Names.UCASE_EXC_DELTA H, Names.UCASE_EXC_LOWER H,
      Names.UCASE_EXC_UPPER H, Names.UCASE_EXC_TITLE H, Names.UCASE_LOWER H, Names.UCASE_EXC_DELTA_IS_NEGATIVE H, assign.unpack, Bool.not_true, Bool.not_false,
      not_true_eq_false, Bool.and_self, Bool.true_and, Bool.false_and, Bool.and_true, Bool.and_false, Case.toLowerProps, Case.toUpperProps,
      Case.toTitleProps, Case.EXC_DELTA, Case.EXC_LOWER, Case.EXC_UPPER, Case.EXC_TITLE, Case.EXC_FULL_MAPPINGS, Case.addDelta, chr_call H, Names.UCASE_EXC_CONDITIONAL_SPECIAL H,
      Names.UCASE_EXC_FULL_MAPPINGS H, Names.UCASE_FULL_LOWER H, o, if_neg ho, y]
  · cases hx : caseExceptions.arr.get (p >>> 4) with
    | error a => py_run [Names.casePropsTrie H, trie_get H, ht, hasException_run H, he, isUpperOrTitle_run H, getTypeFromProps_run H, getDeltaFromProps_run H, hasSlot_run H,
      getSlotValue_run H, Names.UCASE_EXC_SHIFT H, Names.ucase_props_exceptions H, table_exceptions H, Names.UCASE_EXC_DELTA H, Names.UCASE_EXC_LOWER H,
      Names.UCASE_EXC_UPPER H, Names.UCASE_EXC_TITLE H, Names.UCASE_LOWER H, Names.UCASE_EXC_DELTA_IS_NEGATIVE H, assign.unpack, Bool.not_true, Bool.not_false,
      not_true_eq_false, Bool.and_self, Bool.true_and, Bool.false_and, Bool.and_true, Bool.and_false, Case.toLowerProps, Case.toUpperProps,
      Case.toTitleProps, Case.EXC_DELTA, Case.EXC_LOWER, Case.EXC_UPPER, Case.EXC_TITLE, Case.EXC_FULL_MAPPINGS, Case.addDelta, chr_call H, Names.UCASE_EXC_CONDITIONAL_SPECIAL H,
      Names.UCASE_EXC_FULL_MAPPINGS H, Names.UCASE_FULL_LOWER H, hx, y]
    | ok x =>
    cases hs : Case.hasSlot x 4 && decide (Case.getTypeFromProps p = 1) with
    | true =>
      rw [Bool.and_eq_true] at hs
      cases hv : Case.getSlotValue caseExceptions.arr x 4 (p >>> 4 + 1) with
      | error a => py_run [Names.casePropsTrie H, trie_get H, ht, hasException_run H, he, isUpperOrTitle_run H, getTypeFromProps_run H, getDeltaFromProps_run H, hasSlot_run H,
      getSlotValue_run H, Names.UCASE_EXC_SHIFT H, Names.ucase_props_exceptions H, table_exceptions H, Names.UCASE_EXC_DELTA H, Names.UCASE_EXC_LOWER H,
      Names.UCASE_EXC_UPPER H, Names.UCASE_EXC_TITLE H, Names.UCASE_LOWER H, Names.UCASE_EXC_DELTA_IS_NEGATIVE H, assign.unpack, Bool.not_true, Bool.not_false,
      not_true_eq_false, Bool.and_self, Bool.true_and, Bool.false_and, Bool.and_true, Bool.and_false, Case.toLowerProps, Case.toUpperProps,
      Case.toTitleProps, Case.EXC_DELTA, Case.EXC_LOWER, Case.EXC_UPPER, Case.EXC_TITLE, Case.EXC_FULL_MAPPINGS, Case.addDelta, chr_call H, Names.UCASE_EXC_CONDITIONAL_SPECIAL H,
      Names.UCASE_EXC_FULL_MAPPINGS H, Names.UCASE_FULL_LOWER H, hx, hs.1, hs.2, hv, y]
      | ok r =>
        by_cases hn : x &&& 0x400 = 0
        · have d := decide_eq_true hn
          py_run [Names.casePropsTrie H, trie_get H, ht, hasException_run H, he, isUpperOrTitle_run H, getTypeFromProps_run H, getDeltaFromProps_run H, hasSlot_run H,
      getSlotValue_run H, Names.UCASE_EXC_SHIFT H, Names.ucase_props_exceptions H, table_exceptions H, Names.UCASE_EXC_DELTA H, Names.UCASE_EXC_LOWER H,
      Names.UCASE_EXC_UPPER H, Names.UCASE_EXC_TITLE H, Names.UCASE_LOWER H, Names.UCASE_EXC_DELTA_IS_NEGATIVE H, assign.unpack, Bool.not_true, Bool.not_false,
      not_true_eq_false, Bool.and_self, Bool.true_and, Bool.false_and, Bool.and_true, Bool.and_false, Case.toLowerProps, Case.toUpperProps,
      Case.toTitleProps, Case.EXC_DELTA, Case.EXC_LOWER, Case.EXC_UPPER, Case.EXC_TITLE, Case.EXC_FULL_MAPPINGS, Case.addDelta, chr_call H, Names.UCASE_EXC_CONDITIONAL_SPECIAL H,
      Names.UCASE_EXC_FULL_MAPPINGS H, Names.UCASE_FULL_LOWER H, hx, hs.1, hs.2, hv, d, if_pos hn, y]
        · have d := decide_eq_false hn
          py_run [Names.casePropsTrie H, trie_get H, ht, hasException_run H, he, isUpperOrTitle_run H, getTypeFromProps_run H, getDeltaFromProps_run H, hasSlot_run H,
      getSlotValue_run H, Names.UCASE_EXC_SHIFT H, Names.ucase_props_exceptions H, table_exceptions H, Names.UCASE_EXC_DELTA H, Names.UCASE_EXC_LOWER H,
      Names.UCASE_EXC_UPPER H, Names.UCASE_EXC_TITLE H, Names.UCASE_LOWER H, Names.UCASE_EXC_DELTA_IS_NEGATIVE H, assign.unpack, Bool.not_true, Bool.not_false,
      not_true_eq_false, Bool.and_self, Bool.true_and, Bool.false_and, Bool.and_true, Bool.and_false, Case.toLowerProps, Case.toUpperProps,
      Case.toTitleProps, Case.EXC_DELTA, Case.EXC_LOWER, Case.EXC_UPPER, Case.EXC_TITLE, Case.EXC_FULL_MAPPINGS, Case.addDelta, chr_call H, Names.UCASE_EXC_CONDITIONAL_SPECIAL H,
      Names.UCASE_EXC_FULL_MAPPINGS H, Names.UCASE_FULL_LOWER H, hx, hs.1, hs.2, hv, d, if_neg hn, y]
    | false =>
      have hu : ∀ h4 : Case.hasSlot x 4 = true, decide (Case.getTypeFromProps p = 1) = false := fun h4 => by rwa [h4, Bool.true_and] at hs
      cases h3 : Case.hasSlot x 3
      · cases h2 : Case.hasSlot x 2
        · cases h4 : Case.hasSlot x 4
          · py_run [Names.casePropsTrie H, trie_get H, ht, hasException_run H, he, isUpperOrTitle_run H, getTypeFromProps_run H, getDeltaFromProps_run H, hasSlot_run H,
      getSlotValue_run H, Names.UCASE_EXC_SHIFT H, Names.ucase_props_exceptions H, table_exceptions H, Names.UCASE_EXC_DELTA H, Names.UCASE_EXC_LOWER H,
      Names.UCASE_EXC_UPPER H, Names.UCASE_EXC_TITLE H, Names.UCASE_LOWER H, Names.UCASE_EXC_DELTA_IS_NEGATIVE H, assign.unpack, Bool.not_true, Bool.not_false,
      not_true_eq_false, Bool.and_self, Bool.true_and, Bool.false_and, Bool.and_true, Bool.and_false, Case.toLowerProps, Case.toUpperProps,
      Case.toTitleProps, Case.EXC_DELTA, Case.EXC_LOWER, Case.EXC_UPPER, Case.EXC_TITLE, Case.EXC_FULL_MAPPINGS, Case.addDelta, chr_call H, Names.UCASE_EXC_CONDITIONAL_SPECIAL H,
      Names.UCASE_EXC_FULL_MAPPINGS H, Names.UCASE_FULL_LOWER H, hx, h4, h3, h2, y, iter, Val.elems, each, slotBody]
          · py_run [Names.casePropsTrie H, trie_get H, ht, hasException_run H, he, isUpperOrTitle_run H, getTypeFromProps_run H, getDeltaFromProps_run H, hasSlot_run H,
      getSlotValue_run H, Names.UCASE_EXC_SHIFT H, Names.ucase_props_exceptions H, table_exceptions H, Names.UCASE_EXC_DELTA H, Names.UCASE_EXC_LOWER H,
      Names.UCASE_EXC_UPPER H, Names.UCASE_EXC_TITLE H, Names.UCASE_LOWER H, Names.UCASE_EXC_DELTA_IS_NEGATIVE H, assign.unpack, Bool.not_true, Bool.not_false,
      not_true_eq_false, Bool.and_self, Bool.true_and, Bool.false_and, Bool.and_true, Bool.and_false, Case.toLowerProps, Case.toUpperProps,
      Case.toTitleProps, Case.EXC_DELTA, Case.EXC_LOWER, Case.EXC_UPPER, Case.EXC_TITLE, Case.EXC_FULL_MAPPINGS, Case.addDelta, chr_call H, Names.UCASE_EXC_CONDITIONAL_SPECIAL H,
      Names.UCASE_EXC_FULL_MAPPINGS H, Names.UCASE_FULL_LOWER H, hx, h4, hu h4, h3, h2, y, iter, Val.elems, each, slotBody]
        · cases hv : Case.getSlotValue caseExceptions.arr x 2 (p >>> 4 + 1) <;> cases h4 : Case.hasSlot x 4
          · py_run [Names.casePropsTrie H, trie_get H, ht, hasException_run H, he, isUpperOrTitle_run H, getTypeFromProps_run H, getDeltaFromProps_run H, hasSlot_run H,
      getSlotValue_run H, Names.UCASE_EXC_SHIFT H, Names.ucase_props_exceptions H, table_exceptions H, Names.UCASE_EXC_DELTA H, Names.UCASE_EXC_LOWER H,
      Names.UCASE_EXC_UPPER H, Names.UCASE_EXC_TITLE H, Names.UCASE_LOWER H, Names.UCASE_EXC_DELTA_IS_NEGATIVE H, assign.unpack, Bool.not_true, Bool.not_false,
      not_true_eq_false, Bool.and_self, Bool.true_and, Bool.false_and, Bool.and_true, Bool.and_false, Case.toLowerProps, Case.toUpperProps,
      Case.toTitleProps, Case.EXC_DELTA, Case.EXC_LOWER, Case.EXC_UPPER, Case.EXC_TITLE, Case.EXC_FULL_MAPPINGS, Case.addDelta, chr_call H, Names.UCASE_EXC_CONDITIONAL_SPECIAL H,
      Names.UCASE_EXC_FULL_MAPPINGS H, Names.UCASE_FULL_LOWER H, hx, h4, h3, h2, hv, y, iter, Val.elems, each, slotBody]
          · py_run [Names.casePropsTrie H, trie_get H, ht, hasException_run H, he, isUpperOrTitle_run H, getTypeFromProps_run H, getDeltaFromProps_run H, hasSlot_run H,
      getSlotValue_run H, Names.UCASE_EXC_SHIFT H, Names.ucase_props_exceptions H, table_exceptions H, Names.UCASE_EXC_DELTA H, Names.UCASE_EXC_LOWER H,
      Names.UCASE_EXC_UPPER H, Names.UCASE_EXC_TITLE H, Names.UCASE_LOWER H, Names.UCASE_EXC_DELTA_IS_NEGATIVE H, assign.unpack, Bool.not_true, Bool.not_false,
      not_true_eq_false, Bool.and_self, Bool.true_and, Bool.false_and, Bool.and_true, Bool.and_false, Case.toLowerProps, Case.toUpperProps,
      Case.toTitleProps, Case.EXC_DELTA, Case.EXC_LOWER, Case.EXC_UPPER, Case.EXC_TITLE, Case.EXC_FULL_MAPPINGS, Case.addDelta, chr_call H, Names.UCASE_EXC_CONDITIONAL_SPECIAL H,
      Names.UCASE_EXC_FULL_MAPPINGS H, Names.UCASE_FULL_LOWER H, hx, h4, hu h4, h3, h2, hv, y, iter, Val.elems, each, slotBody]
          · py_run [Names.casePropsTrie H, trie_get H, ht, hasException_run H, he, isUpperOrTitle_run H, getTypeFromProps_run H, getDeltaFromProps_run H, hasSlot_run H,
      getSlotValue_run H, Names.UCASE_EXC_SHIFT H, Names.ucase_props_exceptions H, table_exceptions H, Names.UCASE_EXC_DELTA H, Names.UCASE_EXC_LOWER H,
      Names.UCASE_EXC_UPPER H, Names.UCASE_EXC_TITLE H, Names.UCASE_LOWER H, Names.UCASE_EXC_DELTA_IS_NEGATIVE H, assign.unpack, Bool.not_true, Bool.not_false,
      not_true_eq_false, Bool.and_self, Bool.true_and, Bool.false_and, Bool.and_true, Bool.and_false, Case.toLowerProps, Case.toUpperProps,
      Case.toTitleProps, Case.EXC_DELTA, Case.EXC_LOWER, Case.EXC_UPPER, Case.EXC_TITLE, Case.EXC_FULL_MAPPINGS, Case.addDelta, chr_call H, Names.UCASE_EXC_CONDITIONAL_SPECIAL H,
      Names.UCASE_EXC_FULL_MAPPINGS H, Names.UCASE_FULL_LOWER H, hx, h4, h3, h2, hv, y, iter, Val.elems, each, slotBody, pair_index]
          · py_run [Names.casePropsTrie H, trie_get H, ht, hasException_run H, he, isUpperOrTitle_run H, getTypeFromProps_run H, getDeltaFromProps_run H, hasSlot_run H,
      getSlotValue_run H, Names.UCASE_EXC_SHIFT H, Names.ucase_props_exceptions H, table_exceptions H, Names.UCASE_EXC_DELTA H, Names.UCASE_EXC_LOWER H,
      Names.UCASE_EXC_UPPER H, Names.UCASE_EXC_TITLE H, Names.UCASE_LOWER H, Names.UCASE_EXC_DELTA_IS_NEGATIVE H, assign.unpack, Bool.not_true, Bool.not_false,
      not_true_eq_false, Bool.and_self, Bool.true_and, Bool.false_and, Bool.and_true, Bool.and_false, Case.toLowerProps, Case.toUpperProps,
      Case.toTitleProps, Case.EXC_DELTA, Case.EXC_LOWER, Case.EXC_UPPER, Case.EXC_TITLE, Case.EXC_FULL_MAPPINGS, Case.addDelta, chr_call H, Names.UCASE_EXC_CONDITIONAL_SPECIAL H,
      Names.UCASE_EXC_FULL_MAPPINGS H, Names.UCASE_FULL_LOWER H, hx, h4, hu h4, h3, h2, hv, y, iter, Val.elems, each, slotBody, pair_index]
      · cases hv : Case.getSlotValue caseExceptions.arr x 3 (p >>> 4 + 1) <;> cases h4 : Case.hasSlot x 4
        · py_run [Names.casePropsTrie H, trie_get H, ht, hasException_run H, he, isUpperOrTitle_run H, getTypeFromProps_run H, getDeltaFromProps_run H, hasSlot_run H,
      getSlotValue_run H, Names.UCASE_EXC_SHIFT H, Names.ucase_props_exceptions H, table_exceptions H, Names.UCASE_EXC_DELTA H, Names.UCASE_EXC_LOWER H,
      Names.UCASE_EXC_UPPER H, Names.UCASE_EXC_TITLE H, Names.UCASE_LOWER H, Names.UCASE_EXC_DELTA_IS_NEGATIVE H, assign.unpack, Bool.not_true, Bool.not_false,
      not_true_eq_false, Bool.and_self, Bool.true_and, Bool.false_and, Bool.and_true, Bool.and_false, Case.toLowerProps, Case.toUpperProps,
      Case.toTitleProps, Case.EXC_DELTA, Case.EXC_LOWER, Case.EXC_UPPER, Case.EXC_TITLE, Case.EXC_FULL_MAPPINGS, Case.addDelta, chr_call H, Names.UCASE_EXC_CONDITIONAL_SPECIAL H,
      Names.UCASE_EXC_FULL_MAPPINGS H, Names.UCASE_FULL_LOWER H, hx, h4, h3, hv, y, iter, Val.elems, each, slotBody]
        · py_run [Names.casePropsTrie H, trie_get H, ht, hasException_run H, he, isUpperOrTitle_run H, getTypeFromProps_run H, getDeltaFromProps_run H, hasSlot_run H,
      getSlotValue_run H, Names.UCASE_EXC_SHIFT H, Names.ucase_props_exceptions H, table_exceptions H, Names.UCASE_EXC_DELTA H, Names.UCASE_EXC_LOWER H,
      Names.UCASE_EXC_UPPER H, Names.UCASE_EXC_TITLE H, Names.UCASE_LOWER H, Names.UCASE_EXC_DELTA_IS_NEGATIVE H, assign.unpack, Bool.not_true, Bool.not_false,
      not_true_eq_false, Bool.and_self, Bool.true_and, Bool.false_and, Bool.and_true, Bool.and_false, Case.toLowerProps, Case.toUpperProps,
      Case.toTitleProps, Case.EXC_DELTA, Case.EXC_LOWER, Case.EXC_UPPER, Case.EXC_TITLE, Case.EXC_FULL_MAPPINGS, Case.addDelta, chr_call H, Names.UCASE_EXC_CONDITIONAL_SPECIAL H,
      Names.UCASE_EXC_FULL_MAPPINGS H, Names.UCASE_FULL_LOWER H, hx, h4, hu h4, h3, hv, y, iter, Val.elems, each, slotBody]
        · py_run [Names.casePropsTrie H, trie_get H, ht, hasException_run H, he, isUpperOrTitle_run H, getTypeFromProps_run H, getDeltaFromProps_run H, hasSlot_run H,
      getSlotValue_run H, Names.UCASE_EXC_SHIFT H, Names.ucase_props_exceptions H, table_exceptions H, Names.UCASE_EXC_DELTA H, Names.UCASE_EXC_LOWER H,
      Names.UCASE_EXC_UPPER H, Names.UCASE_EXC_TITLE H, Names.UCASE_LOWER H, Names.UCASE_EXC_DELTA_IS_NEGATIVE H, assign.unpack, Bool.not_true, Bool.not_false,
      not_true_eq_false, Bool.and_self, Bool.true_and, Bool.false_and, Bool.and_true, Bool.and_false, Case.toLowerProps, Case.toUpperProps,
      Case.toTitleProps, Case.EXC_DELTA, Case.EXC_LOWER, Case.EXC_UPPER, Case.EXC_TITLE, Case.EXC_FULL_MAPPINGS, Case.addDelta, chr_call H, Names.UCASE_EXC_CONDITIONAL_SPECIAL H,
      Names.UCASE_EXC_FULL_MAPPINGS H, Names.UCASE_FULL_LOWER H, hx, h4, h3, hv, y, iter, Val.elems, each, slotBody, pair_index]
        · py_run [Names.casePropsTrie H, trie_get H, ht, hasException_run H, he, isUpperOrTitle_run H, getTypeFromProps_run H, getDeltaFromProps_run H, hasSlot_run H,
      getSlotValue_run H, Names.UCASE_EXC_SHIFT H, Names.ucase_props_exceptions H, table_exceptions H, Names.UCASE_EXC_DELTA H, Names.UCASE_EXC_LOWER H,
      Names.UCASE_EXC_UPPER H, Names.UCASE_EXC_TITLE H, Names.UCASE_LOWER H, Names.UCASE_EXC_DELTA_IS_NEGATIVE H, assign.unpack, Bool.not_true, Bool.not_false,
      not_true_eq_false, Bool.and_self, Bool.true_and, Bool.false_and, Bool.and_true, Bool.and_false, Case.toLowerProps, Case.toUpperProps,
      Case.toTitleProps, Case.EXC_DELTA, Case.EXC_LOWER, Case.EXC_UPPER, Case.EXC_TITLE, Case.EXC_FULL_MAPPINGS, Case.addDelta, chr_call H, Names.UCASE_EXC_CONDITIONAL_SPECIAL H,
      Names.UCASE_EXC_FULL_MAPPINGS H, Names.UCASE_FULL_LOWER H, hx, h4, hu h4, h3, hv, y, iter, Val.elems, each, slotBody, pair_index]

/-- CaseProps.py:234-235 and 287-288, the body of the loop. -/
def charsBody : Stmt := (.seq (.expr (.call (.attr (.name (n% "chars")) (n% "append")) (.cons (.call (.name (n% "chr")) (.cons (.index (.name (n% "ucase_props_exceptions")) (.bin .add (.name (n% "exceptionIndex")) (.name (n% "i")))) .nil)) .nil))) .skip)

/-- CaseProps.py:234-237 and 287-290. -/
def readSuite : Stmt := (.seq (.for (.name (n% "i")) (.call (.name (n% "range")) (.cons (.name (n% "full")) .nil)) charsBody) (.seq (.ret (.call (.attr (.str []) (n% "join")) (.cons (.name (n% "chars")) .nil))) .skip))

omit H in
theorem concat_append (l : List Val) (s t : Str) : concat l = .ok s → concat (l ++ [.str t]) = .ok (s ++ t) := by
  induction l generalizing s with
  | nil => intro h; cases h; simp [concat, Except.map]
  | cons a l ih =>
    intro h
    cases a <;> first
      | (rw [concat] at h
         cases h' : concat l with
         | error e => rw [h'] at h; cases h
         | ok u =>
           rw [h'] at h
           cases h
           rw [List.cons_append, concat, ih u h']
           simp [Except.map])
      | cases h

/-- What is known about the variables during the loop. -/
structure Reading (e : Nat) (l : List Val) (env : Env) : Prop where
  exc : getVar (n% "ucase_props_exceptions") env = none
  chr : getVar (n% "chr") env = none
  index : getVar (n% "exceptionIndex") env = some (.int e)
  chars : getVar (n% "chars") env = some (.list (chain l))

omit H in
theorem Reading.setI {e : Nat} {l : List Val} {env : Env} (h : Reading e l env) (v : Val) : Reading e l (setVar (n% "i") v env) :=
  ⟨by rw [getVar_setVar]; exact h.exc, by rw [getVar_setVar]; exact h.chr, by rw [getVar_setVar]; exact h.index, by rw [getVar_setVar]; exact h.chars⟩

omit H in
theorem Reading.setChars {e : Nat} {l : List Val} {env : Env} (h : Reading e l env) (l' : List Val) :
    Reading e l' (setVar (n% "chars") (.list (chain l')) env) :=
  ⟨by rw [getVar_setVar]; exact h.exc, by rw [getVar_setVar]; exact h.chr, by rw [getVar_setVar]; exact h.index, by rw [getVar_setVar]; rfl⟩

theorem charsBody_run {call : Call} {fuel e i : Nat} {l : List Val} {env : Env} (h : Reading e l env) (hi : getVar (n% "i") env = some (.int i)) :
    exec w call fuel (n% "CaseProps") charsBody (env, []) = match (do let v ← caseExceptions.arr.get (e + i); Case.chr v : Py Str) with
      | .ok s => .ok (.next, (setVar (n% "chars") (.list (chain (l ++ [.str s]))) env, []))
      | .error x => .error (.raised x) := by
  cases hg : caseExceptions.arr.get (e + i) with
  | error x => py_run [charsBody, h.exc, h.chr, h.index, h.chars, hi, Names.ucase_props_exceptions H, table_exceptions H, hg]
  | ok v =>
    cases hc : Case.chr v <;>
      py_run [charsBody, h.exc, h.chr, h.index, h.chars, hi, Names.ucase_props_exceptions H, table_exceptions H, hg, chr_call H, hc, elems_chain]

theorem loop_run {call : Call} {fuel e k : Nat} : ∀ {j : Nat} {l : List Val} {env : Env} {s : Str}, Reading e l env → concat l = .ok s →
    match Case.readChars caseExceptions.arr k (e + j) with
    | .ok t => ∃ env' l', each (.name (n% "i")) (exec w call fuel (n% "CaseProps") charsBody) ((List.range' j k).map fun (i : Nat) => .int (i : Int))
        (env, []) = .ok (.next, (env', [])) ∧ Reading e l' env' ∧ concat l' = .ok (s ++ t)
    | .error x => each (.name (n% "i")) (exec w call fuel (n% "CaseProps") charsBody) ((List.range' j k).map fun (i : Nat) => .int (i : Int))
        (env, []) = .error (.raised x) := by
  induction k with
  | zero => intro j l env s h hs; exact ⟨env, l, rfl, h, by rw [hs, List.append_nil]⟩
  | succ k ih =>
    intro j l env s h hs
    have b := charsBody_run H (call := call) (fuel := fuel) (h.setI (.int (j : Int))) (i := j) (by rw [getVar_setVar]; rfl)
    rw [Case.readChars, List.range'_succ, List.map_cons, each, assign]
    cases hg : caseExceptions.arr.get (e + j) with
    | error x =>
      rw [hg] at b
      show _ = _
      simp only [Bind.bind, Except.bind] at b ⊢
      rw [b]
    | ok v =>
      cases hc : Case.chr v with
      | error x =>
        rw [hg] at b
        simp only [Bind.bind, Except.bind, hc] at b ⊢
        rw [b]
      | ok t =>
        rw [hg] at b
        have r := ih (j := j + 1) ((h.setI (.int (j : Int))).setChars (l ++ [.str t])) (concat_append l s t hs)
        simp only [Bind.bind, Except.bind, hc] at b ⊢
        rw [b]
        rw [show e + (j + 1) = e + j + 1 from rfl] at r
        cases hr : Case.readChars caseExceptions.arr k (e + j + 1) with
        | error x =>
          rw [hr] at r
          exact r
        | ok u =>
          rw [hr] at r
          obtain ⟨env', l', r, h', hl⟩ := r
          exact ⟨env', l', r, h', by rw [hl, List.append_assoc]⟩

/-- What part of a function does that ends with `return` of a text. -/
def Returns (r : R (Flow × St)) (p : Py Str) : Prop :=
  match p with
  | .ok s => ∃ st, r = .ok (.ret (.str s), st)
  | .error e => r = .error (.raised e)

theorem read_run {call : Call} {fuel e k : Nat} {env : Env} (h : Reading e [] env) (hf : getVar (n% "full") env = some (.int k))
    (hr : getVar (n% "range") env = none) :
    Returns (exec w call fuel (n% "CaseProps") readSuite (env, [])) (Case.readChars caseExceptions.arr k e) := by
  have r := loop_run H (call := call) (fuel := fuel) (e := e) (k := k) (j := 0) h (s := []) rfl
  rw [← List.range_eq_range', Nat.add_zero] at r
  have y : rangeList 0 k = (List.range k).map fun (i : Nat) => .int (i : Int) := by
    rw [rangeList, Int.sub_zero, Int.toNat_natCast]
    exact List.map_congr_left fun i _ => by rw [Int.zero_add]
  unfold Returns
  cases hc : Case.readChars caseExceptions.arr k e with
  | error x =>
    rw [hc] at r
    dsimp only at r
    py_run [readSuite, hf, hr, range_call H, builtin, iter, y, r]
  | ok t =>
    rw [hc] at r
    obtain ⟨env', l', r, h', hl⟩ := r
    refine ⟨(env', []), ?_⟩
    py_run [readSuite, hf, hr, range_call H, builtin, iter, y, r, h'.chars, callMethod, elems_chain, hl, List.nil_append]

/-- CaseProps.py:238-244 -/
def lowerTail : Stmt := (.seq (.ifs (.and (.call (.name (n% "hasSlot")) (.cons (.name (n% "excWord")) (.cons (.name (n% "UCASE_EXC_DELTA")) .nil))) (.call (.name (n% "isUpperOrTitle")) (.cons (.name (n% "props")) .nil))) (.seq (.assign (.tuple (.cons (.name (n% "delta")) (.cons (.name (n% "_")) .nil))) (.call (.name (n% "getSlotValue")) (.cons (.name (n% "excWord")) (.cons (.name (n% "UCASE_EXC_DELTA")) (.cons (.name (n% "exceptionIndex2")) .nil))))) (.seq (.ret (.call (.name (n% "chr")) (.cons (.cond (.bin .eq (.bin .and (.name (n% "excWord")) (.name (n% "UCASE_EXC_DELTA_IS_NEGATIVE"))) (.num 0)) (.bin .add (.name (n% "c")) (.name (n% "delta"))) (.bin .sub (.name (n% "c")) (.name (n% "delta")))) .nil))) .skip)) .skip) (.seq (.ifs (.call (.name (n% "hasSlot")) (.cons (.name (n% "excWord")) (.cons (.name (n% "UCASE_EXC_LOWER")) .nil))) (.seq (.assign (.tuple (.cons (.name (n% "ch")) (.cons (.name (n% "_")) .nil))) (.call (.name (n% "getSlotValue")) (.cons (.name (n% "excWord")) (.cons (.name (n% "UCASE_EXC_LOWER")) (.cons (.name (n% "exceptionIndex2")) .nil))))) (.seq (.ret (.call (.name (n% "chr")) (.cons (.name (n% "ch")) .nil))) .skip)) .skip) .skip))

/-- What a function returns whose last part is this, and then `return result`. -/
def verdict : R (Flow × St) → R Val
  | .ok (.ret v, _) => .ok v
  | .ok (.next, st) =>
    match getVar (n% "result") st.1 with
    | some v => .ok v
    | .none => .error .stuck
  | .ok _ => .error .stuck
  | .error e => .error e

omit H in
theorem verdict_cases {r : R (Flow × St)} {p : Py Str} (h : verdict r = lift (p.map .str)) :
    (∃ e, p = .error e ∧ r = .error (.raised e)) ∨ (∃ s st, p = .ok s ∧ r = .ok (.ret (.str s), st)) ∨
    ∃ s st, p = .ok s ∧ r = .ok (.next, st) ∧ getVar (n% "result") st.1 = some (.str s) := by
  cases p with
  | error e =>
    refine .inl ⟨e, rfl, ?_⟩
    rcases r with r | ⟨_ | _ | _ | v, st⟩ <;> simp only [verdict, lift, Except.map] at h <;> first | cases h <;> rfl | skip
    split at h <;> cases h
  | ok s =>
    refine .inr ?_
    rcases r with r | ⟨_ | _ | _ | v, st⟩ <;> simp only [verdict, lift, Except.map] at h
    · cases h
    · refine .inr ⟨s, st, rfl, rfl, ?_⟩
      split at h
      · rename_i e; rw [e]; cases h; rfl
      · cases h
    · cases h
    · cases h
    · cases h; exact .inl ⟨s, st, rfl, rfl⟩

/-- The variables before the last part. -/
def tailVars (c p e x e2 : Nat) (result : Str) (rest : Env) : Env :=
  (n% "c", .int c) :: (n% "result", .str result) :: (n% "props", .int p) :: (n% "exceptionIndex", .int e) :: (n% "excWord", .int x) ::
    (n% "exceptionIndex2", .int e2) :: rest

/-- They can be followed by these. -/
def Rest (rest : Env) : Prop := rest = [] ∨ ∃ a b, rest = [(n% "full", a), (n% "offset", b)]

theorem lowerTail_run (c p e x e2 fuel n : Nat) (result : Str) (rest : Env) (hr : Rest rest) :
    verdict (exec w (run w (n + 2)) fuel (n% "CaseProps") lowerTail (tailVars c p e x e2 result rest, [])) =
      lift ((Case.fullLowerTail caseExceptions.arr c p x e2 result).map .str) := by
  unfold Case.fullLowerTail tailVars Case.EXC_DELTA Case.EXC_LOWER
  cases hs : Case.hasSlot x 4 && Case.isUpperOrTitle p with
  | true =>
    rw [if_pos rfl]
    rw [Bool.and_eq_true] at hs
    cases hv : Case.getSlotValue caseExceptions.arr x 4 e2 with
    | error a => rcases hr with rfl | ⟨a, b, rfl⟩ <;> py_run [verdict, lowerTail, Names.casePropsTrie H, trie_get H, hasException_run H, isUpperOrTitle_run H, getTypeFromProps_run H, getDeltaFromProps_run H, hasSlot_run H,
      getSlotValue_run H, Names.UCASE_EXC_SHIFT H, Names.ucase_props_exceptions H, table_exceptions H, Names.UCASE_EXC_DELTA H, Names.UCASE_EXC_LOWER H,
      Names.UCASE_EXC_UPPER H, Names.UCASE_EXC_TITLE H, Names.UCASE_LOWER H, Names.UCASE_EXC_DELTA_IS_NEGATIVE H, assign.unpack, Bool.not_true, Bool.not_false,
      not_true_eq_false, Bool.and_self, Bool.true_and, Bool.false_and, Bool.and_true, Bool.and_false, Case.toLowerProps, Case.toUpperProps,
      Case.toTitleProps, Case.EXC_DELTA, Case.EXC_LOWER, Case.EXC_UPPER, Case.EXC_TITLE, Case.EXC_FULL_MAPPINGS, Case.addDelta, chr_call H, Names.UCASE_EXC_CONDITIONAL_SPECIAL H,
      Names.UCASE_EXC_FULL_MAPPINGS H, Names.UCASE_FULL_LOWER H, hs.1, hs.2, hv]
    | ok r =>
      show _ = lift ((Case.chr (Case.addDelta x c r.1)).map _)
      unfold Case.addDelta
      by_cases hn : x &&& 0x400 = 0
      · have d := decide_eq_true hn
        rw [if_pos hn]
        cases hc : Case.chr ((c : Int) + r.1) <;> rw [← Int.natCast_add] at hc <;>
          rcases hr with rfl | ⟨a, b, rfl⟩ <;> py_run [verdict, lowerTail, Names.casePropsTrie H, trie_get H, hasException_run H, isUpperOrTitle_run H, getTypeFromProps_run H, getDeltaFromProps_run H, hasSlot_run H,
      getSlotValue_run H, Names.UCASE_EXC_SHIFT H, Names.ucase_props_exceptions H, table_exceptions H, Names.UCASE_EXC_DELTA H, Names.UCASE_EXC_LOWER H,
      Names.UCASE_EXC_UPPER H, Names.UCASE_EXC_TITLE H, Names.UCASE_LOWER H, Names.UCASE_EXC_DELTA_IS_NEGATIVE H, assign.unpack, Bool.not_true, Bool.not_false,
      not_true_eq_false, Bool.and_self, Bool.true_and, Bool.false_and, Bool.and_true, Bool.and_false, Case.toLowerProps, Case.toUpperProps,
      Case.toTitleProps, Case.EXC_DELTA, Case.EXC_LOWER, Case.EXC_UPPER, Case.EXC_TITLE, Case.EXC_FULL_MAPPINGS, Case.addDelta, chr_call H, Names.UCASE_EXC_CONDITIONAL_SPECIAL H,
      Names.UCASE_EXC_FULL_MAPPINGS H, Names.UCASE_FULL_LOWER H, hs.1, hs.2, hv, d, hc]
      · have d := decide_eq_false hn
        rw [if_neg hn]
        cases hc : Case.chr ((c : Int) - r.1) <;>
          rcases hr with rfl | ⟨a, b, rfl⟩ <;> py_run [verdict, lowerTail, Names.casePropsTrie H, trie_get H, hasException_run H, isUpperOrTitle_run H, getTypeFromProps_run H, getDeltaFromProps_run H, hasSlot_run H,
      getSlotValue_run H, Names.UCASE_EXC_SHIFT H, Names.ucase_props_exceptions H, table_exceptions H, Names.UCASE_EXC_DELTA H, Names.UCASE_EXC_LOWER H,
      Names.UCASE_EXC_UPPER H, Names.UCASE_EXC_TITLE H, Names.UCASE_LOWER H, Names.UCASE_EXC_DELTA_IS_NEGATIVE H, assign.unpack, Bool.not_true, Bool.not_false,
      not_true_eq_false, Bool.and_self, Bool.true_and, Bool.false_and, Bool.and_true, Bool.and_false, Case.toLowerProps, Case.toUpperProps,
      Case.toTitleProps, Case.EXC_DELTA, Case.EXC_LOWER, Case.EXC_UPPER, Case.EXC_TITLE, Case.EXC_FULL_MAPPINGS, Case.addDelta, chr_call H, Names.UCASE_EXC_CONDITIONAL_SPECIAL H,
      Names.UCASE_EXC_FULL_MAPPINGS H, Names.UCASE_FULL_LOWER H, hs.1, hs.2, hv, d, hc]
  | false =>
    rw [if_neg (by decide)]
    cases h0 : Case.hasSlot x 0 with
    | false => rcases hr with rfl | ⟨a, b, rfl⟩ <;> py_run [verdict, lowerTail, Names.casePropsTrie H, trie_get H, hasException_run H, isUpperOrTitle_run H, getTypeFromProps_run H, getDeltaFromProps_run H, hasSlot_run H,
      getSlotValue_run H, Names.UCASE_EXC_SHIFT H, Names.ucase_props_exceptions H, table_exceptions H, Names.UCASE_EXC_DELTA H, Names.UCASE_EXC_LOWER H,
      Names.UCASE_EXC_UPPER H, Names.UCASE_EXC_TITLE H, Names.UCASE_LOWER H, Names.UCASE_EXC_DELTA_IS_NEGATIVE H, assign.unpack, Bool.not_true, Bool.not_false,
      not_true_eq_false, Bool.and_self, Bool.true_and, Bool.false_and, Bool.and_true, Bool.and_false, Case.toLowerProps, Case.toUpperProps,
      Case.toTitleProps, Case.EXC_DELTA, Case.EXC_LOWER, Case.EXC_UPPER, Case.EXC_TITLE, Case.EXC_FULL_MAPPINGS, Case.addDelta, chr_call H, Names.UCASE_EXC_CONDITIONAL_SPECIAL H,
      Names.UCASE_EXC_FULL_MAPPINGS H, Names.UCASE_FULL_LOWER H, hs, h0]
    | true =>
      rw [if_pos rfl]
      cases hv : Case.getSlotValue caseExceptions.arr x 0 e2 with
      | error a => rcases hr with rfl | ⟨a, b, rfl⟩ <;> py_run [verdict, lowerTail, Names.casePropsTrie H, trie_get H, hasException_run H, isUpperOrTitle_run H, getTypeFromProps_run H, getDeltaFromProps_run H, hasSlot_run H,
      getSlotValue_run H, Names.UCASE_EXC_SHIFT H, Names.ucase_props_exceptions H, table_exceptions H, Names.UCASE_EXC_DELTA H, Names.UCASE_EXC_LOWER H,
      Names.UCASE_EXC_UPPER H, Names.UCASE_EXC_TITLE H, Names.UCASE_LOWER H, Names.UCASE_EXC_DELTA_IS_NEGATIVE H, assign.unpack, Bool.not_true, Bool.not_false,
      not_true_eq_false, Bool.and_self, Bool.true_and, Bool.false_and, Bool.and_true, Bool.and_false, Case.toLowerProps, Case.toUpperProps,
      Case.toTitleProps, Case.EXC_DELTA, Case.EXC_LOWER, Case.EXC_UPPER, Case.EXC_TITLE, Case.EXC_FULL_MAPPINGS, Case.addDelta, chr_call H, Names.UCASE_EXC_CONDITIONAL_SPECIAL H,
      Names.UCASE_EXC_FULL_MAPPINGS H, Names.UCASE_FULL_LOWER H, hs, h0, hv]
      | ok r =>
        show _ = lift ((Case.chr r.1).map _)
        cases hc : Case.chr r.1 <;> rcases hr with rfl | ⟨a, b, rfl⟩ <;> py_run [verdict, lowerTail, Names.casePropsTrie H, trie_get H, hasException_run H, isUpperOrTitle_run H, getTypeFromProps_run H, getDeltaFromProps_run H, hasSlot_run H,
      getSlotValue_run H, Names.UCASE_EXC_SHIFT H, Names.ucase_props_exceptions H, table_exceptions H, Names.UCASE_EXC_DELTA H, Names.UCASE_EXC_LOWER H,
      Names.UCASE_EXC_UPPER H, Names.UCASE_EXC_TITLE H, Names.UCASE_LOWER H, Names.UCASE_EXC_DELTA_IS_NEGATIVE H, assign.unpack, Bool.not_true, Bool.not_false,
      not_true_eq_false, Bool.and_self, Bool.true_and, Bool.false_and, Bool.and_true, Bool.and_false, Case.toLowerProps, Case.toUpperProps,
      Case.toTitleProps, Case.EXC_DELTA, Case.EXC_LOWER, Case.EXC_UPPER, Case.EXC_TITLE, Case.EXC_FULL_MAPPINGS, Case.addDelta, chr_call H, Names.UCASE_EXC_CONDITIONAL_SPECIAL H,
      Names.UCASE_EXC_FULL_MAPPINGS H, Names.UCASE_FULL_LOWER H, hs, h0, hv, hc]

theorem toFullLower_run (c n : Nat) : call[n + 4, n% "toFullLower", .cons (.int c) .nil] = lift ((Case.toFullLower c).map .str) := by
  rw [fn_call (b := (.seq (.assign (.name (n% "result")) (.call (.name (n% "chr")) (.cons (.name (n% "c")) .nil))) (.seq (.assign (.name (n% "props")) (.call (.attr (.name (n% "casePropsTrie")) (n% "get")) (.cons (.name (n% "c")) .nil))) (.seq (.ifs (.not (.call (.name (n% "hasException")) (.cons (.name (n% "props")) .nil))) (.seq (.ifs (.call (.name (n% "isUpperOrTitle")) (.cons (.name (n% "props")) .nil)) (.seq (.ret (.call (.name (n% "chr")) (.cons (.bin .add (.name (n% "c")) (.call (.name (n% "getDeltaFromProps")) (.cons (.name (n% "props")) .nil))) .nil))) .skip) .skip) .skip) (.seq (.assign (.name (n% "exceptionIndex")) (.bin .shr (.name (n% "props")) (.name (n% "UCASE_EXC_SHIFT")))) (.seq (.assign (.name (n% "excWord")) (.index (.name (n% "ucase_props_exceptions")) (.name (n% "exceptionIndex")))) (.seq (.aug .add (.name (n% "exceptionIndex")) (.num 1)) (.seq (.assign (.name (n% "exceptionIndex2")) (.name (n% "exceptionIndex"))) (.seq (.ifs (.bin .ne (.bin .and (.name (n% "excWord")) (.name (n% "UCASE_EXC_CONDITIONAL_SPECIAL"))) (.num 0)) (.seq (.ifs (.bin .eq (.name (n% "c")) (.num 0x130)) (.seq (.ret (.str [105, 775])) .skip) .skip) .skip) (.seq (.ifs (.call (.name (n% "hasSlot")) (.cons (.name (n% "excWord")) (.cons (.name (n% "UCASE_EXC_FULL_MAPPINGS")) .nil))) (.seq (.assign (.tuple (.cons (.name (n% "full")) (.cons (.name (n% "offset")) .nil))) (.call (.name (n% "getSlotValue")) (.cons (.name (n% "excWord")) (.cons (.name (n% "UCASE_EXC_FULL_MAPPINGS")) (.cons (.name (n% "exceptionIndex")) .nil))))) (.seq (.aug .and (.name (n% "full")) (.name (n% "UCASE_FULL_LOWER"))) (.seq (.ifs (.bin .ne (.name (n% "full")) (.num 0)) (.seq (.assign (.name (n% "chars")) (.list .nil)) (.seq (.aug .add (.name (n% "exceptionIndex")) (.bin .add (.name (n% "offset")) (.num 1))) readSuite)) .skip) .skip))) .skip) .skip)) lowerTail)))))) (.seq (.ret (.name (n% "result"))) .skip))))) (Names.toFullLower H) rfl]
  have y : yields lowerTail = false := rfl
  have y' : yields readSuite = false := rfl
  unfold Case.toFullLower
  have ht := Case.trie_ok.get c
  rw [ht]
  show _ = lift ((Case.toFullLowerProps caseExceptions.arr c (Case.casePropsTrie.getv c)).map _)
  generalize Case.casePropsTrie.getv c = p at *
  unfold Case.toFullLowerProps
  cases hc : Case.chr c with
  | error a => py_run [chr_call H, hc]
  | ok result =>
  cases he : Case.hasException p
  · cases hu : Case.isUpperOrTitle p
    · py_run [Names.casePropsTrie H, trie_get H, ht, hasException_run H, he, isUpperOrTitle_run H, getTypeFromProps_run H, getDeltaFromProps_run H, hasSlot_run H,
      getSlotValue_run H, Names.UCASE_EXC_SHIFT H, Names.ucase_props_exceptions H, table_exceptions H, Names.UCASE_EXC_DELTA H, Names.UCASE_EXC_LOWER H,
      Names.UCASE_EXC_UPPER H, Names.UCASE_EXC_TITLE H, Names.UCASE_LOWER H, Names.UCASE_EXC_DELTA_IS_NEGATIVE H, assign.unpack, Bool.not_true, Bool.not_false,
      not_true_eq_false, Bool.and_self, Bool.true_and, Bool.false_and, Bool.and_true, Bool.and_false, Case.toLowerProps, Case.toUpperProps,
      Case.toTitleProps, Case.EXC_DELTA, Case.EXC_LOWER, Case.EXC_UPPER, Case.EXC_TITLE, Case.EXC_FULL_MAPPINGS, Case.addDelta, chr_call H, Names.UCASE_EXC_CONDITIONAL_SPECIAL H,
      Names.UCASE_EXC_FULL_MAPPINGS H, Names.UCASE_FULL_LOWER H, hc, hu, y, y']
    · cases hd : Case.getDeltaFromProps p with
      | error a => py_run [Names.casePropsTrie H, trie_get H, ht, hasException_run H, he, isUpperOrTitle_run H, getTypeFromProps_run H, getDeltaFromProps_run H, hasSlot_run H,
      getSlotValue_run H, Names.UCASE_EXC_SHIFT H, Names.ucase_props_exceptions H, table_exceptions H, Names.UCASE_EXC_DELTA H, Names.UCASE_EXC_LOWER H,
      Names.UCASE_EXC_UPPER H, Names.UCASE_EXC_TITLE H, Names.UCASE_LOWER H, Names.UCASE_EXC_DELTA_IS_NEGATIVE H, assign.unpack, Bool.not_true, Bool.not_false,
      not_true_eq_false, Bool.and_self, Bool.true_and, Bool.false_and, Bool.and_true, Bool.and_false, Case.toLowerProps, Case.toUpperProps,
      Case.toTitleProps, Case.EXC_DELTA, Case.EXC_LOWER, Case.EXC_UPPER, Case.EXC_TITLE, Case.EXC_FULL_MAPPINGS, Case.addDelta, chr_call H, Names.UCASE_EXC_CONDITIONAL_SPECIAL H,
      Names.UCASE_EXC_FULL_MAPPINGS H, Names.UCASE_FULL_LOWER H, hc, hu, hd, y, y']
      | ok d => cases hc' : Case.chr (c + d) <;> py_run [Names.casePropsTrie H, trie_get H, ht, hasException_run H, he, isUpperOrTitle_run H, getTypeFromProps_run H, getDeltaFromProps_run H, hasSlot_run H,
      getSlotValue_run H, Names.UCASE_EXC_SHIFT H, Names.ucase_props_exceptions H, table_exceptions H, Names.UCASE_EXC_DELTA H, Names.UCASE_EXC_LOWER H,
      Names.UCASE_EXC_UPPER H, Names.UCASE_EXC_TITLE H, Names.UCASE_LOWER H, Names.UCASE_EXC_DELTA_IS_NEGATIVE H, assign.unpack, Bool.not_true, Bool.not_false,
      not_true_eq_false, Bool.and_self, Bool.true_and, Bool.false_and, Bool.and_true, Bool.and_false, Case.toLowerProps, Case.toUpperProps,
      Case.toTitleProps, Case.EXC_DELTA, Case.EXC_LOWER, Case.EXC_UPPER, Case.EXC_TITLE, Case.EXC_FULL_MAPPINGS, Case.addDelta, chr_call H, Names.UCASE_EXC_CONDITIONAL_SPECIAL H,
      Names.UCASE_EXC_FULL_MAPPINGS H, Names.UCASE_FULL_LOWER H, hc, hu, hd, hc', y, y']
  · cases hx : caseExceptions.arr.get (p >>> 4) with
    | error a => py_run [Names.casePropsTrie H, trie_get H, ht, hasException_run H, he, isUpperOrTitle_run H, getTypeFromProps_run H, getDeltaFromProps_run H, hasSlot_run H,
      getSlotValue_run H, Names.UCASE_EXC_SHIFT H, Names.ucase_props_exceptions H, table_exceptions H, Names.UCASE_EXC_DELTA H, Names.UCASE_EXC_LOWER H,
      Names.UCASE_EXC_UPPER H, Names.UCASE_EXC_TITLE H, Names.UCASE_LOWER H, Names.UCASE_EXC_DELTA_IS_NEGATIVE H, assign.unpack, Bool.not_true, Bool.not_false,
      not_true_eq_false, Bool.and_self, Bool.true_and, Bool.false_and, Bool.and_true, Bool.and_false, Case.toLowerProps, Case.toUpperProps,
      Case.toTitleProps, Case.EXC_DELTA, Case.EXC_LOWER, Case.EXC_UPPER, Case.EXC_TITLE, Case.EXC_FULL_MAPPINGS, Case.addDelta, chr_call H, Names.UCASE_EXC_CONDITIONAL_SPECIAL H,
      Names.UCASE_EXC_FULL_MAPPINGS H, Names.UCASE_FULL_LOWER H, hc, hx, y, y']
    | ok x =>
    have tail := fun e rest hr => verdict_cases (lowerTail_run H c p e x (p >>> 4 + 1) (n + 3) (n + 1) result rest hr)
    unfold tailVars at tail
    by_cases h1 : x &&& 0x4000 = 0
    · have d1 := decide_eq_true h1
      cases h7 : Case.hasSlot x 7
      · rcases tail (p >>> 4 + 1) [] (.inl rfl) with ⟨a, hf, t⟩ | ⟨s, st, hf, t⟩ | ⟨s, st, hf, t, g⟩
        · py_run [Names.casePropsTrie H, trie_get H, ht, hasException_run H, he, isUpperOrTitle_run H, getTypeFromProps_run H, getDeltaFromProps_run H, hasSlot_run H,
      getSlotValue_run H, Names.UCASE_EXC_SHIFT H, Names.ucase_props_exceptions H, table_exceptions H, Names.UCASE_EXC_DELTA H, Names.UCASE_EXC_LOWER H,
      Names.UCASE_EXC_UPPER H, Names.UCASE_EXC_TITLE H, Names.UCASE_LOWER H, Names.UCASE_EXC_DELTA_IS_NEGATIVE H, assign.unpack, Bool.not_true, Bool.not_false,
      not_true_eq_false, Bool.and_self, Bool.true_and, Bool.false_and, Bool.and_true, Bool.and_false, Case.toLowerProps, Case.toUpperProps,
      Case.toTitleProps, Case.EXC_DELTA, Case.EXC_LOWER, Case.EXC_UPPER, Case.EXC_TITLE, Case.EXC_FULL_MAPPINGS, Case.addDelta, chr_call H, Names.UCASE_EXC_CONDITIONAL_SPECIAL H,
      Names.UCASE_EXC_FULL_MAPPINGS H, Names.UCASE_FULL_LOWER H, hc, hx, y, y', d1, if_neg (not_not_intro h1), h7, hf, t]
        · py_run [Names.casePropsTrie H, trie_get H, ht, hasException_run H, he, isUpperOrTitle_run H, getTypeFromProps_run H, getDeltaFromProps_run H, hasSlot_run H,
      getSlotValue_run H, Names.UCASE_EXC_SHIFT H, Names.ucase_props_exceptions H, table_exceptions H, Names.UCASE_EXC_DELTA H, Names.UCASE_EXC_LOWER H,
      Names.UCASE_EXC_UPPER H, Names.UCASE_EXC_TITLE H, Names.UCASE_LOWER H, Names.UCASE_EXC_DELTA_IS_NEGATIVE H, assign.unpack, Bool.not_true, Bool.not_false,
      not_true_eq_false, Bool.and_self, Bool.true_and, Bool.false_and, Bool.and_true, Bool.and_false, Case.toLowerProps, Case.toUpperProps,
      Case.toTitleProps, Case.EXC_DELTA, Case.EXC_LOWER, Case.EXC_UPPER, Case.EXC_TITLE, Case.EXC_FULL_MAPPINGS, Case.addDelta, chr_call H, Names.UCASE_EXC_CONDITIONAL_SPECIAL H,
      Names.UCASE_EXC_FULL_MAPPINGS H, Names.UCASE_FULL_LOWER H, hc, hx, y, y', d1, if_neg (not_not_intro h1), h7, hf, t]
        · py_run [Names.casePropsTrie H, trie_get H, ht, hasException_run H, he, isUpperOrTitle_run H, getTypeFromProps_run H, getDeltaFromProps_run H, hasSlot_run H,
      getSlotValue_run H, Names.UCASE_EXC_SHIFT H, Names.ucase_props_exceptions H, table_exceptions H, Names.UCASE_EXC_DELTA H, Names.UCASE_EXC_LOWER H,
      Names.UCASE_EXC_UPPER H, Names.UCASE_EXC_TITLE H, Names.UCASE_LOWER H, Names.UCASE_EXC_DELTA_IS_NEGATIVE H, assign.unpack, Bool.not_true, Bool.not_false,
      not_true_eq_false, Bool.and_self, Bool.true_and, Bool.false_and, Bool.and_true, Bool.and_false, Case.toLowerProps, Case.toUpperProps,
      Case.toTitleProps, Case.EXC_DELTA, Case.EXC_LOWER, Case.EXC_UPPER, Case.EXC_TITLE, Case.EXC_FULL_MAPPINGS, Case.addDelta, chr_call H, Names.UCASE_EXC_CONDITIONAL_SPECIAL H,
      Names.UCASE_EXC_FULL_MAPPINGS H, Names.UCASE_FULL_LOWER H, hc, hx, y, y', d1, if_neg (not_not_intro h1), h7, hf, t, g]
      · cases hv : Case.getSlotValue caseExceptions.arr x 7 (p >>> 4 + 1) with
        | error a => py_run [Names.casePropsTrie H, trie_get H, ht, hasException_run H, he, isUpperOrTitle_run H, getTypeFromProps_run H, getDeltaFromProps_run H, hasSlot_run H,
      getSlotValue_run H, Names.UCASE_EXC_SHIFT H, Names.ucase_props_exceptions H, table_exceptions H, Names.UCASE_EXC_DELTA H, Names.UCASE_EXC_LOWER H,
      Names.UCASE_EXC_UPPER H, Names.UCASE_EXC_TITLE H, Names.UCASE_LOWER H, Names.UCASE_EXC_DELTA_IS_NEGATIVE H, assign.unpack, Bool.not_true, Bool.not_false,
      not_true_eq_false, Bool.and_self, Bool.true_and, Bool.false_and, Bool.and_true, Bool.and_false, Case.toLowerProps, Case.toUpperProps,
      Case.toTitleProps, Case.EXC_DELTA, Case.EXC_LOWER, Case.EXC_UPPER, Case.EXC_TITLE, Case.EXC_FULL_MAPPINGS, Case.addDelta, chr_call H, Names.UCASE_EXC_CONDITIONAL_SPECIAL H,
      Names.UCASE_EXC_FULL_MAPPINGS H, Names.UCASE_FULL_LOWER H, hc, hx, y, y', d1, if_neg (not_not_intro h1), h7, hv]
        | ok r =>
          by_cases hz : r.1 &&& 0xf = 0
          · have z := decide_eq_true hz
            rcases tail (p >>> 4 + 1) [(n% "full", .int (r.1 &&& 0xf : Nat)), (n% "offset", .int r.2)] (.inr ⟨_, _, rfl⟩) with ⟨a, hf, t⟩ | ⟨s, st, hf, t⟩ | ⟨s, st, hf, t, g⟩
            · py_run [Names.casePropsTrie H, trie_get H, ht, hasException_run H, he, isUpperOrTitle_run H, getTypeFromProps_run H, getDeltaFromProps_run H, hasSlot_run H,
      getSlotValue_run H, Names.UCASE_EXC_SHIFT H, Names.ucase_props_exceptions H, table_exceptions H, Names.UCASE_EXC_DELTA H, Names.UCASE_EXC_LOWER H,
      Names.UCASE_EXC_UPPER H, Names.UCASE_EXC_TITLE H, Names.UCASE_LOWER H, Names.UCASE_EXC_DELTA_IS_NEGATIVE H, assign.unpack, Bool.not_true, Bool.not_false,
      not_true_eq_false, Bool.and_self, Bool.true_and, Bool.false_and, Bool.and_true, Bool.and_false, Case.toLowerProps, Case.toUpperProps,
      Case.toTitleProps, Case.EXC_DELTA, Case.EXC_LOWER, Case.EXC_UPPER, Case.EXC_TITLE, Case.EXC_FULL_MAPPINGS, Case.addDelta, chr_call H, Names.UCASE_EXC_CONDITIONAL_SPECIAL H,
      Names.UCASE_EXC_FULL_MAPPINGS H, Names.UCASE_FULL_LOWER H, hc, hx, y, y', d1, if_neg (not_not_intro h1), h7, hv, z, if_neg (not_not_intro hz), hf, t]
            · py_run [Names.casePropsTrie H, trie_get H, ht, hasException_run H, he, isUpperOrTitle_run H, getTypeFromProps_run H, getDeltaFromProps_run H, hasSlot_run H,
      getSlotValue_run H, Names.UCASE_EXC_SHIFT H, Names.ucase_props_exceptions H, table_exceptions H, Names.UCASE_EXC_DELTA H, Names.UCASE_EXC_LOWER H,
      Names.UCASE_EXC_UPPER H, Names.UCASE_EXC_TITLE H, Names.UCASE_LOWER H, Names.UCASE_EXC_DELTA_IS_NEGATIVE H, assign.unpack, Bool.not_true, Bool.not_false,
      not_true_eq_false, Bool.and_self, Bool.true_and, Bool.false_and, Bool.and_true, Bool.and_false, Case.toLowerProps, Case.toUpperProps,
      Case.toTitleProps, Case.EXC_DELTA, Case.EXC_LOWER, Case.EXC_UPPER, Case.EXC_TITLE, Case.EXC_FULL_MAPPINGS, Case.addDelta, chr_call H, Names.UCASE_EXC_CONDITIONAL_SPECIAL H,
      Names.UCASE_EXC_FULL_MAPPINGS H, Names.UCASE_FULL_LOWER H, hc, hx, y, y', d1, if_neg (not_not_intro h1), h7, hv, z, if_neg (not_not_intro hz), hf, t]
            · py_run [Names.casePropsTrie H, trie_get H, ht, hasException_run H, he, isUpperOrTitle_run H, getTypeFromProps_run H, getDeltaFromProps_run H, hasSlot_run H,
      getSlotValue_run H, Names.UCASE_EXC_SHIFT H, Names.ucase_props_exceptions H, table_exceptions H, Names.UCASE_EXC_DELTA H, Names.UCASE_EXC_LOWER H,
      Names.UCASE_EXC_UPPER H, Names.UCASE_EXC_TITLE H, Names.UCASE_LOWER H, Names.UCASE_EXC_DELTA_IS_NEGATIVE H, assign.unpack, Bool.not_true, Bool.not_false,
      not_true_eq_false, Bool.and_self, Bool.true_and, Bool.false_and, Bool.and_true, Bool.and_false, Case.toLowerProps, Case.toUpperProps,
      Case.toTitleProps, Case.EXC_DELTA, Case.EXC_LOWER, Case.EXC_UPPER, Case.EXC_TITLE, Case.EXC_FULL_MAPPINGS, Case.addDelta, chr_call H, Names.UCASE_EXC_CONDITIONAL_SPECIAL H,
      Names.UCASE_EXC_FULL_MAPPINGS H, Names.UCASE_FULL_LOWER H, hc, hx, y, y', d1, if_neg (not_not_intro h1), h7, hv, z, if_neg (not_not_intro hz), hf, t, g]
          · have z := decide_eq_false hz
            have rd := read_run H (call := run w (n + 3)) (fuel := n + 3) (e := p >>> 4 + 1 + (r.2 + 1)) (k := r.1 &&& 0xf)
              (env := [(n% "c", .int c), (n% "result", .str result), (n% "props", .int p), (n% "exceptionIndex", .int (p >>> 4 + 1 + (r.2 + 1) : Nat)),
                (n% "excWord", .int x), (n% "exceptionIndex2", .int (p >>> 4 + 1 : Nat)), (n% "full", .int (r.1 &&& 0xf : Nat)),
                (n% "offset", .int r.2), (n% "chars", .list .nil)]) ⟨rfl, rfl, rfl, rfl⟩ rfl rfl
            rw [← Nat.add_assoc] at rd
            unfold Returns at rd
            cases hr : Case.readChars caseExceptions.arr (r.1 &&& 0xf) (p >>> 4 + 1 + r.2 + 1) with
            | error a =>
              rw [hr] at rd
              dsimp only at rd
              rw [Nat.add_assoc _ r.2] at rd
              py_run [Names.casePropsTrie H, trie_get H, ht, hasException_run H, he, isUpperOrTitle_run H, getTypeFromProps_run H, getDeltaFromProps_run H, hasSlot_run H,
      getSlotValue_run H, Names.UCASE_EXC_SHIFT H, Names.ucase_props_exceptions H, table_exceptions H, Names.UCASE_EXC_DELTA H, Names.UCASE_EXC_LOWER H,
      Names.UCASE_EXC_UPPER H, Names.UCASE_EXC_TITLE H, Names.UCASE_LOWER H, Names.UCASE_EXC_DELTA_IS_NEGATIVE H, assign.unpack, Bool.not_true, Bool.not_false,
      not_true_eq_false, Bool.and_self, Bool.true_and, Bool.false_and, Bool.and_true, Bool.and_false, Case.toLowerProps, Case.toUpperProps,
      Case.toTitleProps, Case.EXC_DELTA, Case.EXC_LOWER, Case.EXC_UPPER, Case.EXC_TITLE, Case.EXC_FULL_MAPPINGS, Case.addDelta, chr_call H, Names.UCASE_EXC_CONDITIONAL_SPECIAL H,
      Names.UCASE_EXC_FULL_MAPPINGS H, Names.UCASE_FULL_LOWER H, hc, hx, y, y', d1, if_neg (not_not_intro h1), h7, hv, z, if_pos hz, hr, rd]
            | ok t =>
              rw [hr] at rd
              obtain ⟨st, rd⟩ := rd
              rw [Nat.add_assoc _ r.2] at rd
              py_run [Names.casePropsTrie H, trie_get H, ht, hasException_run H, he, isUpperOrTitle_run H, getTypeFromProps_run H, getDeltaFromProps_run H, hasSlot_run H,
      getSlotValue_run H, Names.UCASE_EXC_SHIFT H, Names.ucase_props_exceptions H, table_exceptions H, Names.UCASE_EXC_DELTA H, Names.UCASE_EXC_LOWER H,
      Names.UCASE_EXC_UPPER H, Names.UCASE_EXC_TITLE H, Names.UCASE_LOWER H, Names.UCASE_EXC_DELTA_IS_NEGATIVE H, assign.unpack, Bool.not_true, Bool.not_false,
      not_true_eq_false, Bool.and_self, Bool.true_and, Bool.false_and, Bool.and_true, Bool.and_false, Case.toLowerProps, Case.toUpperProps,
      Case.toTitleProps, Case.EXC_DELTA, Case.EXC_LOWER, Case.EXC_UPPER, Case.EXC_TITLE, Case.EXC_FULL_MAPPINGS, Case.addDelta, chr_call H, Names.UCASE_EXC_CONDITIONAL_SPECIAL H,
      Names.UCASE_EXC_FULL_MAPPINGS H, Names.UCASE_FULL_LOWER H, hc, hx, y, y', d1, if_neg (not_not_intro h1), h7, hv, z, if_pos hz, hr, rd]
    · have d1 := decide_eq_false h1
      by_cases h2 : c = 0x130
      · have d2 := decide_eq_true h2
        py_run [Names.casePropsTrie H, trie_get H, ht, hasException_run H, he, isUpperOrTitle_run H, getTypeFromProps_run H, getDeltaFromProps_run H, hasSlot_run H,
      getSlotValue_run H, Names.UCASE_EXC_SHIFT H, Names.ucase_props_exceptions H, table_exceptions H, Names.UCASE_EXC_DELTA H, Names.UCASE_EXC_LOWER H,
      Names.UCASE_EXC_UPPER H, Names.UCASE_EXC_TITLE H, Names.UCASE_LOWER H, Names.UCASE_EXC_DELTA_IS_NEGATIVE H, assign.unpack, Bool.not_true, Bool.not_false,
      not_true_eq_false, Bool.and_self, Bool.true_and, Bool.false_and, Bool.and_true, Bool.and_false, Case.toLowerProps, Case.toUpperProps,
      Case.toTitleProps, Case.EXC_DELTA, Case.EXC_LOWER, Case.EXC_UPPER, Case.EXC_TITLE, Case.EXC_FULL_MAPPINGS, Case.addDelta, chr_call H, Names.UCASE_EXC_CONDITIONAL_SPECIAL H,
      Names.UCASE_EXC_FULL_MAPPINGS H, Names.UCASE_FULL_LOWER H, hc, hx, y, y', d1, d2, if_pos h1, if_pos h2]
      · have d2 := decide_eq_false h2
        rcases tail (p >>> 4 + 1) [] (.inl rfl) with ⟨a, hf, t⟩ | ⟨s, st, hf, t⟩ | ⟨s, st, hf, t, g⟩
        · py_run [Names.casePropsTrie H, trie_get H, ht, hasException_run H, he, isUpperOrTitle_run H, getTypeFromProps_run H, getDeltaFromProps_run H, hasSlot_run H,
      getSlotValue_run H, Names.UCASE_EXC_SHIFT H, Names.ucase_props_exceptions H, table_exceptions H, Names.UCASE_EXC_DELTA H, Names.UCASE_EXC_LOWER H,
      Names.UCASE_EXC_UPPER H, Names.UCASE_EXC_TITLE H, Names.UCASE_LOWER H, Names.UCASE_EXC_DELTA_IS_NEGATIVE H, assign.unpack, Bool.not_true, Bool.not_false,
      not_true_eq_false, Bool.and_self, Bool.true_and, Bool.false_and, Bool.and_true, Bool.and_false, Case.toLowerProps, Case.toUpperProps,
      Case.toTitleProps, Case.EXC_DELTA, Case.EXC_LOWER, Case.EXC_UPPER, Case.EXC_TITLE, Case.EXC_FULL_MAPPINGS, Case.addDelta, chr_call H, Names.UCASE_EXC_CONDITIONAL_SPECIAL H,
      Names.UCASE_EXC_FULL_MAPPINGS H, Names.UCASE_FULL_LOWER H, hc, hx, y, y', d1, d2, if_pos h1, if_neg h2, hf, t]
        · py_run [Names.casePropsTrie H, trie_get H, ht, hasException_run H, he, isUpperOrTitle_run H, getTypeFromProps_run H, getDeltaFromProps_run H, hasSlot_run H,
      getSlotValue_run H, Names.UCASE_EXC_SHIFT H, Names.ucase_props_exceptions H, table_exceptions H, Names.UCASE_EXC_DELTA H, Names.UCASE_EXC_LOWER H,
      Names.UCASE_EXC_UPPER H, Names.UCASE_EXC_TITLE H, Names.UCASE_LOWER H, Names.UCASE_EXC_DELTA_IS_NEGATIVE H, assign.unpack, Bool.not_true, Bool.not_false,
      not_true_eq_false, Bool.and_self, Bool.true_and, Bool.false_and, Bool.and_true, Bool.and_false, Case.toLowerProps, Case.toUpperProps,
      Case.toTitleProps, Case.EXC_DELTA, Case.EXC_LOWER, Case.EXC_UPPER, Case.EXC_TITLE, Case.EXC_FULL_MAPPINGS, Case.addDelta, chr_call H, Names.UCASE_EXC_CONDITIONAL_SPECIAL H,
      Names.UCASE_EXC_FULL_MAPPINGS H, Names.UCASE_FULL_LOWER H, hc, hx, y, y', d1, d2, if_pos h1, if_neg h2, hf, t]
        · py_run [Names.casePropsTrie H, trie_get H, ht, hasException_run H, he, isUpperOrTitle_run H, getTypeFromProps_run H, getDeltaFromProps_run H, hasSlot_run H,
      getSlotValue_run H, Names.UCASE_EXC_SHIFT H, Names.ucase_props_exceptions H, table_exceptions H, Names.UCASE_EXC_DELTA H, Names.UCASE_EXC_LOWER H,
      Names.UCASE_EXC_UPPER H, Names.UCASE_EXC_TITLE H, Names.UCASE_LOWER H, Names.UCASE_EXC_DELTA_IS_NEGATIVE H, assign.unpack, Bool.not_true, Bool.not_false,
      not_true_eq_false, Bool.and_self, Bool.true_and, Bool.false_and, Bool.and_true, Bool.and_false, Case.toLowerProps, Case.toUpperProps,
      Case.toTitleProps, Case.EXC_DELTA, Case.EXC_LOWER, Case.EXC_UPPER, Case.EXC_TITLE, Case.EXC_FULL_MAPPINGS, Case.addDelta, chr_call H, Names.UCASE_EXC_CONDITIONAL_SPECIAL H,
      Names.UCASE_EXC_FULL_MAPPINGS H, Names.UCASE_FULL_LOWER H, hc, hx, y, y', d1, d2, if_pos h1, if_neg h2, hf, t, g]

/-- CaseProps.py:291-303 -/
def upperTail : Stmt := (.seq (.ifs (.and (.call (.name (n% "hasSlot")) (.cons (.name (n% "excWord")) (.cons (.name (n% "UCASE_EXC_DELTA")) .nil))) (.bin .eq (.call (.name (n% "getTypeFromProps")) (.cons (.name (n% "props")) .nil)) (.name (n% "UCASE_LOWER")))) (.seq (.assign (.tuple (.cons (.name (n% "delta")) (.cons (.name (n% "_")) .nil))) (.call (.name (n% "getSlotValue")) (.cons (.name (n% "excWord")) (.cons (.name (n% "UCASE_EXC_DELTA")) (.cons (.name (n% "exceptionIndex2")) .nil))))) (.seq (.ret (.call (.name (n% "chr")) (.cons (.cond (.bin .eq (.bin .and (.name (n% "excWord")) (.name (n% "UCASE_EXC_DELTA_IS_NEGATIVE"))) (.num 0)) (.bin .add (.name (n% "c")) (.name (n% "delta"))) (.bin .sub (.name (n% "c")) (.name (n% "delta")))) .nil))) .skip)) .skip) (.seq (.ifs (.and (.not (.name (n% "upperNotTitle"))) (.call (.name (n% "hasSlot")) (.cons (.name (n% "excWord")) (.cons (.name (n% "UCASE_EXC_TITLE")) .nil)))) (.seq (.assign (.name (n% "idx")) (.name (n% "UCASE_EXC_TITLE"))) .skip) (.seq (.ifs (.call (.name (n% "hasSlot")) (.cons (.name (n% "excWord")) (.cons (.name (n% "UCASE_EXC_UPPER")) .nil))) (.seq (.assign (.name (n% "idx")) (.name (n% "UCASE_EXC_UPPER"))) .skip) (.seq (.ret (.name (n% "result"))) .skip)) .skip)) (.seq (.assign (.tuple (.cons (.name (n% "ch")) (.cons (.name (n% "_")) .nil))) (.call (.name (n% "getSlotValue")) (.cons (.name (n% "excWord")) (.cons (.name (n% "idx")) (.cons (.name (n% "exceptionIndex2")) .nil))))) (.seq (.ret (.call (.name (n% "chr")) (.cons (.name (n% "ch")) .nil))) .skip))))

/-- The variables before the last part. -/
def upperVars (c p e x e2 : Nat) (b : Bool) (result : Str) (rest : Env) : Env :=
  (n% "c", .int c) :: (n% "upperNotTitle", .bool b) :: (n% "result", .str result) :: (n% "props", .int p) :: (n% "exceptionIndex", .int e) ::
    (n% "excWord", .int x) :: (n% "exceptionIndex2", .int e2) :: rest

theorem upperTail_run (c p e x e2 fuel n : Nat) (b : Bool) (result : Str) (rest : Env) (hr : Rest rest) :
    verdict (exec w (run w (n + 2)) fuel (n% "CaseProps") upperTail (upperVars c p e x e2 b result rest, [])) =
      lift ((Case.fullUpperTail caseExceptions.arr c p x e2 b result).map .str) := by
  unfold Case.fullUpperTail upperVars Case.EXC_DELTA Case.EXC_TITLE Case.EXC_UPPER
  cases hs : Case.hasSlot x 4 && decide (Case.getTypeFromProps p = 1) with
  | true =>
    rw [if_pos rfl]
    rw [Bool.and_eq_true] at hs
    cases hv : Case.getSlotValue caseExceptions.arr x 4 e2 with
    | error a => rcases hr with rfl | ⟨a, b, rfl⟩ <;> py_run [verdict, upperTail, Names.casePropsTrie H, trie_get H, hasException_run H, isUpperOrTitle_run H, getTypeFromProps_run H, getDeltaFromProps_run H, hasSlot_run H,
      getSlotValue_run H, Names.UCASE_EXC_SHIFT H, Names.ucase_props_exceptions H, table_exceptions H, Names.UCASE_EXC_DELTA H, Names.UCASE_EXC_LOWER H,
      Names.UCASE_EXC_UPPER H, Names.UCASE_EXC_TITLE H, Names.UCASE_LOWER H, Names.UCASE_EXC_DELTA_IS_NEGATIVE H, assign.unpack, Bool.not_true, Bool.not_false,
      not_true_eq_false, Bool.and_self, Bool.true_and, Bool.false_and, Bool.and_true, Bool.and_false, Case.toLowerProps, Case.toUpperProps,
      Case.toTitleProps, Case.EXC_DELTA, Case.EXC_LOWER, Case.EXC_UPPER, Case.EXC_TITLE, Case.EXC_FULL_MAPPINGS, Case.addDelta, chr_call H, Names.UCASE_EXC_CONDITIONAL_SPECIAL H,
      Names.UCASE_EXC_FULL_MAPPINGS H, Names.UCASE_FULL_LOWER H, hs.1, hs.2, hv]
    | ok r =>
      show _ = lift ((Case.chr (Case.addDelta x c r.1)).map _)
      unfold Case.addDelta
      by_cases hn : x &&& 0x400 = 0
      · have d := decide_eq_true hn
        rw [if_pos hn]
        cases hc : Case.chr ((c : Int) + r.1) <;> rw [← Int.natCast_add] at hc <;>
          rcases hr with rfl | ⟨a, b, rfl⟩ <;> py_run [verdict, upperTail, Names.casePropsTrie H, trie_get H, hasException_run H, isUpperOrTitle_run H, getTypeFromProps_run H, getDeltaFromProps_run H, hasSlot_run H,
      getSlotValue_run H, Names.UCASE_EXC_SHIFT H, Names.ucase_props_exceptions H, table_exceptions H, Names.UCASE_EXC_DELTA H, Names.UCASE_EXC_LOWER H,
      Names.UCASE_EXC_UPPER H, Names.UCASE_EXC_TITLE H, Names.UCASE_LOWER H, Names.UCASE_EXC_DELTA_IS_NEGATIVE H, assign.unpack, Bool.not_true, Bool.not_false,
      not_true_eq_false, Bool.and_self, Bool.true_and, Bool.false_and, Bool.and_true, Bool.and_false, Case.toLowerProps, Case.toUpperProps,
      Case.toTitleProps, Case.EXC_DELTA, Case.EXC_LOWER, Case.EXC_UPPER, Case.EXC_TITLE, Case.EXC_FULL_MAPPINGS, Case.addDelta, chr_call H, Names.UCASE_EXC_CONDITIONAL_SPECIAL H,
      Names.UCASE_EXC_FULL_MAPPINGS H, Names.UCASE_FULL_LOWER H, hs.1, hs.2, hv, d, hc]
      · have d := decide_eq_false hn
        rw [if_neg hn]
        cases hc : Case.chr ((c : Int) - r.1) <;>
          rcases hr with rfl | ⟨a, b, rfl⟩ <;> py_run [verdict, upperTail, Names.casePropsTrie H, trie_get H, hasException_run H, isUpperOrTitle_run H, getTypeFromProps_run H, getDeltaFromProps_run H, hasSlot_run H,
      getSlotValue_run H, Names.UCASE_EXC_SHIFT H, Names.ucase_props_exceptions H, table_exceptions H, Names.UCASE_EXC_DELTA H, Names.UCASE_EXC_LOWER H,
      Names.UCASE_EXC_UPPER H, Names.UCASE_EXC_TITLE H, Names.UCASE_LOWER H, Names.UCASE_EXC_DELTA_IS_NEGATIVE H, assign.unpack, Bool.not_true, Bool.not_false,
      not_true_eq_false, Bool.and_self, Bool.true_and, Bool.false_and, Bool.and_true, Bool.and_false, Case.toLowerProps, Case.toUpperProps,
      Case.toTitleProps, Case.EXC_DELTA, Case.EXC_LOWER, Case.EXC_UPPER, Case.EXC_TITLE, Case.EXC_FULL_MAPPINGS, Case.addDelta, chr_call H, Names.UCASE_EXC_CONDITIONAL_SPECIAL H,
      Names.UCASE_EXC_FULL_MAPPINGS H, Names.UCASE_FULL_LOWER H, hs.1, hs.2, hv, d, hc]
  | false =>
    rw [if_neg (by decide)]
    cases h3 : !b && Case.hasSlot x 3 with
    | true =>
      rw [if_pos rfl]
      cases hv : Case.getSlotValue caseExceptions.arr x 3 e2 with
      | error a => rcases hr with rfl | ⟨a, b, rfl⟩ <;> py_run [verdict, upperTail, Names.casePropsTrie H, trie_get H, hasException_run H, isUpperOrTitle_run H, getTypeFromProps_run H, getDeltaFromProps_run H, hasSlot_run H,
      getSlotValue_run H, Names.UCASE_EXC_SHIFT H, Names.ucase_props_exceptions H, table_exceptions H, Names.UCASE_EXC_DELTA H, Names.UCASE_EXC_LOWER H,
      Names.UCASE_EXC_UPPER H, Names.UCASE_EXC_TITLE H, Names.UCASE_LOWER H, Names.UCASE_EXC_DELTA_IS_NEGATIVE H, assign.unpack, Bool.not_true, Bool.not_false,
      not_true_eq_false, Bool.and_self, Bool.true_and, Bool.false_and, Bool.and_true, Bool.and_false, Case.toLowerProps, Case.toUpperProps,
      Case.toTitleProps, Case.EXC_DELTA, Case.EXC_LOWER, Case.EXC_UPPER, Case.EXC_TITLE, Case.EXC_FULL_MAPPINGS, Case.addDelta, chr_call H, Names.UCASE_EXC_CONDITIONAL_SPECIAL H,
      Names.UCASE_EXC_FULL_MAPPINGS H, Names.UCASE_FULL_LOWER H, hs, h3, hv]
      | ok r =>
        show _ = lift ((Case.chr r.1).map _)
        cases hc : Case.chr r.1 <;> rcases hr with rfl | ⟨a, b, rfl⟩ <;> py_run [verdict, upperTail, Names.casePropsTrie H, trie_get H, hasException_run H, isUpperOrTitle_run H, getTypeFromProps_run H, getDeltaFromProps_run H, hasSlot_run H,
      getSlotValue_run H, Names.UCASE_EXC_SHIFT H, Names.ucase_props_exceptions H, table_exceptions H, Names.UCASE_EXC_DELTA H, Names.UCASE_EXC_LOWER H,
      Names.UCASE_EXC_UPPER H, Names.UCASE_EXC_TITLE H, Names.UCASE_LOWER H, Names.UCASE_EXC_DELTA_IS_NEGATIVE H, assign.unpack, Bool.not_true, Bool.not_false,
      not_true_eq_false, Bool.and_self, Bool.true_and, Bool.false_and, Bool.and_true, Bool.and_false, Case.toLowerProps, Case.toUpperProps,
      Case.toTitleProps, Case.EXC_DELTA, Case.EXC_LOWER, Case.EXC_UPPER, Case.EXC_TITLE, Case.EXC_FULL_MAPPINGS, Case.addDelta, chr_call H, Names.UCASE_EXC_CONDITIONAL_SPECIAL H,
      Names.UCASE_EXC_FULL_MAPPINGS H, Names.UCASE_FULL_LOWER H, hs, h3, hv, hc]
    | false =>
      rw [if_neg (by decide)]
      cases h2 : Case.hasSlot x 2 with
      | false => rcases hr with rfl | ⟨a, b, rfl⟩ <;> py_run [verdict, upperTail, Names.casePropsTrie H, trie_get H, hasException_run H, isUpperOrTitle_run H, getTypeFromProps_run H, getDeltaFromProps_run H, hasSlot_run H,
      getSlotValue_run H, Names.UCASE_EXC_SHIFT H, Names.ucase_props_exceptions H, table_exceptions H, Names.UCASE_EXC_DELTA H, Names.UCASE_EXC_LOWER H,
      Names.UCASE_EXC_UPPER H, Names.UCASE_EXC_TITLE H, Names.UCASE_LOWER H, Names.UCASE_EXC_DELTA_IS_NEGATIVE H, assign.unpack, Bool.not_true, Bool.not_false,
      not_true_eq_false, Bool.and_self, Bool.true_and, Bool.false_and, Bool.and_true, Bool.and_false, Case.toLowerProps, Case.toUpperProps,
      Case.toTitleProps, Case.EXC_DELTA, Case.EXC_LOWER, Case.EXC_UPPER, Case.EXC_TITLE, Case.EXC_FULL_MAPPINGS, Case.addDelta, chr_call H, Names.UCASE_EXC_CONDITIONAL_SPECIAL H,
      Names.UCASE_EXC_FULL_MAPPINGS H, Names.UCASE_FULL_LOWER H, hs, h3, h2]
      | true =>
        rw [if_pos rfl]
        cases hv : Case.getSlotValue caseExceptions.arr x 2 e2 with
        | error a => rcases hr with rfl | ⟨a, b, rfl⟩ <;> py_run [verdict, upperTail, Names.casePropsTrie H, trie_get H, hasException_run H, isUpperOrTitle_run H, getTypeFromProps_run H, getDeltaFromProps_run H, hasSlot_run H,
      getSlotValue_run H, Names.UCASE_EXC_SHIFT H, Names.ucase_props_exceptions H, table_exceptions H, Names.UCASE_EXC_DELTA H, Names.UCASE_EXC_LOWER H,
      Names.UCASE_EXC_UPPER H, Names.UCASE_EXC_TITLE H, Names.UCASE_LOWER H, Names.UCASE_EXC_DELTA_IS_NEGATIVE H, assign.unpack, Bool.not_true, Bool.not_false,
      not_true_eq_false, Bool.and_self, Bool.true_and, Bool.false_and, Bool.and_true, Bool.and_false, Case.toLowerProps, Case.toUpperProps,
      Case.toTitleProps, Case.EXC_DELTA, Case.EXC_LOWER, Case.EXC_UPPER, Case.EXC_TITLE, Case.EXC_FULL_MAPPINGS, Case.addDelta, chr_call H, Names.UCASE_EXC_CONDITIONAL_SPECIAL H,
      Names.UCASE_EXC_FULL_MAPPINGS H, Names.UCASE_FULL_LOWER H, hs, h3, h2, hv]
        | ok r =>
          show _ = lift ((Case.chr r.1).map _)
          cases hc : Case.chr r.1 <;> rcases hr with rfl | ⟨a, b, rfl⟩ <;> py_run [verdict, upperTail, Names.casePropsTrie H, trie_get H, hasException_run H, isUpperOrTitle_run H, getTypeFromProps_run H, getDeltaFromProps_run H, hasSlot_run H,
      getSlotValue_run H, Names.UCASE_EXC_SHIFT H, Names.ucase_props_exceptions H, table_exceptions H, Names.UCASE_EXC_DELTA H, Names.UCASE_EXC_LOWER H,
      Names.UCASE_EXC_UPPER H, Names.UCASE_EXC_TITLE H, Names.UCASE_LOWER H, Names.UCASE_EXC_DELTA_IS_NEGATIVE H, assign.unpack, Bool.not_true, Bool.not_false,
      not_true_eq_false, Bool.and_self, Bool.true_and, Bool.false_and, Bool.and_true, Bool.and_false, Case.toLowerProps, Case.toUpperProps,
      Case.toTitleProps, Case.EXC_DELTA, Case.EXC_LOWER, Case.EXC_UPPER, Case.EXC_TITLE, Case.EXC_FULL_MAPPINGS, Case.addDelta, chr_call H, Names.UCASE_EXC_CONDITIONAL_SPECIAL H,
      Names.UCASE_EXC_FULL_MAPPINGS H, Names.UCASE_FULL_LOWER H, hs, h3, h2, hv, hc]

theorem toUpperOrTitle_run (c : Nat) (b : Bool) (n : Nat) : call[n + 4, n% "toUpperOrTitle", .cons (.int c) (.cons (.bool b) .nil)] =
    lift ((Case.toUpperOrTitle c b).map .str) := by
  rw [fn_call (b := (.seq (.assign (.name (n% "result")) (.call (.name (n% "chr")) (.cons (.name (n% "c")) .nil))) (.seq (.assign (.name (n% "props")) (.call (.attr (.name (n% "casePropsTrie")) (n% "get")) (.cons (.name (n% "c")) .nil))) (.seq (.ifs (.not (.call (.name (n% "hasException")) (.cons (.name (n% "props")) .nil))) (.seq (.ifs (.bin .eq (.call (.name (n% "getTypeFromProps")) (.cons (.name (n% "props")) .nil)) (.name (n% "UCASE_LOWER"))) (.seq (.assign (.name (n% "result")) (.call (.name (n% "chr")) (.cons (.bin .add (.name (n% "c")) (.call (.name (n% "getDeltaFromProps")) (.cons (.name (n% "props")) .nil))) .nil))) .skip) .skip) .skip) (.seq (.assign (.name (n% "exceptionIndex")) (.bin .shr (.name (n% "props")) (.name (n% "UCASE_EXC_SHIFT")))) (.seq (.assign (.name (n% "excWord")) (.index (.name (n% "ucase_props_exceptions")) (.name (n% "exceptionIndex")))) (.seq (.aug .add (.name (n% "exceptionIndex")) (.num 1)) (.seq (.assign (.name (n% "exceptionIndex2")) (.name (n% "exceptionIndex"))) (.seq (.ifs (.bin .ne (.bin .and (.name (n% "excWord")) (.name (n% "UCASE_EXC_CONDITIONAL_SPECIAL"))) (.num 0)) (.seq (.ifs (.bin .eq (.name (n% "c")) (.num 0x587)) (.seq (.ret (.cond (.name (n% "upperNotTitle")) (.str [1333, 1362]) (.str [1333, 1410]))) .skip) .skip) .skip) (.seq (.ifs (.call (.name (n% "hasSlot")) (.cons (.name (n% "excWord")) (.cons (.name (n% "UCASE_EXC_FULL_MAPPINGS")) .nil))) (.seq (.assign (.tuple (.cons (.name (n% "full")) (.cons (.name (n% "offset")) .nil))) (.call (.name (n% "getSlotValue")) (.cons (.name (n% "excWord")) (.cons (.name (n% "UCASE_EXC_FULL_MAPPINGS")) (.cons (.name (n% "exceptionIndex")) .nil))))) (.seq (.aug .add (.name (n% "exceptionIndex")) (.bin .add (.bin .add (.name (n% "offset")) (.num 1)) (.bin .and (.name (n% "full")) (.name (n% "UCASE_FULL_LOWER"))))) (.seq (.aug .shr (.name (n% "full")) (.num 4)) (.seq (.aug .add (.name (n% "exceptionIndex")) (.bin .and (.name (n% "full")) (.num 0xf))) (.seq (.aug .shr (.name (n% "full")) (.num 4)) (.seq (.ifs (.name (n% "upperNotTitle")) (.seq (.aug .and (.name (n% "full")) (.num 0xf)) .skip) (.seq (.aug .add (.name (n% "exceptionIndex")) (.bin .and (.name (n% "full")) (.num 0xf))) (.seq (.assign (.name (n% "full")) (.bin .and (.bin .shr (.name (n% "full")) (.num 4)) (.num 0xf))) .skip))) (.seq (.ifs (.bin .ne (.name (n% "full")) (.num 0)) (.seq (.assign (.name (n% "chars")) (.list .nil)) readSuite) .skip) .skip))))))) .skip) .skip)) upperTail)))))) (.seq (.ret (.name (n% "result"))) .skip))))) (Names.toUpperOrTitle H) rfl]
  have y : yields upperTail = false := rfl
  have y' : yields readSuite = false := rfl
  unfold Case.toUpperOrTitle
  have ht := Case.trie_ok.get c
  rw [ht]
  show _ = lift ((Case.toUpperOrTitleProps caseExceptions.arr c (Case.casePropsTrie.getv c) b).map _)
  generalize Case.casePropsTrie.getv c = p at *
  unfold Case.toUpperOrTitleProps
  cases hc : Case.chr c with
  | error a => py_run [chr_call H, hc]
  | ok result =>
  cases he : Case.hasException p
  · by_cases ho : Case.getTypeFromProps p = 1
    · have o := decide_eq_true ho
      cases hd : Case.getDeltaFromProps p with
      | error a => py_run [Names.casePropsTrie H, trie_get H, ht, hasException_run H, he, isUpperOrTitle_run H, getTypeFromProps_run H, getDeltaFromProps_run H, hasSlot_run H,
      getSlotValue_run H, Names.UCASE_EXC_SHIFT H, Names.ucase_props_exceptions H, table_exceptions H, Names.UCASE_EXC_DELTA H, Names.UCASE_EXC_LOWER H,
      Names.UCASE_EXC_UPPER H, Names.UCASE_EXC_TITLE H, Names.UCASE_LOWER H, Names.UCASE_EXC_DELTA_IS_NEGATIVE H, assign.unpack, Bool.not_true, Bool.not_false,
      not_true_eq_false, Bool.and_self, Bool.true_and, Bool.false_and, Bool.and_true, Bool.and_false, Case.toLowerProps, Case.toUpperProps,
      Case.toTitleProps, Case.EXC_DELTA, Case.EXC_LOWER, Case.EXC_UPPER, Case.EXC_TITLE, Case.EXC_FULL_MAPPINGS, Case.addDelta, chr_call H, Names.UCASE_EXC_CONDITIONAL_SPECIAL H,
      Names.UCASE_EXC_FULL_MAPPINGS H, Names.UCASE_FULL_LOWER H, hc, o, if_pos ho, hd, y, y']
      | ok d => cases hc' : Case.chr (c + d) <;> py_run [Names.casePropsTrie H, trie_get H, ht, hasException_run H, he, isUpperOrTitle_run H, getTypeFromProps_run H, getDeltaFromProps_run H, hasSlot_run H,
      getSlotValue_run H, Names.UCASE_EXC_SHIFT H, Names.ucase_props_exceptions H, table_exceptions H, Names.UCASE_EXC_DELTA H, Names.UCASE_EXC_LOWER H,
      Names.UCASE_EXC_UPPER H, Names.UCASE_EXC_TITLE H, Names.UCASE_LOWER H, Names.UCASE_EXC_DELTA_IS_NEGATIVE H, assign.unpack, Bool.not_true, Bool.not_false,
      not_true_eq_false, Bool.and_self, Bool.true_and, Bool.false_and, Bool.and_true, Bool.and_false, Case.toLowerProps, Case.toUpperProps,
      Case.toTitleProps, Case.EXC_DELTA, Case.EXC_LOWER, Case.EXC_UPPER, Case.EXC_TITLE, Case.EXC_FULL_MAPPINGS, Case.addDelta, chr_call H, Names.UCASE_EXC_CONDITIONAL_SPECIAL H,
      Names.UCASE_EXC_FULL_MAPPINGS H, Names.UCASE_FULL_LOWER H, hc, o, if_pos ho, hd, hc', y, y']
    · have o := decide_eq_false ho
      py_run [Names.casePropsTrie H, trie_get H, ht, hasException_run H, he, isUpperOrTitle_run H, getTypeFromProps_run H, getDeltaFromProps_run H, hasSlot_run H,
      getSlotValue_run H, Names.UCASE_EXC_SHIFT H, Names.ucase_props_exceptions H, table_exceptions H, Names.UCASE_EXC_DELTA H, Names.UCASE_EXC_LOWER H,
      Names.UCASE_EXC_UPPER H, Names.UCASE_EXC_TITLE H, Names.UCASE_LOWER H, Names.UCASE_EXC_DELTA_IS_NEGATIVE H, assign.unpack, Bool.not_true, Bool.not_false,
      not_true_eq_false, Bool.and_self, Bool.true_and, Bool.false_and, Bool.and_true, Bool.and_false, Case.toLowerProps, Case.toUpperProps,
      Case.toTitleProps, Case.EXC_DELTA, Case.EXC_LOWER, Case.EXC_UPPER, Case.EXC_TITLE, Case.EXC_FULL_MAPPINGS, Case.addDelta, chr_call H, Names.UCASE_EXC_CONDITIONAL_SPECIAL H,
      Names.UCASE_EXC_FULL_MAPPINGS H, Names.UCASE_FULL_LOWER H, hc, o, if_neg ho, y, y']
  · cases hx : caseExceptions.arr.get (p >>> 4) with
    | error a => py_run [Names.casePropsTrie H, trie_get H, ht, hasException_run H, he, isUpperOrTitle_run H, getTypeFromProps_run H, getDeltaFromProps_run H, hasSlot_run H,
      getSlotValue_run H, Names.UCASE_EXC_SHIFT H, Names.ucase_props_exceptions H, table_exceptions H, Names.UCASE_EXC_DELTA H, Names.UCASE_EXC_LOWER H,
      Names.UCASE_EXC_UPPER H, Names.UCASE_EXC_TITLE H, Names.UCASE_LOWER H, Names.UCASE_EXC_DELTA_IS_NEGATIVE H, assign.unpack, Bool.not_true, Bool.not_false,
      not_true_eq_false, Bool.and_self, Bool.true_and, Bool.false_and, Bool.and_true, Bool.and_false, Case.toLowerProps, Case.toUpperProps,
      Case.toTitleProps, Case.EXC_DELTA, Case.EXC_LOWER, Case.EXC_UPPER, Case.EXC_TITLE, Case.EXC_FULL_MAPPINGS, Case.addDelta, chr_call H, Names.UCASE_EXC_CONDITIONAL_SPECIAL H,
      Names.UCASE_EXC_FULL_MAPPINGS H, Names.UCASE_FULL_LOWER H, hc, hx, y, y']
    | ok x =>
    have tail := fun e rest hr => verdict_cases (upperTail_run H c p e x (p >>> 4 + 1) (n + 3) (n + 1) b result rest hr)
    unfold upperVars at tail
    by_cases h1 : x &&& 0x4000 = 0
    · have d1 := decide_eq_true h1
      cases h7 : Case.hasSlot x 7
      · rcases tail (p >>> 4 + 1) [] (.inl rfl) with ⟨a, hf, t⟩ | ⟨s, st, hf, t⟩ | ⟨s, st, hf, t, g⟩
        · py_run [Names.casePropsTrie H, trie_get H, ht, hasException_run H, he, isUpperOrTitle_run H, getTypeFromProps_run H, getDeltaFromProps_run H, hasSlot_run H,
      getSlotValue_run H, Names.UCASE_EXC_SHIFT H, Names.ucase_props_exceptions H, table_exceptions H, Names.UCASE_EXC_DELTA H, Names.UCASE_EXC_LOWER H,
      Names.UCASE_EXC_UPPER H, Names.UCASE_EXC_TITLE H, Names.UCASE_LOWER H, Names.UCASE_EXC_DELTA_IS_NEGATIVE H, assign.unpack, Bool.not_true, Bool.not_false,
      not_true_eq_false, Bool.and_self, Bool.true_and, Bool.false_and, Bool.and_true, Bool.and_false, Case.toLowerProps, Case.toUpperProps,
      Case.toTitleProps, Case.EXC_DELTA, Case.EXC_LOWER, Case.EXC_UPPER, Case.EXC_TITLE, Case.EXC_FULL_MAPPINGS, Case.addDelta, chr_call H, Names.UCASE_EXC_CONDITIONAL_SPECIAL H,
      Names.UCASE_EXC_FULL_MAPPINGS H, Names.UCASE_FULL_LOWER H, hc, hx, y, y', d1, if_neg (not_not_intro h1), h7, hf, t]
        · py_run [Names.casePropsTrie H, trie_get H, ht, hasException_run H, he, isUpperOrTitle_run H, getTypeFromProps_run H, getDeltaFromProps_run H, hasSlot_run H,
      getSlotValue_run H, Names.UCASE_EXC_SHIFT H, Names.ucase_props_exceptions H, table_exceptions H, Names.UCASE_EXC_DELTA H, Names.UCASE_EXC_LOWER H,
      Names.UCASE_EXC_UPPER H, Names.UCASE_EXC_TITLE H, Names.UCASE_LOWER H, Names.UCASE_EXC_DELTA_IS_NEGATIVE H, assign.unpack, Bool.not_true, Bool.not_false,
      not_true_eq_false, Bool.and_self, Bool.true_and, Bool.false_and, Bool.and_true, Bool.and_false, Case.toLowerProps, Case.toUpperProps,
      Case.toTitleProps, Case.EXC_DELTA, Case.EXC_LOWER, Case.EXC_UPPER, Case.EXC_TITLE, Case.EXC_FULL_MAPPINGS, Case.addDelta, chr_call H, Names.UCASE_EXC_CONDITIONAL_SPECIAL H,
      Names.UCASE_EXC_FULL_MAPPINGS H, Names.UCASE_FULL_LOWER H, hc, hx, y, y', d1, if_neg (not_not_intro h1), h7, hf, t]
        · py_run [Names.casePropsTrie H, trie_get H, ht, hasException_run H, he, isUpperOrTitle_run H, getTypeFromProps_run H, getDeltaFromProps_run H, hasSlot_run H,
      getSlotValue_run H, Names.UCASE_EXC_SHIFT H, Names.ucase_props_exceptions H, table_exceptions H, Names.UCASE_EXC_DELTA H, Names.UCASE_EXC_LOWER H,
      Names.UCASE_EXC_UPPER H, Names.UCASE_EXC_TITLE H, Names.UCASE_LOWER H, Names.UCASE_EXC_DELTA_IS_NEGATIVE H, assign.unpack, Bool.not_true, Bool.not_false,
      not_true_eq_false, Bool.and_self, Bool.true_and, Bool.false_and, Bool.and_true, Bool.and_false, Case.toLowerProps, Case.toUpperProps,
      Case.toTitleProps, Case.EXC_DELTA, Case.EXC_LOWER, Case.EXC_UPPER, Case.EXC_TITLE, Case.EXC_FULL_MAPPINGS, Case.addDelta, chr_call H, Names.UCASE_EXC_CONDITIONAL_SPECIAL H,
      Names.UCASE_EXC_FULL_MAPPINGS H, Names.UCASE_FULL_LOWER H, hc, hx, y, y', d1, if_neg (not_not_intro h1), h7, hf, t, g]
      · cases hv : Case.getSlotValue caseExceptions.arr x 7 (p >>> 4 + 1) with
        | error a => py_run [Names.casePropsTrie H, trie_get H, ht, hasException_run H, he, isUpperOrTitle_run H, getTypeFromProps_run H, getDeltaFromProps_run H, hasSlot_run H,
      getSlotValue_run H, Names.UCASE_EXC_SHIFT H, Names.ucase_props_exceptions H, table_exceptions H, Names.UCASE_EXC_DELTA H, Names.UCASE_EXC_LOWER H,
      Names.UCASE_EXC_UPPER H, Names.UCASE_EXC_TITLE H, Names.UCASE_LOWER H, Names.UCASE_EXC_DELTA_IS_NEGATIVE H, assign.unpack, Bool.not_true, Bool.not_false,
      not_true_eq_false, Bool.and_self, Bool.true_and, Bool.false_and, Bool.and_true, Bool.and_false, Case.toLowerProps, Case.toUpperProps,
      Case.toTitleProps, Case.EXC_DELTA, Case.EXC_LOWER, Case.EXC_UPPER, Case.EXC_TITLE, Case.EXC_FULL_MAPPINGS, Case.addDelta, chr_call H, Names.UCASE_EXC_CONDITIONAL_SPECIAL H,
      Names.UCASE_EXC_FULL_MAPPINGS H, Names.UCASE_FULL_LOWER H, hc, hx, y, y', d1, if_neg (not_not_intro h1), h7, hv]
        | ok r =>
          cases b
          · by_cases hz : r.1 >>> 4 >>> 4 >>> 4 &&& 0xf = 0
            · have z := decide_eq_true hz
              rcases tail (p >>> 4 + 1 + (r.2 + 1 + (r.1 &&& 0xf)) + (r.1 >>> 4 &&& 0xf) + (r.1 >>> 4 >>> 4 &&& 0xf)) [(n% "full", .int (r.1 >>> 4 >>> 4 >>> 4 &&& 0xf : Nat)), (n% "offset", .int r.2)] (.inr ⟨_, _, rfl⟩) with ⟨a, hf, t⟩ | ⟨s, st, hf, t⟩ | ⟨s, st, hf, t, g⟩
              · py_run [Names.casePropsTrie H, trie_get H, ht, hasException_run H, he, isUpperOrTitle_run H, getTypeFromProps_run H, getDeltaFromProps_run H, hasSlot_run H,
      getSlotValue_run H, Names.UCASE_EXC_SHIFT H, Names.ucase_props_exceptions H, table_exceptions H, Names.UCASE_EXC_DELTA H, Names.UCASE_EXC_LOWER H,
      Names.UCASE_EXC_UPPER H, Names.UCASE_EXC_TITLE H, Names.UCASE_LOWER H, Names.UCASE_EXC_DELTA_IS_NEGATIVE H, assign.unpack, Bool.not_true, Bool.not_false,
      not_true_eq_false, Bool.and_self, Bool.true_and, Bool.false_and, Bool.and_true, Bool.and_false, Case.toLowerProps, Case.toUpperProps,
      Case.toTitleProps, Case.EXC_DELTA, Case.EXC_LOWER, Case.EXC_UPPER, Case.EXC_TITLE, Case.EXC_FULL_MAPPINGS, Case.addDelta, chr_call H, Names.UCASE_EXC_CONDITIONAL_SPECIAL H,
      Names.UCASE_EXC_FULL_MAPPINGS H, Names.UCASE_FULL_LOWER H, hc, hx, y, y', d1, if_neg (not_not_intro h1), h7, hv, z, if_neg (not_not_intro hz), hf, t]
              · py_run [Names.casePropsTrie H, trie_get H, ht, hasException_run H, he, isUpperOrTitle_run H, getTypeFromProps_run H, getDeltaFromProps_run H, hasSlot_run H,
      getSlotValue_run H, Names.UCASE_EXC_SHIFT H, Names.ucase_props_exceptions H, table_exceptions H, Names.UCASE_EXC_DELTA H, Names.UCASE_EXC_LOWER H,
      Names.UCASE_EXC_UPPER H, Names.UCASE_EXC_TITLE H, Names.UCASE_LOWER H, Names.UCASE_EXC_DELTA_IS_NEGATIVE H, assign.unpack, Bool.not_true, Bool.not_false,
      not_true_eq_false, Bool.and_self, Bool.true_and, Bool.false_and, Bool.and_true, Bool.and_false, Case.toLowerProps, Case.toUpperProps,
      Case.toTitleProps, Case.EXC_DELTA, Case.EXC_LOWER, Case.EXC_UPPER, Case.EXC_TITLE, Case.EXC_FULL_MAPPINGS, Case.addDelta, chr_call H, Names.UCASE_EXC_CONDITIONAL_SPECIAL H,
      Names.UCASE_EXC_FULL_MAPPINGS H, Names.UCASE_FULL_LOWER H, hc, hx, y, y', d1, if_neg (not_not_intro h1), h7, hv, z, if_neg (not_not_intro hz), hf, t]
              · py_run [Names.casePropsTrie H, trie_get H, ht, hasException_run H, he, isUpperOrTitle_run H, getTypeFromProps_run H, getDeltaFromProps_run H, hasSlot_run H,
      getSlotValue_run H, Names.UCASE_EXC_SHIFT H, Names.ucase_props_exceptions H, table_exceptions H, Names.UCASE_EXC_DELTA H, Names.UCASE_EXC_LOWER H,
      Names.UCASE_EXC_UPPER H, Names.UCASE_EXC_TITLE H, Names.UCASE_LOWER H, Names.UCASE_EXC_DELTA_IS_NEGATIVE H, assign.unpack, Bool.not_true, Bool.not_false,
      not_true_eq_false, Bool.and_self, Bool.true_and, Bool.false_and, Bool.and_true, Bool.and_false, Case.toLowerProps, Case.toUpperProps,
      Case.toTitleProps, Case.EXC_DELTA, Case.EXC_LOWER, Case.EXC_UPPER, Case.EXC_TITLE, Case.EXC_FULL_MAPPINGS, Case.addDelta, chr_call H, Names.UCASE_EXC_CONDITIONAL_SPECIAL H,
      Names.UCASE_EXC_FULL_MAPPINGS H, Names.UCASE_FULL_LOWER H, hc, hx, y, y', d1, if_neg (not_not_intro h1), h7, hv, z, if_neg (not_not_intro hz), hf, t, g]
            · have z := decide_eq_false hz
              have rd := read_run H (call := run w (n + 3)) (fuel := n + 3) (e := p >>> 4 + 1 + (r.2 + 1 + (r.1 &&& 0xf)) + (r.1 >>> 4 &&& 0xf) + (r.1 >>> 4 >>> 4 &&& 0xf)) (k := r.1 >>> 4 >>> 4 >>> 4 &&& 0xf)
                (env := [(n% "c", .int c), (n% "upperNotTitle", .bool false), (n% "result", .str result), (n% "props", .int p),
                (n% "exceptionIndex", .int (p >>> 4 + 1 + (r.2 + 1 + (r.1 &&& 0xf)) + (r.1 >>> 4 &&& 0xf) + (r.1 >>> 4 >>> 4 &&& 0xf) : Nat)), (n% "excWord", .int x), (n% "exceptionIndex2", .int (p >>> 4 + 1 : Nat)),
                (n% "full", .int (r.1 >>> 4 >>> 4 >>> 4 &&& 0xf : Nat)), (n% "offset", .int r.2), (n% "chars", .list .nil)]) ⟨rfl, rfl, rfl, rfl⟩ rfl rfl
              unfold Returns at rd
              cases hr : Case.readChars caseExceptions.arr (r.1 >>> 4 >>> 4 >>> 4 &&& 0xf) (p >>> 4 + 1 + (r.2 + 1 + (r.1 &&& 0xf)) + (r.1 >>> 4 &&& 0xf) + (r.1 >>> 4 >>> 4 &&& 0xf)) with
              | error a =>
                rw [hr] at rd
                dsimp only at rd
                py_run [Names.casePropsTrie H, trie_get H, ht, hasException_run H, he, isUpperOrTitle_run H, getTypeFromProps_run H, getDeltaFromProps_run H, hasSlot_run H,
      getSlotValue_run H, Names.UCASE_EXC_SHIFT H, Names.ucase_props_exceptions H, table_exceptions H, Names.UCASE_EXC_DELTA H, Names.UCASE_EXC_LOWER H,
      Names.UCASE_EXC_UPPER H, Names.UCASE_EXC_TITLE H, Names.UCASE_LOWER H, Names.UCASE_EXC_DELTA_IS_NEGATIVE H, assign.unpack, Bool.not_true, Bool.not_false,
      not_true_eq_false, Bool.and_self, Bool.true_and, Bool.false_and, Bool.and_true, Bool.and_false, Case.toLowerProps, Case.toUpperProps,
      Case.toTitleProps, Case.EXC_DELTA, Case.EXC_LOWER, Case.EXC_UPPER, Case.EXC_TITLE, Case.EXC_FULL_MAPPINGS, Case.addDelta, chr_call H, Names.UCASE_EXC_CONDITIONAL_SPECIAL H,
      Names.UCASE_EXC_FULL_MAPPINGS H, Names.UCASE_FULL_LOWER H, hc, hx, y, y', d1, if_neg (not_not_intro h1), h7, hv, z, if_pos hz, hr, rd]
              | ok t =>
                rw [hr] at rd
                obtain ⟨st, rd⟩ := rd
                py_run [Names.casePropsTrie H, trie_get H, ht, hasException_run H, he, isUpperOrTitle_run H, getTypeFromProps_run H, getDeltaFromProps_run H, hasSlot_run H,
      getSlotValue_run H, Names.UCASE_EXC_SHIFT H, Names.ucase_props_exceptions H, table_exceptions H, Names.UCASE_EXC_DELTA H, Names.UCASE_EXC_LOWER H,
      Names.UCASE_EXC_UPPER H, Names.UCASE_EXC_TITLE H, Names.UCASE_LOWER H, Names.UCASE_EXC_DELTA_IS_NEGATIVE H, assign.unpack, Bool.not_true, Bool.not_false,
      not_true_eq_false, Bool.and_self, Bool.true_and, Bool.false_and, Bool.and_true, Bool.and_false, Case.toLowerProps, Case.toUpperProps,
      Case.toTitleProps, Case.EXC_DELTA, Case.EXC_LOWER, Case.EXC_UPPER, Case.EXC_TITLE, Case.EXC_FULL_MAPPINGS, Case.addDelta, chr_call H, Names.UCASE_EXC_CONDITIONAL_SPECIAL H,
      Names.UCASE_EXC_FULL_MAPPINGS H, Names.UCASE_FULL_LOWER H, hc, hx, y, y', d1, if_neg (not_not_intro h1), h7, hv, z, if_pos hz, hr, rd]
          · by_cases hz : r.1 >>> 4 >>> 4 &&& 0xf = 0
            · have z := decide_eq_true hz
              rcases tail (p >>> 4 + 1 + (r.2 + 1 + (r.1 &&& 0xf)) + (r.1 >>> 4 &&& 0xf)) [(n% "full", .int (r.1 >>> 4 >>> 4 &&& 0xf : Nat)), (n% "offset", .int r.2)] (.inr ⟨_, _, rfl⟩) with ⟨a, hf, t⟩ | ⟨s, st, hf, t⟩ | ⟨s, st, hf, t, g⟩
              · py_run [Names.casePropsTrie H, trie_get H, ht, hasException_run H, he, isUpperOrTitle_run H, getTypeFromProps_run H, getDeltaFromProps_run H, hasSlot_run H,
      getSlotValue_run H, Names.UCASE_EXC_SHIFT H, Names.ucase_props_exceptions H, table_exceptions H, Names.UCASE_EXC_DELTA H, Names.UCASE_EXC_LOWER H,
      Names.UCASE_EXC_UPPER H, Names.UCASE_EXC_TITLE H, Names.UCASE_LOWER H, Names.UCASE_EXC_DELTA_IS_NEGATIVE H, assign.unpack, Bool.not_true, Bool.not_false,
      not_true_eq_false, Bool.and_self, Bool.true_and, Bool.false_and, Bool.and_true, Bool.and_false, Case.toLowerProps, Case.toUpperProps,
      Case.toTitleProps, Case.EXC_DELTA, Case.EXC_LOWER, Case.EXC_UPPER, Case.EXC_TITLE, Case.EXC_FULL_MAPPINGS, Case.addDelta, chr_call H, Names.UCASE_EXC_CONDITIONAL_SPECIAL H,
      Names.UCASE_EXC_FULL_MAPPINGS H, Names.UCASE_FULL_LOWER H, hc, hx, y, y', d1, if_neg (not_not_intro h1), h7, hv, z, if_neg (not_not_intro hz), hf, t]
              · py_run [Names.casePropsTrie H, trie_get H, ht, hasException_run H, he, isUpperOrTitle_run H, getTypeFromProps_run H, getDeltaFromProps_run H, hasSlot_run H,
      getSlotValue_run H, Names.UCASE_EXC_SHIFT H, Names.ucase_props_exceptions H, table_exceptions H, Names.UCASE_EXC_DELTA H, Names.UCASE_EXC_LOWER H,
      Names.UCASE_EXC_UPPER H, Names.UCASE_EXC_TITLE H, Names.UCASE_LOWER H, Names.UCASE_EXC_DELTA_IS_NEGATIVE H, assign.unpack, Bool.not_true, Bool.not_false,
      not_true_eq_false, Bool.and_self, Bool.true_and, Bool.false_and, Bool.and_true, Bool.and_false, Case.toLowerProps, Case.toUpperProps,
      Case.toTitleProps, Case.EXC_DELTA, Case.EXC_LOWER, Case.EXC_UPPER, Case.EXC_TITLE, Case.EXC_FULL_MAPPINGS, Case.addDelta, chr_call H, Names.UCASE_EXC_CONDITIONAL_SPECIAL H,
      Names.UCASE_EXC_FULL_MAPPINGS H, Names.UCASE_FULL_LOWER H, hc, hx, y, y', d1, if_neg (not_not_intro h1), h7, hv, z, if_neg (not_not_intro hz), hf, t]
              · py_run [Names.casePropsTrie H, trie_get H, ht, hasException_run H, he, isUpperOrTitle_run H, getTypeFromProps_run H, getDeltaFromProps_run H, hasSlot_run H,
      getSlotValue_run H, Names.UCASE_EXC_SHIFT H, Names.ucase_props_exceptions H, table_exceptions H, Names.UCASE_EXC_DELTA H, Names.UCASE_EXC_LOWER H,
      Names.UCASE_EXC_UPPER H, Names.UCASE_EXC_TITLE H, Names.UCASE_LOWER H, Names.UCASE_EXC_DELTA_IS_NEGATIVE H, assign.unpack, Bool.not_true, Bool.not_false,
      not_true_eq_false, Bool.and_self, Bool.true_and, Bool.false_and, Bool.and_true, Bool.and_false, Case.toLowerProps, Case.toUpperProps,
      Case.toTitleProps, Case.EXC_DELTA, Case.EXC_LOWER, Case.EXC_UPPER, Case.EXC_TITLE, Case.EXC_FULL_MAPPINGS, Case.addDelta, chr_call H, Names.UCASE_EXC_CONDITIONAL_SPECIAL H,
      Names.UCASE_EXC_FULL_MAPPINGS H, Names.UCASE_FULL_LOWER H, hc, hx, y, y', d1, if_neg (not_not_intro h1), h7, hv, z, if_neg (not_not_intro hz), hf, t, g]
            · have z := decide_eq_false hz
              have rd := read_run H (call := run w (n + 3)) (fuel := n + 3) (e := p >>> 4 + 1 + (r.2 + 1 + (r.1 &&& 0xf)) + (r.1 >>> 4 &&& 0xf)) (k := r.1 >>> 4 >>> 4 &&& 0xf)
                (env := [(n% "c", .int c), (n% "upperNotTitle", .bool true), (n% "result", .str result), (n% "props", .int p),
                (n% "exceptionIndex", .int (p >>> 4 + 1 + (r.2 + 1 + (r.1 &&& 0xf)) + (r.1 >>> 4 &&& 0xf) : Nat)), (n% "excWord", .int x), (n% "exceptionIndex2", .int (p >>> 4 + 1 : Nat)),
                (n% "full", .int (r.1 >>> 4 >>> 4 &&& 0xf : Nat)), (n% "offset", .int r.2), (n% "chars", .list .nil)]) ⟨rfl, rfl, rfl, rfl⟩ rfl rfl
              unfold Returns at rd
              cases hr : Case.readChars caseExceptions.arr (r.1 >>> 4 >>> 4 &&& 0xf) (p >>> 4 + 1 + (r.2 + 1 + (r.1 &&& 0xf)) + (r.1 >>> 4 &&& 0xf)) with
              | error a =>
                rw [hr] at rd
                dsimp only at rd
                py_run [Names.casePropsTrie H, trie_get H, ht, hasException_run H, he, isUpperOrTitle_run H, getTypeFromProps_run H, getDeltaFromProps_run H, hasSlot_run H,
      getSlotValue_run H, Names.UCASE_EXC_SHIFT H, Names.ucase_props_exceptions H, table_exceptions H, Names.UCASE_EXC_DELTA H, Names.UCASE_EXC_LOWER H,
      Names.UCASE_EXC_UPPER H, Names.UCASE_EXC_TITLE H, Names.UCASE_LOWER H, Names.UCASE_EXC_DELTA_IS_NEGATIVE H, assign.unpack, Bool.not_true, Bool.not_false,
      not_true_eq_false, Bool.and_self, Bool.true_and, Bool.false_and, Bool.and_true, Bool.and_false, Case.toLowerProps, Case.toUpperProps,
      Case.toTitleProps, Case.EXC_DELTA, Case.EXC_LOWER, Case.EXC_UPPER, Case.EXC_TITLE, Case.EXC_FULL_MAPPINGS, Case.addDelta, chr_call H, Names.UCASE_EXC_CONDITIONAL_SPECIAL H,
      Names.UCASE_EXC_FULL_MAPPINGS H, Names.UCASE_FULL_LOWER H, hc, hx, y, y', d1, if_neg (not_not_intro h1), h7, hv, z, if_pos hz, hr, rd]
              | ok t =>
                rw [hr] at rd
                obtain ⟨st, rd⟩ := rd
                py_run [Names.casePropsTrie H, trie_get H, ht, hasException_run H, he, isUpperOrTitle_run H, getTypeFromProps_run H, getDeltaFromProps_run H, hasSlot_run H,
      getSlotValue_run H, Names.UCASE_EXC_SHIFT H, Names.ucase_props_exceptions H, table_exceptions H, Names.UCASE_EXC_DELTA H, Names.UCASE_EXC_LOWER H,
      Names.UCASE_EXC_UPPER H, Names.UCASE_EXC_TITLE H, Names.UCASE_LOWER H, Names.UCASE_EXC_DELTA_IS_NEGATIVE H, assign.unpack, Bool.not_true, Bool.not_false,
      not_true_eq_false, Bool.and_self, Bool.true_and, Bool.false_and, Bool.and_true, Bool.and_false, Case.toLowerProps, Case.toUpperProps,
      Case.toTitleProps, Case.EXC_DELTA, Case.EXC_LOWER, Case.EXC_UPPER, Case.EXC_TITLE, Case.EXC_FULL_MAPPINGS, Case.addDelta, chr_call H, Names.UCASE_EXC_CONDITIONAL_SPECIAL H,
      Names.UCASE_EXC_FULL_MAPPINGS H, Names.UCASE_FULL_LOWER H, hc, hx, y, y', d1, if_neg (not_not_intro h1), h7, hv, z, if_pos hz, hr, rd]
    · have d1 := decide_eq_false h1
      by_cases h2 : c = 0x587
      · have d2 := decide_eq_true h2
        cases b <;> py_run [Names.casePropsTrie H, trie_get H, ht, hasException_run H, he, isUpperOrTitle_run H, getTypeFromProps_run H, getDeltaFromProps_run H, hasSlot_run H,
      getSlotValue_run H, Names.UCASE_EXC_SHIFT H, Names.ucase_props_exceptions H, table_exceptions H, Names.UCASE_EXC_DELTA H, Names.UCASE_EXC_LOWER H,
      Names.UCASE_EXC_UPPER H, Names.UCASE_EXC_TITLE H, Names.UCASE_LOWER H, Names.UCASE_EXC_DELTA_IS_NEGATIVE H, assign.unpack, Bool.not_true, Bool.not_false,
      not_true_eq_false, Bool.and_self, Bool.true_and, Bool.false_and, Bool.and_true, Bool.and_false, Case.toLowerProps, Case.toUpperProps,
      Case.toTitleProps, Case.EXC_DELTA, Case.EXC_LOWER, Case.EXC_UPPER, Case.EXC_TITLE, Case.EXC_FULL_MAPPINGS, Case.addDelta, chr_call H, Names.UCASE_EXC_CONDITIONAL_SPECIAL H,
      Names.UCASE_EXC_FULL_MAPPINGS H, Names.UCASE_FULL_LOWER H, hc, hx, y, y', d1, d2, if_pos h1, if_pos h2]
      · have d2 := decide_eq_false h2
        rcases tail (p >>> 4 + 1) [] (.inl rfl) with ⟨a, hf, t⟩ | ⟨s, st, hf, t⟩ | ⟨s, st, hf, t, g⟩
        · py_run [Names.casePropsTrie H, trie_get H, ht, hasException_run H, he, isUpperOrTitle_run H, getTypeFromProps_run H, getDeltaFromProps_run H, hasSlot_run H,
      getSlotValue_run H, Names.UCASE_EXC_SHIFT H, Names.ucase_props_exceptions H, table_exceptions H, Names.UCASE_EXC_DELTA H, Names.UCASE_EXC_LOWER H,
      Names.UCASE_EXC_UPPER H, Names.UCASE_EXC_TITLE H, Names.UCASE_LOWER H, Names.UCASE_EXC_DELTA_IS_NEGATIVE H, assign.unpack, Bool.not_true, Bool.not_false,
      not_true_eq_false, Bool.and_self, Bool.true_and, Bool.false_and, Bool.and_true, Bool.and_false, Case.toLowerProps, Case.toUpperProps,
      Case.toTitleProps, Case.EXC_DELTA, Case.EXC_LOWER, Case.EXC_UPPER, Case.EXC_TITLE, Case.EXC_FULL_MAPPINGS, Case.addDelta, chr_call H, Names.UCASE_EXC_CONDITIONAL_SPECIAL H,
      Names.UCASE_EXC_FULL_MAPPINGS H, Names.UCASE_FULL_LOWER H, hc, hx, y, y', d1, d2, if_pos h1, if_neg h2, hf, t]
        · py_run [Names.casePropsTrie H, trie_get H, ht, hasException_run H, he, isUpperOrTitle_run H, getTypeFromProps_run H, getDeltaFromProps_run H, hasSlot_run H,
      getSlotValue_run H, Names.UCASE_EXC_SHIFT H, Names.ucase_props_exceptions H, table_exceptions H, Names.UCASE_EXC_DELTA H, Names.UCASE_EXC_LOWER H,
      Names.UCASE_EXC_UPPER H, Names.UCASE_EXC_TITLE H, Names.UCASE_LOWER H, Names.UCASE_EXC_DELTA_IS_NEGATIVE H, assign.unpack, Bool.not_true, Bool.not_false,
      not_true_eq_false, Bool.and_self, Bool.true_and, Bool.false_and, Bool.and_true, Bool.and_false, Case.toLowerProps, Case.toUpperProps,
      Case.toTitleProps, Case.EXC_DELTA, Case.EXC_LOWER, Case.EXC_UPPER, Case.EXC_TITLE, Case.EXC_FULL_MAPPINGS, Case.addDelta, chr_call H, Names.UCASE_EXC_CONDITIONAL_SPECIAL H,
      Names.UCASE_EXC_FULL_MAPPINGS H, Names.UCASE_FULL_LOWER H, hc, hx, y, y', d1, d2, if_pos h1, if_neg h2, hf, t]
        · py_run [Names.casePropsTrie H, trie_get H, ht, hasException_run H, he, isUpperOrTitle_run H, getTypeFromProps_run H, getDeltaFromProps_run H, hasSlot_run H,
      getSlotValue_run H, Names.UCASE_EXC_SHIFT H, Names.ucase_props_exceptions H, table_exceptions H, Names.UCASE_EXC_DELTA H, Names.UCASE_EXC_LOWER H,
      Names.UCASE_EXC_UPPER H, Names.UCASE_EXC_TITLE H, Names.UCASE_LOWER H, Names.UCASE_EXC_DELTA_IS_NEGATIVE H, assign.unpack, Bool.not_true, Bool.not_false,
      not_true_eq_false, Bool.and_self, Bool.true_and, Bool.false_and, Bool.and_true, Bool.and_false, Case.toLowerProps, Case.toUpperProps,
      Case.toTitleProps, Case.EXC_DELTA, Case.EXC_LOWER, Case.EXC_UPPER, Case.EXC_TITLE, Case.EXC_FULL_MAPPINGS, Case.addDelta, chr_call H, Names.UCASE_EXC_CONDITIONAL_SPECIAL H,
      Names.UCASE_EXC_FULL_MAPPINGS H, Names.UCASE_FULL_LOWER H, hc, hx, y, y', d1, d2, if_pos h1, if_neg h2, hf, t, g]

theorem toFullUpper_run (c n : Nat) : call[n + 5, n% "toFullUpper", .cons (.int c) .nil] = lift ((Case.toFullUpper c).map .str) := by
  start (Names.toFullUpper H)
  unfold Case.toFullUpper
  cases h : Case.toUpperOrTitle c true <;> py_run [toUpperOrTitle_run H, Names.True H, h]

theorem toFullTitle_run (c n : Nat) : call[n + 5, n% "toFullTitle", .cons (.int c) .nil] = lift ((Case.toFullTitle c).map .str) := by
  start (Names.toFullTitle H)
  unfold Case.toFullTitle
  cases h : Case.toUpperOrTitle c false <;> py_run [toUpperOrTitle_run H, Names.False H, h]

end Verif.PyRun.CaseProps

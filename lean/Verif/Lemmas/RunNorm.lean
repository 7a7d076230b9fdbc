import Verif.Lemmas.RunCPTrie
import Verif.Lemmas.RunUtilities
import Verif.Model.Normalizer2
/-! # The methods of `Normalizer2`, executed from the text of Normalizer2.py -/
namespace Verif.PyRun.Norm
open Verif.PySyntax Verif.Library Verif.Data
set_option maxRecDepth 4000

/-- Names of Normalizer2.py and of the class, and what they stand for. -/
noncomputable def names : List (Nat × Nat × Option Def) :=
   [(0, n% "INERT", some (.val (.int (1 : Nat)))),
    (0, n% "JAMO_L", some (.val (.int (2 : Nat)))),
    (0, n% "JAMO_VT", some (.val (.int (65024 : Nat)))),
    (0, n% "HAS_COMP_BOUNDARY_AFTER", some (.val (.int (1 : Nat)))),
    (0, n% "OFFSET_SHIFT", some (.val (.int (1 : Nat)))),
    (0, n% "DELTA_SHIFT", some (.val (.int (3 : Nat)))),
    (0, n% "MAPPING_LENGTH_MASK", some (.val (.int (31 : Nat)))),
    (0, n% "MAPPING_HAS_RAW_MAPPING", some (.val (.int (64 : Nat)))),
    (0, n% "JAMO_L_BASE", some (.val (.int Normalizer2.JAMO_L_BASE))),
    (0, n% "JAMO_V_BASE", some (.val (.int Normalizer2.JAMO_V_BASE))),
    (0, n% "JAMO_T_BASE", some (.val (.int Normalizer2.JAMO_T_BASE))),
    (0, n% "HANGUL_BASE", some (.val (.int Normalizer2.HANGUL_BASE))),
    (0, n% "JAMO_V_COUNT", some (.val (.int Normalizer2.JAMO_V_COUNT))),
    (0, n% "JAMO_T_COUNT", some (.val (.int Normalizer2.JAMO_T_COUNT))),
    (0, n% "isLead", fnOf (n% "Utilities") Syntax.Utilities.isLead),
    (0, n% "charFromSurrogates", fnOf (n% "Utilities") Syntax.Utilities.charFromSurrogates),
    (0, n% "chr", none),
    (0, n% "len", none),
    (0, n% "range", none),
    (0, n% "None", none),
    ((n% "Normalizer2"), n% "getNorm16", fnOf (n% "Normalizer2") Syntax.Normalizer2.Normalizer2.getNorm16),
    ((n% "Normalizer2"), n% "getRawNorm16", fnOf (n% "Normalizer2") Syntax.Normalizer2.Normalizer2.getRawNorm16),
    ((n% "Normalizer2"), n% "isMaybeOrNonZeroCC", fnOf (n% "Normalizer2") Syntax.Normalizer2.Normalizer2.isMaybeOrNonZeroCC),
    ((n% "Normalizer2"), n% "isDecompNoAlgorithmic", fnOf (n% "Normalizer2") Syntax.Normalizer2.Normalizer2.isDecompNoAlgorithmic),
    ((n% "Normalizer2"), n% "isDecompYes", fnOf (n% "Normalizer2") Syntax.Normalizer2.Normalizer2.isDecompYes),
    ((n% "Normalizer2"), n% "isInert", fnOf (n% "Normalizer2") Syntax.Normalizer2.Normalizer2.isInert),
    ((n% "Normalizer2"), n% "isJamoL", fnOf (n% "Normalizer2") Syntax.Normalizer2.Normalizer2.isJamoL),
    ((n% "Normalizer2"), n% "isJamoVT", fnOf (n% "Normalizer2") Syntax.Normalizer2.Normalizer2.isJamoVT),
    ((n% "Normalizer2"), n% "hangulLVT", fnOf (n% "Normalizer2") Syntax.Normalizer2.Normalizer2.hangulLVT),
    ((n% "Normalizer2"), n% "isHangulLV", fnOf (n% "Normalizer2") Syntax.Normalizer2.Normalizer2.isHangulLV),
    ((n% "Normalizer2"), n% "isHangulLVT", fnOf (n% "Normalizer2") Syntax.Normalizer2.Normalizer2.isHangulLVT),
    ((n% "Normalizer2"), n% "hangulDecomposition", fnOf (n% "Normalizer2") Syntax.Normalizer2.Normalizer2.hangulDecomposition),
    ((n% "Normalizer2"), n% "rawHangulDecomposition", fnOf (n% "Normalizer2") Syntax.Normalizer2.Normalizer2.rawHangulDecomposition),
    ((n% "Normalizer2"), n% "mapAlgorithmic", fnOf (n% "Normalizer2") Syntax.Normalizer2.Normalizer2.mapAlgorithmic),
    ((n% "Normalizer2"), n% "getMappingIndex", fnOf (n% "Normalizer2") Syntax.Normalizer2.Normalizer2.getMappingIndex),
    ((n% "Normalizer2"), n% "stringFromData", fnOf (n% "Normalizer2") Syntax.Normalizer2.Normalizer2.stringFromData),
    ((n% "Normalizer2"), n% "getDecomposition", fnOf (n% "Normalizer2") Syntax.Normalizer2.Normalizer2.getDecomposition),
    ((n% "Normalizer2"), n% "getRawDecomposition", fnOf (n% "Normalizer2") Syntax.Normalizer2.Normalizer2.getRawDecomposition)]

/-- A world where Normalizer2.py was imported. -/
structure Imported (w : World) : Prop where
  trie : w.scope (n% "CPTrie") = CPTries.cptrie
  utilities : w.scope (n% "Utilities") = utilities
  name : ∀ p ∈ names, w.find (n% "Normalizer2") p.1 p.2.1 = p.2.2

/-- `v` is a `Normalizer2` with the numbers of `x`; `tv` is its trie, `iv` and `dv` the lists of that and `ev` its extra data. -/
structure IsNorm (w : World) (v tv iv dv ev : Val) (x : Normalizer2) : Prop where
  object : ∃ fs, v = .obj (n% "Normalizer2") (n% "Normalizer2") fs
  trie : attr w v (n% "trie") = .ok tv
  isTrie : CPTries.IsTrie w tv iv dv x.trie
  minDecompNoCP : attr w v (n% "minDecompNoCP") = .ok (.int x.minDecompNoCP)
  minYesNo : attr w v (n% "minYesNo") = .ok (.int x.minYesNo)
  minYesNoMappingsOnly : attr w v (n% "minYesNoMappingsOnly") = .ok (.int x.minYesNoMappingsOnly)
  limitNoNo : attr w v (n% "limitNoNo") = .ok (.int x.limitNoNo)
  minMaybeYes : attr w v (n% "minMaybeYes") = .ok (.int x.minMaybeYes)
  centerNoNoDelta : attr w v (n% "centerNoNoDelta") = .ok (.int x.centerNoNoDelta)
  extraData : attr w v (n% "extraData") = .ok ev
  extraAt : ∀ i : Int, index w ev (.int i) = match x.extraData.getI i with | .ok e => .ok (.int e) | .error e => .error (.raised e)

/-- A text, or `None`. -/
def optional : Option Str → Val
  | some s => .str s
  | none => .none

variable {w : World} {v tv iv dv ev : Val} {x : Normalizer2} (H : Imported w)
include H

theorem found (i : Nat) (h : i < names.length) : w.find (n% "Normalizer2") names[i].1 names[i].2.1 = names[i].2.2 := H.name _ (List.getElem_mem h)

theorem Names.INERT : w.find (n% "Normalizer2") 0 (n% "INERT") = some (.val (.int (1 : Nat))) := found H 0 (by decide)

theorem Names.JAMO_L : w.find (n% "Normalizer2") 0 (n% "JAMO_L") = some (.val (.int (2 : Nat))) := found H 1 (by decide)

theorem Names.JAMO_VT : w.find (n% "Normalizer2") 0 (n% "JAMO_VT") = some (.val (.int (65024 : Nat))) := found H 2 (by decide)

theorem Names.HAS_COMP_BOUNDARY_AFTER : w.find (n% "Normalizer2") 0 (n% "HAS_COMP_BOUNDARY_AFTER") = some (.val (.int (1 : Nat))) := found H 3 (by decide)

theorem Names.OFFSET_SHIFT : w.find (n% "Normalizer2") 0 (n% "OFFSET_SHIFT") = some (.val (.int (1 : Nat))) := found H 4 (by decide)

theorem Names.DELTA_SHIFT : w.find (n% "Normalizer2") 0 (n% "DELTA_SHIFT") = some (.val (.int (3 : Nat))) := found H 5 (by decide)

theorem Names.MAPPING_LENGTH_MASK : w.find (n% "Normalizer2") 0 (n% "MAPPING_LENGTH_MASK") = some (.val (.int (31 : Nat))) := found H 6 (by decide)

theorem Names.MAPPING_HAS_RAW_MAPPING : w.find (n% "Normalizer2") 0 (n% "MAPPING_HAS_RAW_MAPPING") = some (.val (.int (64 : Nat))) := found H 7 (by decide)

theorem Names.JAMO_L_BASE : w.find (n% "Normalizer2") 0 (n% "JAMO_L_BASE") = some (.val (.int Normalizer2.JAMO_L_BASE)) := found H 8 (by decide)

theorem Names.JAMO_V_BASE : w.find (n% "Normalizer2") 0 (n% "JAMO_V_BASE") = some (.val (.int Normalizer2.JAMO_V_BASE)) := found H 9 (by decide)

theorem Names.JAMO_T_BASE : w.find (n% "Normalizer2") 0 (n% "JAMO_T_BASE") = some (.val (.int Normalizer2.JAMO_T_BASE)) := found H 10 (by decide)

theorem Names.HANGUL_BASE : w.find (n% "Normalizer2") 0 (n% "HANGUL_BASE") = some (.val (.int Normalizer2.HANGUL_BASE)) := found H 11 (by decide)

theorem Names.JAMO_V_COUNT : w.find (n% "Normalizer2") 0 (n% "JAMO_V_COUNT") = some (.val (.int Normalizer2.JAMO_V_COUNT)) := found H 12 (by decide)

theorem Names.JAMO_T_COUNT : w.find (n% "Normalizer2") 0 (n% "JAMO_T_COUNT") = some (.val (.int Normalizer2.JAMO_T_COUNT)) := found H 13 (by decide)

theorem Names.isLead : w.find (n% "Normalizer2") 0 (n% "isLead") = fnOf (n% "Utilities") Syntax.Utilities.isLead := found H 14 (by decide)

theorem Names.charFromSurrogates : w.find (n% "Normalizer2") 0 (n% "charFromSurrogates") = fnOf (n% "Utilities") Syntax.Utilities.charFromSurrogates := found H 15 (by decide)

theorem Names.chr : w.find (n% "Normalizer2") 0 (n% "chr") = none := found H 16 (by decide)

theorem Names.len : w.find (n% "Normalizer2") 0 (n% "len") = none := found H 17 (by decide)

theorem Names.range : w.find (n% "Normalizer2") 0 (n% "range") = none := found H 18 (by decide)

theorem Names.None : w.find (n% "Normalizer2") 0 (n% "None") = none := found H 19 (by decide)

theorem Names.getNorm16 : w.find (n% "Normalizer2") (n% "Normalizer2") (n% "getNorm16") = fnOf (n% "Normalizer2") Syntax.Normalizer2.Normalizer2.getNorm16 := found H 20 (by decide)

theorem Names.getRawNorm16 : w.find (n% "Normalizer2") (n% "Normalizer2") (n% "getRawNorm16") = fnOf (n% "Normalizer2") Syntax.Normalizer2.Normalizer2.getRawNorm16 := found H 21 (by decide)

theorem Names.isMaybeOrNonZeroCC : w.find (n% "Normalizer2") (n% "Normalizer2") (n% "isMaybeOrNonZeroCC") = fnOf (n% "Normalizer2") Syntax.Normalizer2.Normalizer2.isMaybeOrNonZeroCC := found H 22 (by decide)

theorem Names.isDecompNoAlgorithmic : w.find (n% "Normalizer2") (n% "Normalizer2") (n% "isDecompNoAlgorithmic") = fnOf (n% "Normalizer2") Syntax.Normalizer2.Normalizer2.isDecompNoAlgorithmic := found H 23 (by decide)

theorem Names.isDecompYes : w.find (n% "Normalizer2") (n% "Normalizer2") (n% "isDecompYes") = fnOf (n% "Normalizer2") Syntax.Normalizer2.Normalizer2.isDecompYes := found H 24 (by decide)

theorem Names.isInert : w.find (n% "Normalizer2") (n% "Normalizer2") (n% "isInert") = fnOf (n% "Normalizer2") Syntax.Normalizer2.Normalizer2.isInert := found H 25 (by decide)

theorem Names.isJamoL : w.find (n% "Normalizer2") (n% "Normalizer2") (n% "isJamoL") = fnOf (n% "Normalizer2") Syntax.Normalizer2.Normalizer2.isJamoL := found H 26 (by decide)

theorem Names.isJamoVT : w.find (n% "Normalizer2") (n% "Normalizer2") (n% "isJamoVT") = fnOf (n% "Normalizer2") Syntax.Normalizer2.Normalizer2.isJamoVT := found H 27 (by decide)

theorem Names.hangulLVT : w.find (n% "Normalizer2") (n% "Normalizer2") (n% "hangulLVT") = fnOf (n% "Normalizer2") Syntax.Normalizer2.Normalizer2.hangulLVT := found H 28 (by decide)

theorem Names.isHangulLV : w.find (n% "Normalizer2") (n% "Normalizer2") (n% "isHangulLV") = fnOf (n% "Normalizer2") Syntax.Normalizer2.Normalizer2.isHangulLV := found H 29 (by decide)

theorem Names.isHangulLVT : w.find (n% "Normalizer2") (n% "Normalizer2") (n% "isHangulLVT") = fnOf (n% "Normalizer2") Syntax.Normalizer2.Normalizer2.isHangulLVT := found H 30 (by decide)

theorem Names.hangulDecomposition : w.find (n% "Normalizer2") (n% "Normalizer2") (n% "hangulDecomposition") = fnOf (n% "Normalizer2") Syntax.Normalizer2.Normalizer2.hangulDecomposition := found H 31 (by decide)

theorem Names.rawHangulDecomposition : w.find (n% "Normalizer2") (n% "Normalizer2") (n% "rawHangulDecomposition") = fnOf (n% "Normalizer2") Syntax.Normalizer2.Normalizer2.rawHangulDecomposition := found H 32 (by decide)

theorem Names.mapAlgorithmic : w.find (n% "Normalizer2") (n% "Normalizer2") (n% "mapAlgorithmic") = fnOf (n% "Normalizer2") Syntax.Normalizer2.Normalizer2.mapAlgorithmic := found H 33 (by decide)

theorem Names.getMappingIndex : w.find (n% "Normalizer2") (n% "Normalizer2") (n% "getMappingIndex") = fnOf (n% "Normalizer2") Syntax.Normalizer2.Normalizer2.getMappingIndex := found H 34 (by decide)

theorem Names.stringFromData : w.find (n% "Normalizer2") (n% "Normalizer2") (n% "stringFromData") = fnOf (n% "Normalizer2") Syntax.Normalizer2.Normalizer2.stringFromData := found H 35 (by decide)

theorem Names.getDecomposition : w.find (n% "Normalizer2") (n% "Normalizer2") (n% "getDecomposition") = fnOf (n% "Normalizer2") Syntax.Normalizer2.Normalizer2.getDecomposition := found H 36 (by decide)

theorem Names.getRawDecomposition : w.find (n% "Normalizer2") (n% "Normalizer2") (n% "getRawDecomposition") = fnOf (n% "Normalizer2") Syntax.Normalizer2.Normalizer2.getRawDecomposition := found H 37 (by decide)

omit H in
theorem call_from {call : Call} {m m' f : Nat} {args : Val} (h : w.find m 0 f = w.find m' 0 f) :
    callName w call m f args = callName w call m' f args := by simp only [callName, h]

theorem lead_call (c : Int) (n : Nat) : callName w (run w (n + 1)) (n% "Normalizer2") (n% "isLead") (.cons (.int c) .nil) =
    .ok (.bool (Verif.Utilities.isLead c)) := by
  rw [call_from (m' := n% "Utilities") (by rw [Names.isLead H, Utilities.found H.utilities, Utilities.facts.2.2.2.2.1])]
  exact Utilities.isLead_run H.utilities c n

theorem char_call (a b : Int) (n : Nat) : callName w (run w (n + 1)) (n% "Normalizer2") (n% "charFromSurrogates") (.cons (.int a) (.cons (.int b) .nil)) =
    .ok (.int (Verif.Utilities.charFromSurrogates a b)) := by
  rw [call_from (m' := n% "Utilities") (by rw [Names.charFromSurrogates H, Utilities.found H.utilities, Utilities.facts.2.2.2.2.2.2.1])]
  exact Utilities.charFromSurrogates_run H.utilities a b n

theorem range_call {call : Call} {args : Val} : callName w call (n% "Normalizer2") (n% "range") args = builtin (n% "range") args :=
  builtin_call (Names.range H)

theorem len_call {call : Call} (s : Str) : callName w call (n% "Normalizer2") (n% "len") (.cons (.str s) .nil) = .ok (.int s.length) :=
  builtin_call (Names.len H)

theorem chr_call {call : Call} (i : Int) : callName w call (n% "Normalizer2") (n% "chr") (.cons (.int i) .nil) =
    match chr i with | .ok e => .ok (.str [e]) | .error e => .error (.raised e) := by
  rw [builtin_call (Names.chr H), builtin, chr]
  by_cases h : 0 ≤ i ∧ i ≤ 0x10FFFF
  · rw [if_pos h, if_pos h]; rfl
  · rw [if_neg h, if_neg h]; rfl

variable (N : IsNorm w v tv iv dv ev x)
include N

omit H in
theorem method {f y : Nat} {call : Call} {args : Val} {d b : Stmt} {ps : Expr}
    (h : w.find (n% "Normalizer2") (n% "Normalizer2") f = fnOf (n% "Normalizer2") d)
    (hd : d = .defn y ps b) : callMethod w call v f args = (call (n% "Normalizer2") ps b (.cons v args)).map Prod.fst := by
  obtain ⟨fs, e⟩ := N.object
  simp only [e, callMethod, h, hd, fnOf]

theorem trie_run (c n : Nat) : callMethod w (run w (n + 4)) tv (n% "get") (.cons (.int c) .nil) = lift ((x.trie.get c).map fun e => .int e) :=
  CPTries.get_run H.trie N.isTrie c n

local notation "call[" n ", " f ", " a "]" => callMethod w (run w n) v f a

local macro "start" h:term : tactic => `(tactic| rw [method N $h rfl])

theorem getNorm16_run (c n : Nat) : call[n + 5, n% "getNorm16", .cons (.int c) .nil] = lift ((x.getNorm16 c).map fun e => .int e) := by
  start (Names.getNorm16 H)
  unfold Normalizer2.getNorm16
  cases h : Verif.Utilities.isLead c
  · cases h' : x.trie.get c <;> py_run [lead_call H, h, Names.INERT H, N.trie, trie_run H N, h']
  · py_run [lead_call H, h, Names.INERT H, Normalizer2.INERT]

theorem getRawNorm16_run (c n : Nat) : call[n + 5, n% "getRawNorm16", .cons (.int c) .nil] = lift ((x.getRawNorm16 c).map fun e => .int e) := by
  start (Names.getRawNorm16 H)
  unfold Normalizer2.getRawNorm16
  cases h' : x.trie.get c <;> py_run [N.trie, trie_run H N, h']

theorem isMaybeOrNonZeroCC_run (a n : Nat) : call[n + 1, n% "isMaybeOrNonZeroCC", .cons (.int a) .nil] = .ok (.bool (x.isMaybeOrNonZeroCC a)) := by
  start (Names.isMaybeOrNonZeroCC H)
  py_run [Normalizer2.isMaybeOrNonZeroCC, N.minMaybeYes]

theorem isDecompNoAlgorithmic_run (a n : Nat) : call[n + 1, n% "isDecompNoAlgorithmic", .cons (.int a) .nil] =
    .ok (.bool (x.isDecompNoAlgorithmic a)) := by
  start (Names.isDecompNoAlgorithmic H)
  py_run [Normalizer2.isDecompNoAlgorithmic, N.limitNoNo]

theorem isDecompYes_run (a n : Nat) : call[n + 1, n% "isDecompYes", .cons (.int a) .nil] = .ok (.bool (x.isDecompYes a)) := by
  start (Names.isDecompYes H)
  py_run [Normalizer2.isDecompYes, N.minYesNo, N.minMaybeYes, Bool.decide_or]

theorem isInert_run (a n : Nat) : call[n + 1, n% "isInert", .cons (.int a) .nil] = .ok (.bool (Normalizer2.isInert a)) := by
  start (Names.isInert H)
  py_run [Normalizer2.isInert, Normalizer2.INERT, Names.INERT H]
  rfl

theorem isJamoL_run (a n : Nat) : call[n + 1, n% "isJamoL", .cons (.int a) .nil] = .ok (.bool (Normalizer2.isJamoL a)) := by
  start (Names.isJamoL H)
  py_run [Normalizer2.isJamoL, Normalizer2.JAMO_L, Names.JAMO_L H]
  rfl

theorem isJamoVT_run (a n : Nat) : call[n + 1, n% "isJamoVT", .cons (.int a) .nil] = .ok (.bool (Normalizer2.isJamoVT a)) := by
  start (Names.isJamoVT H)
  py_run [Normalizer2.isJamoVT, Normalizer2.JAMO_VT, Names.JAMO_VT H]
  rfl

theorem hangulLVT_run (n : Nat) : call[n + 1, n% "hangulLVT", .nil] = .ok (.int x.hangulLVT) := by
  start (Names.hangulLVT H)
  py_run [Normalizer2.hangulLVT, Normalizer2.HAS_COMP_BOUNDARY_AFTER, Names.HAS_COMP_BOUNDARY_AFTER H, N.minYesNoMappingsOnly]

theorem isHangulLV_run (a n : Nat) : call[n + 1, n% "isHangulLV", .cons (.int a) .nil] = .ok (.bool (x.isHangulLV a)) := by
  start (Names.isHangulLV H)
  py_run [Normalizer2.isHangulLV, N.minYesNo]

theorem isHangulLVT_run (a n : Nat) : call[n + 2, n% "isHangulLVT", .cons (.int a) .nil] = .ok (.bool (x.isHangulLVT a)) := by
  start (Names.isHangulLVT H)
  py_run [Normalizer2.isHangulLVT, hangulLVT_run H N]

theorem mapAlgorithmic_run (c a n : Nat) : call[n + 1, n% "mapAlgorithmic", .cons (.int c) (.cons (.int a) .nil)] =
    .ok (.int (x.mapAlgorithmic c a)) := by
  start (Names.mapAlgorithmic H)
  py_run [Normalizer2.mapAlgorithmic, Normalizer2.DELTA_SHIFT, Names.DELTA_SHIFT H, N.centerNoNoDelta, Nat.shiftRight_eq_div_pow]

theorem getMappingIndex_run (a n : Nat) : call[n + 1, n% "getMappingIndex", .cons (.int a) .nil] =
    .ok (.int (Normalizer2.getMappingIndex a : Nat)) := by
  start (Names.getMappingIndex H)
  py_run [Normalizer2.getMappingIndex, Normalizer2.OFFSET_SHIFT, Names.OFFSET_SHIFT H, Nat.shiftRight_eq_div_pow]

omit H N in
theorem numbers : (Normalizer2.JAMO_T_COUNT = 0) = False ∧ (Normalizer2.JAMO_V_COUNT = 0) = False ∧
    (∀ a : Int, a.fmod Normalizer2.JAMO_T_COUNT = a % Normalizer2.JAMO_T_COUNT) ∧ (∀ a : Int, a.fmod Normalizer2.JAMO_V_COUNT = a % Normalizer2.JAMO_V_COUNT) ∧
    (∀ a : Int, a.fdiv Normalizer2.JAMO_T_COUNT = a / Normalizer2.JAMO_T_COUNT) ∧ ∀ a : Int, a.fdiv Normalizer2.JAMO_V_COUNT = a / Normalizer2.JAMO_V_COUNT :=
  ⟨eq_false (by decide), eq_false (by decide), fun a => Int.fmod_eq_emod_of_nonneg a (by decide), fun a => Int.fmod_eq_emod_of_nonneg a (by decide),
    fun a => Int.fdiv_eq_ediv_of_nonneg a (by decide), fun a => Int.fdiv_eq_ediv_of_nonneg a (by decide)⟩

theorem hangulDecomposition_run (c : Int) (n : Nat) : call[n + 1, n% "hangulDecomposition", .cons (.int c) .nil] =
    lift ((Normalizer2.hangulDecomposition c).map .str) := by
  start (Names.hangulDecomposition H)
  unfold Normalizer2.hangulDecomposition
  generalize hc : c - Normalizer2.HANGUL_BASE = d
  cases h1 : chr (Normalizer2.JAMO_L_BASE + d / Normalizer2.JAMO_T_COUNT / Normalizer2.JAMO_V_COUNT) with
  | error e => py_run [Names.HANGUL_BASE H, Names.JAMO_T_COUNT H, Names.JAMO_L_BASE H, Names.JAMO_V_COUNT H, numbers, hc, chr_call H, h1]
  | ok l =>
  cases h2 : chr (Normalizer2.JAMO_V_BASE + d / Normalizer2.JAMO_T_COUNT % Normalizer2.JAMO_V_COUNT) with
  | error e => py_run [Names.HANGUL_BASE H, Names.JAMO_T_COUNT H, Names.JAMO_L_BASE H, Names.JAMO_V_BASE H, Names.JAMO_V_COUNT H, numbers, hc, chr_call H, h1, h2]
  | ok u =>
  by_cases h3 : d % Normalizer2.JAMO_T_COUNT = 0
  · have d3 : decide (d % Normalizer2.JAMO_T_COUNT = ((0 : Nat) : Int)) = true := decide_eq_true h3
    py_run [Names.HANGUL_BASE H, Names.JAMO_T_COUNT H, Names.JAMO_L_BASE H, Names.JAMO_V_BASE H, Names.JAMO_V_COUNT H, numbers, hc, chr_call H, h1, h2, d3,
      if_neg (not_not_intro h3), Bool.not_true, Bool.not_false, Bool.true_or, Bool.false_or, Bool.or_true, Bool.or_false, List.nil_append, List.cons_append]
  · have d3 : decide (d % Normalizer2.JAMO_T_COUNT = ((0 : Nat) : Int)) = false := decide_eq_false h3
    cases h4 : chr (Normalizer2.JAMO_T_BASE + d % Normalizer2.JAMO_T_COUNT) <;>
      py_run [Names.HANGUL_BASE H, Names.JAMO_T_COUNT H, Names.JAMO_L_BASE H, Names.JAMO_V_BASE H, Names.JAMO_T_BASE H, Names.JAMO_V_COUNT H, numbers, hc, chr_call H,
        h1, h2, d3, if_pos h3, h4, Bool.not_true, Bool.not_false, Bool.true_or, Bool.false_or, Bool.or_true, Bool.or_false, List.nil_append, List.cons_append]

theorem rawHangulDecomposition_run (c : Int) (n : Nat) : call[n + 1, n% "rawHangulDecomposition", .cons (.int c) .nil] =
    lift ((Normalizer2.rawHangulDecomposition c).map .str) := by
  start (Names.rawHangulDecomposition H)
  unfold Normalizer2.rawHangulDecomposition
  generalize hc : c - Normalizer2.HANGUL_BASE = d
  by_cases h3 : d % Normalizer2.JAMO_T_COUNT = 0
  · have d3 : decide (d % Normalizer2.JAMO_T_COUNT = ((0 : Nat) : Int)) = true := decide_eq_true h3
    cases h1 : chr (Normalizer2.JAMO_L_BASE + d / Normalizer2.JAMO_T_COUNT / Normalizer2.JAMO_V_COUNT) with
    | error e => py_run [Names.HANGUL_BASE H, Names.JAMO_T_COUNT H, Names.JAMO_L_BASE H, Names.JAMO_V_COUNT H, numbers, hc, chr_call H, h1, d3, if_pos h3]
    | ok l =>
      cases h2 : chr (Normalizer2.JAMO_V_BASE + d / Normalizer2.JAMO_T_COUNT % Normalizer2.JAMO_V_COUNT) <;>
        py_run [Names.HANGUL_BASE H, Names.JAMO_T_COUNT H, Names.JAMO_L_BASE H, Names.JAMO_V_BASE H, Names.JAMO_V_COUNT H, numbers, hc, chr_call H, h1, h2, d3,
          if_pos h3, Bool.not_true, Bool.not_false, Bool.true_or, Bool.false_or, Bool.or_true, Bool.or_false, List.nil_append, List.cons_append]
  · have d3 : decide (d % Normalizer2.JAMO_T_COUNT = ((0 : Nat) : Int)) = false := decide_eq_false h3
    cases h1 : chr (c - d % Normalizer2.JAMO_T_COUNT) with
    | error e => py_run [Names.HANGUL_BASE H, Names.JAMO_T_COUNT H, numbers, hc, chr_call H, h1, d3, if_neg h3]
    | ok l =>
      cases h2 : chr (Normalizer2.JAMO_T_BASE + d % Normalizer2.JAMO_T_COUNT) <;>
        py_run [Names.HANGUL_BASE H, Names.JAMO_T_COUNT H, Names.JAMO_T_BASE H, numbers, hc, chr_call H, h1, h2, d3, if_neg h3, Bool.not_true, Bool.not_false, Bool.true_or, Bool.false_or, Bool.or_true, Bool.or_false, List.nil_append, List.cons_append]

/-- Normalizer2.py:229-239 the body of the loop of `stringFromData`. -/
def strBody : Stmt := (.seq (.assign (.name (n% "ch")) (.index (.attr (.name (n% "self")) (n% "extraData")) (.bin .add (.name (n% "index")) (.name (n% "i"))))) (.seq (.ifs (.bin .ne (.name (n% "lead")) (.num 0)) (.seq (.assign (.name (n% "ch")) (.call (.name (n% "charFromSurrogates")) (.cons (.name (n% "lead")) (.cons (.name (n% "ch")) .nil)))) (.seq (.assign (.name (n% "lead")) (.num 0)) .skip)) (.seq (.ifs (.call (.name (n% "isLead")) (.cons (.name (n% "ch")) .nil)) (.seq (.assign (.name (n% "lead")) (.name (n% "ch"))) (.seq .cont .skip)) .skip) .skip)) (.seq (.aug .add (.name (n% "s")) (.call (.name (n% "chr")) (.cons (.name (n% "ch")) .nil))) .skip)))

/-- What is known about the variables during the loop. -/
structure Reading (v : Val) (ix : Int) (s : Str) (lead : Nat) (env : Env) : Prop where
  self : getVar (n% "self") env = some v
  index : getVar (n% "index") env = some (.int ix)
  s : getVar (n% "s") env = some (.str s)
  lead : getVar (n% "lead") env = some (.int lead)
  char : getVar (n% "charFromSurrogates") env = none
  isLead : getVar (n% "isLead") env = none
  chr : getVar (n% "chr") env = none

/-- How one round of the loop ends, when it reads `ch`: the flow, the variables, the text and the lead surrogate. -/
def round (env : Env) (s : Str) (lead ch : Nat) : Py (Flow × Env × Str × Nat) :=
  let env := setVar (n% "ch") (.int ch) env
  if lead ≠ 0 then
    match Verif.chr (Verif.Utilities.charFromSurrogates lead ch) with
    | .ok x => .ok (.next, setVar (n% "s") (.str (s ++ [x])) (setVar (n% "lead") (.int (0 : Nat))
        (setVar (n% "ch") (.int (Verif.Utilities.charFromSurrogates lead ch)) env)), s ++ [x], 0)
    | .error e => .error e
  else if Verif.Utilities.isLead ch then .ok (.cont, setVar (n% "lead") (.int ch) env, s, ch)
  else
    match Verif.chr ch with
    | .ok x => .ok (.next, setVar (n% "s") (.str (s ++ [x])) env, s ++ [x], lead)
    | .error e => .error e

omit H N in
theorem round_reading {ix : Int} {s : Str} {lead ch : Nat} {env : Env} (h : Reading v ix s lead env) :
    ∀ r, round env s lead ch = .ok r → (r.1 = .next ∨ r.1 = .cont) ∧ Reading v ix r.2.2.1 r.2.2.2 r.2.1 := by
  intro r hr
  unfold round at hr
  have k := fun y (u : Val) e => getVar_setVar y (n% "s") u e
  have k' := fun y (u : Val) e => getVar_setVar y (n% "ch") u e
  have k'' := fun y (u : Val) e => getVar_setVar y (n% "lead") u e
  split at hr
  · split at hr
    · cases hr
      refine ⟨.inl rfl, ?_, ?_, ?_, ?_, ?_, ?_, ?_⟩ <;> simp only [k, k', k'', h.self, h.index, h.char, h.isLead, h.chr, Nat.reduceEqDiff, ↓reduceIte]
    · cases hr
  · split at hr
    · cases hr
      refine ⟨.inr rfl, ?_, ?_, ?_, ?_, ?_, ?_, ?_⟩ <;> simp only [k', k'', h.self, h.index, h.s, h.char, h.isLead, h.chr, Nat.reduceEqDiff, ↓reduceIte]
    · split at hr
      · cases hr
        refine ⟨.inl rfl, ?_, ?_, ?_, ?_, ?_, ?_, ?_⟩ <;>
          simp only [k, k', h.self, h.index, h.lead, h.char, h.isLead, h.chr, Nat.reduceEqDiff, ↓reduceIte]
      · cases hr

theorem body_run {n fuel i : Nat} {ix : Int} {s : Str} {lead : Nat} {env : Env} (h : Reading v ix s lead env)
    (hi : getVar (n% "i") env = some (.int i)) :
    exec w (run w (n + 1)) fuel (n% "Normalizer2") strBody (env, []) = match x.extraData.getI (ix + i) with
      | .ok ch =>
        match round env s lead ch with
        | .ok r => .ok (r.1, (r.2.1, []))
        | .error e => .error (.raised e)
      | .error e => .error (.raised e) := by
  cases hg : x.extraData.getI (ix + i) with
  | error e => py_run [strBody, h.self, h.index, hi, N.extraData, N.extraAt, hg]
  | ok ch =>
    unfold round
    by_cases hl : lead = 0
    · have d : decide (lead = 0) = true := decide_eq_true hl
      cases hl' : Verif.Utilities.isLead ch
      · cases hc : Verif.chr ch <;>
          py_run [strBody, h.self, h.index, hi, N.extraData, N.extraAt, hg, getVar_setVar, h.lead, h.isLead, h.chr, h.s, lead_call H, hl', chr_call H, hc,
            d, if_neg (not_not_intro hl), Bool.not_true]
      · py_run [strBody, h.self, h.index, hi, N.extraData, N.extraAt, hg, getVar_setVar, h.lead, h.isLead, lead_call H, hl', d, if_neg (not_not_intro hl), Bool.not_true]
    · have d : decide (lead = 0) = false := decide_eq_false hl
      cases hc : Verif.chr (Verif.Utilities.charFromSurrogates lead ch) <;>
        py_run [strBody, h.self, h.index, hi, N.extraData, N.extraAt, hg, getVar_setVar, h.lead, h.char, h.chr, h.s, d, if_pos hl, char_call H, chr_call H, hc,
          Bool.not_false, ne_eq]

omit H N in
theorem Reading.setI {ix : Int} {s : Str} {lead : Nat} {env : Env} (h : Reading v ix s lead env) (u : Val) :
    Reading v ix s lead (setVar (n% "i") u env) := by
  refine ⟨?_, ?_, ?_, ?_, ?_, ?_, ?_⟩ <;>
    simp only [getVar_setVar, h.self, h.index, h.s, h.lead, h.char, h.isLead, h.chr, Nat.reduceEqDiff, ↓reduceIte]

omit H N in
/-- A round of the loop, in the model. -/
theorem stringLoop_succ (env : Env) (data : Arr) (k : Nat) (i : Int) (s : Str) (lead : Nat) :
    Normalizer2.stringLoop data (k + 1) i lead = match data.getI i with
      | .ok ch =>
        match round env s lead ch with
        | .ok r => (Normalizer2.stringLoop data k (i + 1) r.2.2.2).map fun t => r.2.2.1.drop s.length ++ t
        | .error e => .error e
      | .error e => .error e := by
  rw [Normalizer2.stringLoop]
  cases hg : data.getI i with
  | error e => rfl
  | ok ch =>
    show (if lead ≠ 0 then _ else _) = _
    unfold round
    dsimp only
    by_cases hl : lead = 0
    · rw [if_neg (not_not_intro hl), if_neg (not_not_intro hl)]
      cases hl' : Verif.Utilities.isLead ch
      · rw [if_neg Bool.false_ne_true, if_neg Bool.false_ne_true]
        cases hc : Verif.chr ch with
        | error e => rfl
        | ok y =>
          simp only [hl, List.drop_left]
          show Except.bind _ _ = _
          cases Normalizer2.stringLoop data k (i + 1) 0 <;> rfl
      · rw [if_pos rfl, if_pos rfl]
        simp only [List.drop_length, List.nil_append]
        cases Normalizer2.stringLoop data k (i + 1) ch <;> rfl
    · rw [if_pos hl, if_pos hl]
      cases hc : Verif.chr (Verif.Utilities.charFromSurrogates lead ch) with
      | error e => rfl
      | ok y =>
        simp only [List.drop_left]
        show Except.bind _ _ = _
        cases Normalizer2.stringLoop data k (i + 1) 0 <;> rfl

omit H N in
theorem round_prefix {env : Env} {s : Str} {lead ch : Nat} : ∀ r, round env s lead ch = .ok r → s ++ r.2.2.1.drop s.length = r.2.2.1 := by
  intro r hr
  unfold round at hr
  split at hr
  · split at hr
    · cases hr; rw [List.drop_left]
    · cases hr
  · split at hr
    · cases hr; rw [List.drop_length, List.append_nil]
    · split at hr
      · cases hr; rw [List.drop_left]
      · cases hr

theorem loop_run {n fuel : Nat} {ix : Int} (k : Nat) : ∀ {j : Nat} {s : Str} {lead : Nat} {env : Env}, Reading v ix s lead env →
    match Normalizer2.stringLoop x.extraData k (ix + j) lead with
    | .ok t => ∃ env' lead', each (.name (n% "i")) (exec w (run w (n + 1)) fuel (n% "Normalizer2") strBody)
        ((List.range' j k).map fun (i : Nat) => .int (i : Int)) (env, []) = .ok (.next, (env', [])) ∧ Reading v ix (s ++ t) lead' env'
    | .error e => each (.name (n% "i")) (exec w (run w (n + 1)) fuel (n% "Normalizer2") strBody)
        ((List.range' j k).map fun (i : Nat) => .int (i : Int)) (env, []) = .error (.raised e) := by
  induction k with
  | zero => intro j s lead env h; exact ⟨env, lead, rfl, by rw [List.append_nil]; exact h⟩
  | succ k ih =>
    intro j s lead env h
    have h' := h.setI (.int (j : Int))
    have b := body_run H N (n := n) (fuel := fuel) h' (i := j) (by rw [getVar_setVar]; rfl)
    rw [stringLoop_succ (setVar (n% "i") (.int (j : Int)) env) _ k _ s lead, List.range'_succ, List.map_cons, each, assign]
    simp only [Bind.bind, Except.bind]
    cases hg : x.extraData.getI (ix + j) with
    | error e => rw [hg] at b; rw [b]
    | ok ch =>
      rw [hg] at b
      dsimp only at b ⊢
      cases hr : round (setVar (n% "i") (.int (j : Int)) env) s lead ch with
      | error e => rw [hr] at b; rw [b]
      | ok r =>
        rw [hr] at b
        rw [b]
        obtain ⟨hf, hR⟩ := round_reading h' r hr
        have p := round_prefix r hr
        have y := ih (j := j + 1) hR
        rw [show ix + ((j + 1 : Nat) : Int) = ix + j + 1 by omega] at y
        dsimp only
        rcases hf with hf | hf <;> rw [hf] <;> dsimp only <;>
        · cases ht : Normalizer2.stringLoop x.extraData k (ix + j + 1) r.2.2.2 with
          | error e => rw [ht] at y; exact y
          | ok t =>
            rw [ht] at y
            obtain ⟨env', l', y, y'⟩ := y
            exact ⟨env', l', y, by rw [← List.append_assoc, p]; exact y'⟩

theorem stringFromData_run (i l : Int) (n : Nat) : call[n + 2, n% "stringFromData", .cons (.int i) (.cons (.int l) .nil)] =
    lift ((x.stringFromData i l).map .str) := by
  rw [method N (Names.stringFromData H) (b := (.seq (.assign (.name (n% "s")) (.str [])) (.seq (.assign (.name (n% "lead")) (.num 0)) (.seq (.for (.name (n% "i")) (.call (.name (n% "range")) (.cons (.name (n% "length")) .nil)) strBody) (.seq (.ret (.name (n% "s"))) .skip))))) rfl]
  have y : yields strBody = false := rfl
  have z : rangeList 0 l = (List.range' 0 l.toNat).map fun (i : Nat) => .int (i : Int) := by
    rw [rangeList, Int.sub_zero, List.range_eq_range']
    exact List.map_congr_left fun i _ => by rw [Int.zero_add]
  have r := loop_run H N (n := n) (fuel := n + 1) (ix := i) l.toNat (j := 0) (s := []) (lead := 0)
    (env := [(n% "self", v), (n% "index", .int i), (n% "length", .int l), (n% "s", .str []), (n% "lead", .int (0 : Nat))])
    ⟨rfl, rfl, rfl, rfl, rfl, rfl, rfl⟩
  rw [show i + ((0 : Nat) : Int) = i from Int.add_zero i] at r
  unfold Normalizer2.stringFromData
  cases hs : Normalizer2.stringLoop x.extraData l.toNat i 0 with
  | error e =>
    rw [hs] at r
    dsimp only at r
    py_run [range_call H, builtin, iter, y, z, r]
  | ok t =>
    rw [hs] at r
    obtain ⟨env', l', r, r'⟩ := r
    py_run [range_call H, builtin, iter, y, z, r, r'.s, List.nil_append]

/-- Normalizer2.py:259-271 the end of `getDecomposition`. -/
def decompTail : Stmt := (.seq (.assign (.name (n% "decomposition")) (.str [])) (.seq (.ifs (.or (.call (.attr (.name (n% "self")) (n% "isHangulLV")) (.cons (.name (n% "norm16")) .nil)) (.call (.attr (.name (n% "self")) (n% "isHangulLVT")) (.cons (.name (n% "norm16")) .nil))) (.seq (.ret (.call (.attr (.name (n% "self")) (n% "hangulDecomposition")) (.cons (.name (n% "c")) .nil))) .skip) .skip) (.seq (.assign (.name (n% "ix")) (.call (.attr (.name (n% "self")) (n% "getMappingIndex")) (.cons (.name (n% "norm16")) .nil))) (.seq (.assign (.name (n% "length")) (.bin .and (.index (.attr (.name (n% "self")) (n% "extraData")) (.name (n% "ix"))) (.name (n% "MAPPING_LENGTH_MASK")))) (.seq (.aug .add (.name (n% "decomposition")) (.call (.attr (.name (n% "self")) (n% "stringFromData")) (.cons (.bin .add (.name (n% "ix")) (.num 1)) (.cons (.name (n% "length")) .nil)))) (.seq (.ret (.name (n% "decomposition"))) .skip))))))

/-- What part of a function does that ends with `return` of a text or `None`. -/
def verdict : R (Flow × St) → R Val
  | .ok (.ret v, _) => .ok v
  | .ok _ => .error .stuck
  | .error e => .error e

omit H N in
theorem verdict_cases {r : R (Flow × St)} {p : Py (Option Str)} (h : verdict r = lift (p.map optional)) :
    (∃ e, p = .error e ∧ r = .error (.raised e)) ∨ ∃ o st, p = .ok o ∧ r = .ok (.ret (optional o), st) := by
  cases p with
  | error e =>
    refine .inl ⟨e, rfl, ?_⟩
    rcases r with r | ⟨_ | _ | _ | v, st⟩ <;> simp only [verdict, lift, Except.map] at h <;> cases h <;> rfl
  | ok o =>
    refine .inr ⟨o, ?_⟩
    rcases r with r | ⟨_ | _ | _ | v, st⟩ <;> simp only [verdict, lift, Except.map] at h <;> cases h
    exact ⟨st, rfl, rfl⟩

theorem decompTail_run (c a n fuel : Nat) (d : Str) : verdict (exec w (run w (n + 4)) fuel (n% "Normalizer2") decompTail
      ([(n% "self", v), (n% "c", .int c), (n% "decomposition", .str d), (n% "norm16", .int a)], [])) = lift ((x.mappingOf c a).map optional) := by
  unfold Normalizer2.mappingOf
  cases h1 : x.isHangulLV a <;> cases h2 : x.isHangulLVT a
  · cases hg : x.extraData.getI (Normalizer2.getMappingIndex a) with
    | error e => py_run [decompTail, isHangulLV_run H N, h1, isHangulLVT_run H N, h2, getMappingIndex_run H N, N.extraData, N.extraAt, hg, verdict, or_self, optional]
    | ok u =>
      have e1 : ((Normalizer2.getMappingIndex a : Nat) : Int) + 1 = ((Normalizer2.getMappingIndex a + 1 : Nat) : Int) := rfl
      cases hs : x.stringFromData (Normalizer2.getMappingIndex a + 1 : Nat) (u &&& 31 : Nat) <;>
        py_run [decompTail, e1, isHangulLV_run H N, h1, isHangulLVT_run H N, h2, getMappingIndex_run H N, N.extraData, N.extraAt, hg, Names.MAPPING_LENGTH_MASK H,
          Normalizer2.MAPPING_LENGTH_MASK, stringFromData_run H N, hs, verdict, or_self, optional, List.nil_append]
  all_goals
    cases hd : Normalizer2.hangulDecomposition c <;>
      py_run [decompTail, isHangulLV_run H N, h1, isHangulLVT_run H N, h2, hangulDecomposition_run H N, hd, verdict, true_or, or_true, or_self, optional]

omit H N in
theorem chr_ok {i : Int} {y : Nat} (h : Verif.chr i = .ok y) : i = y := by
  unfold Verif.chr at h
  split at h
  · cases h; omega
  · cases h

theorem getDecomposition_run (c n : Nat) : call[n + 6, n% "getDecomposition", .cons (.int c) .nil] =
    lift ((x.getDecomposition c).map optional) := by
  rw [method N (Names.getDecomposition H) (b := (.seq (.assign (.name (n% "decomposition")) (.str [])) (.seq (.assign (.name (n% "norm16")) (.call (.attr (.name (n% "self")) (n% "getNorm16")) (.cons (.name (n% "c")) .nil))) (.seq (.ifs (.or (.bin .lt (.name (n% "c")) (.attr (.name (n% "self")) (n% "minDecompNoCP"))) (.call (.attr (.name (n% "self")) (n% "isMaybeOrNonZeroCC")) (.cons (.name (n% "norm16")) .nil))) (.seq (.ret (.name (n% "None"))) .skip) .skip) (.seq (.ifs (.call (.attr (.name (n% "self")) (n% "isDecompNoAlgorithmic")) (.cons (.name (n% "norm16")) .nil)) (.seq (.assign (.name (n% "c")) (.call (.attr (.name (n% "self")) (n% "mapAlgorithmic")) (.cons (.name (n% "c")) (.cons (.name (n% "norm16")) .nil)))) (.seq (.aug .add (.name (n% "decomposition")) (.call (.name (n% "chr")) (.cons (.name (n% "c")) .nil))) (.seq (.assign (.name (n% "norm16")) (.call (.attr (.name (n% "self")) (n% "getRawNorm16")) (.cons (.name (n% "c")) .nil))) .skip))) .skip) (.seq (.ifs (.bin .lt (.name (n% "norm16")) (.attr (.name (n% "self")) (n% "minYesNo"))) (.seq (.ret (.cond (.bin .gt (.call (.name (n% "len")) (.cons (.name (n% "decomposition")) .nil)) (.num 0)) (.name (n% "decomposition")) (.name (n% "None")))) .skip) .skip) decompTail)))))) rfl]
  have y : yields decompTail = false := rfl
  unfold Normalizer2.getDecomposition
  cases h1 : x.getNorm16 c with
  | error e => py_run [getNorm16_run H N, h1, y]
  | ok a =>
  cases h2 : decide (c < x.minDecompNoCP) with
  | true => py_run [getNorm16_run H N, h1, y, N.minDecompNoCP, h2, Names.None H, optional, if_pos (Or.inl (of_decide_eq_true h2))]
  | false =>
  cases h3 : x.isMaybeOrNonZeroCC a with
  | true => py_run [getNorm16_run H N, h1, y, N.minDecompNoCP, h2, isMaybeOrNonZeroCC_run H N, h3, Names.None H, optional, or_true]
  | false =>
  have k2 : ¬(c < x.minDecompNoCP ∨ False) := fun h => h.elim (of_decide_eq_false h2) id
  cases h4 : x.isDecompNoAlgorithmic a with
  | false =>
    cases h5 : decide (a < x.minYesNo) with
    | true =>
      py_run [getNorm16_run H N, h1, y, N.minDecompNoCP, h2, isMaybeOrNonZeroCC_run H N, h3, if_neg k2, isDecompNoAlgorithmic_run H N, h4, N.minYesNo, h5,
        if_pos (of_decide_eq_true h5), len_call H, List.length_nil, Nat.lt_irrefl, decide_false, Names.None H, optional]
    | false =>
      have t := decompTail_run H N c a (n + 1) (n + 5) []
      rcases verdict_cases t with ⟨e, p, q⟩ | ⟨o, st, p, q⟩ <;>
        py_run [getNorm16_run H N, h1, y, N.minDecompNoCP, h2, isMaybeOrNonZeroCC_run H N, h3, if_neg k2, isDecompNoAlgorithmic_run H N, h4, N.minYesNo, h5,
          if_neg (of_decide_eq_false h5), q, p]
  | true =>
  cases h5 : Verif.chr (x.mapAlgorithmic c a) with
  | error e =>
    py_run [getNorm16_run H N, h1, y, N.minDecompNoCP, h2, isMaybeOrNonZeroCC_run H N, h3, if_neg k2, isDecompNoAlgorithmic_run H N, h4, mapAlgorithmic_run H N,
      chr_call H, h5]
  | ok b =>
  have h5' := chr_ok h5
  rw [h5'] at h5
  cases h6 : x.getRawNorm16 b with
  | error e =>
    py_run [getNorm16_run H N, h1, y, N.minDecompNoCP, h2, isMaybeOrNonZeroCC_run H N, h3, if_neg k2, isDecompNoAlgorithmic_run H N, h4, mapAlgorithmic_run H N,
      chr_call H, h5, h5', getRawNorm16_run H N, h6]
  | ok a' =>
    cases h7 : decide (a' < x.minYesNo) with
    | true =>
      py_run [getNorm16_run H N, h1, y, N.minDecompNoCP, h2, isMaybeOrNonZeroCC_run H N, h3, if_neg k2, isDecompNoAlgorithmic_run H N, h4, mapAlgorithmic_run H N,
        chr_call H, h5, h5', getRawNorm16_run H N, h6, N.minYesNo, h7, if_pos (of_decide_eq_true h7), len_call H, List.nil_append, List.length_cons, List.length_nil,
        Nat.lt_add_one, decide_true, optional]
    | false =>
      have t := decompTail_run H N b a' (n + 1) (n + 5) [b]
      rcases verdict_cases t with ⟨e, p, q⟩ | ⟨o, st, p, q⟩ <;>
        py_run [getNorm16_run H N, h1, y, N.minDecompNoCP, h2, isMaybeOrNonZeroCC_run H N, h3, if_neg k2, isDecompNoAlgorithmic_run H N, h4, mapAlgorithmic_run H N,
          chr_call H, h5, h5', getRawNorm16_run H N, h6, N.minYesNo, h7, if_neg (of_decide_eq_false h7), List.nil_append, q, p]

/-- Normalizer2.py:288-314 the end of `getRawDecomposition`. -/
def rawTail : Stmt := (.seq (.assign (.name (n% "ix")) (.call (.attr (.name (n% "self")) (n% "getMappingIndex")) (.cons (.name (n% "norm16")) .nil))) (.seq (.assign (.name (n% "firstUnit")) (.index (.attr (.name (n% "self")) (n% "extraData")) (.name (n% "ix")))) (.seq (.assign (.name (n% "length")) (.bin .and (.name (n% "firstUnit")) (.name (n% "MAPPING_LENGTH_MASK")))) (.seq (.ifs (.bin .and (.name (n% "firstUnit")) (.name (n% "MAPPING_HAS_RAW_MAPPING"))) (.seq (.assign (.name (n% "rawMappingIndex")) (.bin .sub (.bin .sub (.name (n% "ix")) (.bin .and (.bin .shr (.name (n% "firstUnit")) (.num 7)) (.num 1))) (.num 1))) (.seq (.assign (.name (n% "rm0")) (.index (.attr (.name (n% "self")) (n% "extraData")) (.name (n% "rawMappingIndex")))) (.seq (.ifs (.bin .le (.name (n% "rm0")) (.name (n% "MAPPING_LENGTH_MASK"))) (.seq (.assign (.name (n% "length")) (.name (n% "rm0"))) (.seq (.assign (.name (n% "ix")) (.bin .sub (.name (n% "rawMappingIndex")) (.name (n% "rm0")))) .skip)) (.seq (.aug .add (.name (n% "decomposition")) (.call (.name (n% "chr")) (.cons (.name (n% "rm0")) .nil))) (.seq (.aug .add (.name (n% "ix")) (.num 3)) (.seq (.aug .sub (.name (n% "length")) (.num 2)) .skip)))) .skip))) (.seq (.aug .add (.name (n% "ix")) (.num 1)) .skip)) (.seq (.ifs (.and (.not (.name (n% "decomposition"))) (.bin .eq (.name (n% "length")) (.num 0))) (.seq (.ret (.name (n% "None"))) .skip) .skip) (.seq (.aug .add (.name (n% "decomposition")) (.call (.attr (.name (n% "self")) (n% "stringFromData")) (.cons (.name (n% "ix")) (.cons (.name (n% "length")) .nil)))) (.seq (.ret (.name (n% "decomposition"))) .skip)))))))

omit H N in
theorem truth_nat (a : Nat) : decide ((a : Int) = 0) = decide (a = 0) := decide_eq_decide.mpr (by omega)

theorem rawTail_run (c a n fuel : Nat) : verdict (exec w (run w (n + 4)) fuel (n% "Normalizer2") rawTail
      ([(n% "self", v), (n% "c", .int c), (n% "decomposition", .str []), (n% "norm16", .int a)], [])) = lift ((x.rawMappingOf a).map optional) := by
  unfold Normalizer2.rawMappingOf
  cases hg : x.extraData.getI (Normalizer2.getMappingIndex a) with
  | error e => py_run [rawTail, getMappingIndex_run H N, N.extraData, N.extraAt, hg, verdict, optional]
  | ok u =>
  cases h1 : decide (u &&& 64 = 0) with
  | true =>
    cases h2 : decide (u &&& 31 = 0) with
    | true =>
      py_run [rawTail, getMappingIndex_run H N, N.extraData, N.extraAt, hg, Names.MAPPING_LENGTH_MASK H, Names.MAPPING_HAS_RAW_MAPPING H,
        Normalizer2.MAPPING_LENGTH_MASK, Normalizer2.MAPPING_HAS_RAW_MAPPING, truth_nat, h1, if_neg (not_not_intro (of_decide_eq_true h1)), Bool.not_true, List.isEmpty_nil, Bool.not_false, Bool.and_true, Bool.and_false, Bool.not_true,
        h2, if_pos (of_decide_eq_true h2), Names.None H, verdict, optional]
    | false =>
      have e1 : ((Normalizer2.getMappingIndex a : Nat) : Int) + 1 = ((Normalizer2.getMappingIndex a + 1 : Nat) : Int) := rfl
      cases hs : x.stringFromData (Normalizer2.getMappingIndex a + 1 : Nat) (u &&& 31 : Nat) <;>
        py_run [rawTail, getMappingIndex_run H N, N.extraData, N.extraAt, hg, Names.MAPPING_LENGTH_MASK H, Names.MAPPING_HAS_RAW_MAPPING H, e1, stringFromData_run H N,
          Normalizer2.MAPPING_LENGTH_MASK, Normalizer2.MAPPING_HAS_RAW_MAPPING, truth_nat, h1, if_neg (not_not_intro (of_decide_eq_true h1)), Bool.not_true, List.isEmpty_nil, Bool.not_false, Bool.and_true, Bool.and_false, Bool.not_true,
          h2, if_neg (of_decide_eq_false h2), hs, verdict, optional, List.nil_append]
  | false =>
  have m1 : u / 2 ^ 7 &&& 1 = u / 2 ^ 7 % 2 := Nat.and_one_is_mod _
  generalize hr : (Normalizer2.getMappingIndex a : Int) - (u / 2 ^ 7 % 2 : Nat) - (1 : Nat) = r
  have hr' : (Normalizer2.getMappingIndex a : Int) - (u / 2 ^ 7 % 2 : Nat) - 1 = r := hr
  cases h2 : x.extraData.getI r with
  | error e =>
    py_run [rawTail, getMappingIndex_run H N, N.extraData, N.extraAt, hg, Names.MAPPING_LENGTH_MASK H, Names.MAPPING_HAS_RAW_MAPPING H,
      Normalizer2.MAPPING_LENGTH_MASK, Normalizer2.MAPPING_HAS_RAW_MAPPING, truth_nat, h1, if_pos (of_decide_eq_false h1), Bool.not_false, Nat.shiftRight_eq_div_pow, m1, hr, hr', h2, verdict]
  | ok rm =>
  cases h3 : decide (rm ≤ 31) with
  | true =>
    cases h4 : decide (rm = 0) with
    | true =>
      py_run [rawTail, getMappingIndex_run H N, N.extraData, N.extraAt, hg, Names.MAPPING_LENGTH_MASK H, Names.MAPPING_HAS_RAW_MAPPING H,
        Normalizer2.MAPPING_LENGTH_MASK, Normalizer2.MAPPING_HAS_RAW_MAPPING, truth_nat, h1, if_pos (of_decide_eq_false h1), Bool.not_false, Nat.shiftRight_eq_div_pow, m1, hr, hr', h2, h3,
        if_pos (of_decide_eq_true h3), List.isEmpty_nil, Bool.not_false, Bool.and_true, Bool.and_false, Bool.not_true, Bool.not_true, h4, if_pos (of_decide_eq_true h4), Names.None H, verdict, optional]
    | false =>
      cases hs : x.stringFromData (r - rm) rm <;>
        py_run [rawTail, getMappingIndex_run H N, N.extraData, N.extraAt, hg, Names.MAPPING_LENGTH_MASK H, Names.MAPPING_HAS_RAW_MAPPING H,
          Normalizer2.MAPPING_LENGTH_MASK, Normalizer2.MAPPING_HAS_RAW_MAPPING, truth_nat, h1, if_pos (of_decide_eq_false h1), Bool.not_false, Nat.shiftRight_eq_div_pow, m1, hr, hr', h2, h3,
          if_pos (of_decide_eq_true h3), List.isEmpty_nil, Bool.not_false, Bool.and_true, Bool.and_false, Bool.not_true, Bool.not_true, h4, if_neg (of_decide_eq_false h4), stringFromData_run H N, hs, verdict, optional,
          List.nil_append]
  | false =>
    cases h4 : Verif.chr rm with
    | error e =>
      py_run [rawTail, getMappingIndex_run H N, N.extraData, N.extraAt, hg, Names.MAPPING_LENGTH_MASK H, Names.MAPPING_HAS_RAW_MAPPING H,
        Normalizer2.MAPPING_LENGTH_MASK, Normalizer2.MAPPING_HAS_RAW_MAPPING, truth_nat, h1, if_pos (of_decide_eq_false h1), Bool.not_false, Nat.shiftRight_eq_div_pow, m1, hr, hr', h2, h3,
        if_neg (of_decide_eq_false h3), chr_call H, h4, verdict]
    | ok b =>
      have e3 : ((Normalizer2.getMappingIndex a : Nat) : Int) + 3 = ((Normalizer2.getMappingIndex a + 3 : Nat) : Int) := rfl
      generalize hl : ((u &&& 31 : Nat) : Int) - (2 : Nat) = l
      have hl' : ((u &&& 31 : Nat) : Int) - 2 = l := hl
      cases hs : x.stringFromData (Normalizer2.getMappingIndex a + 3 : Nat) l <;>
        py_run [rawTail, getMappingIndex_run H N, N.extraData, N.extraAt, hg, Names.MAPPING_LENGTH_MASK H, Names.MAPPING_HAS_RAW_MAPPING H,
          Normalizer2.MAPPING_LENGTH_MASK, Normalizer2.MAPPING_HAS_RAW_MAPPING, truth_nat, h1, if_pos (of_decide_eq_false h1), Bool.not_false, Nat.shiftRight_eq_div_pow, m1, hr, hr', h2, h3,
          if_neg (of_decide_eq_false h3), chr_call H, h4, e3, hl, hl', stringFromData_run H N, hs, verdict, optional, List.nil_append, List.cons_append,
          List.isEmpty_cons, Bool.not_true, Bool.false_and]

theorem getRawDecomposition_run (c n : Nat) : call[n + 6, n% "getRawDecomposition", .cons (.int c) .nil] =
    lift ((x.getRawDecomposition c).map optional) := by
  rw [method N (Names.getRawDecomposition H) (b := (.seq (.assign (.name (n% "decomposition")) (.str [])) (.seq (.assign (.name (n% "norm16")) (.call (.attr (.name (n% "self")) (n% "getNorm16")) (.cons (.name (n% "c")) .nil))) (.seq (.ifs (.or (.bin .lt (.name (n% "c")) (.attr (.name (n% "self")) (n% "minDecompNoCP"))) (.call (.attr (.name (n% "self")) (n% "isDecompYes")) (.cons (.name (n% "norm16")) .nil))) (.seq (.ret (.name (n% "None"))) .skip) .skip) (.seq (.ifs (.or (.call (.attr (.name (n% "self")) (n% "isHangulLV")) (.cons (.name (n% "norm16")) .nil)) (.call (.attr (.name (n% "self")) (n% "isHangulLVT")) (.cons (.name (n% "norm16")) .nil))) (.seq (.ret (.call (.attr (.name (n% "self")) (n% "rawHangulDecomposition")) (.cons (.name (n% "c")) .nil))) .skip) .skip) (.seq (.ifs (.call (.attr (.name (n% "self")) (n% "isDecompNoAlgorithmic")) (.cons (.name (n% "norm16")) .nil)) (.seq (.assign (.name (n% "c")) (.call (.attr (.name (n% "self")) (n% "mapAlgorithmic")) (.cons (.name (n% "c")) (.cons (.name (n% "norm16")) .nil)))) (.seq (.ret (.call (.name (n% "chr")) (.cons (.name (n% "c")) .nil))) .skip)) .skip) rawTail)))))) rfl]
  have y : yields rawTail = false := rfl
  unfold Normalizer2.getRawDecomposition
  cases h1 : x.getNorm16 c with
  | error e => py_run [getNorm16_run H N, h1, y]
  | ok a =>
  cases h2 : decide (c < x.minDecompNoCP) with
  | true => py_run [getNorm16_run H N, h1, y, N.minDecompNoCP, h2, Names.None H, optional, if_pos (Or.inl (of_decide_eq_true h2))]
  | false =>
  cases h3 : x.isDecompYes a with
  | true => py_run [getNorm16_run H N, h1, y, N.minDecompNoCP, h2, isDecompYes_run H N, h3, Names.None H, optional, or_true]
  | false =>
  have k2 : ¬(c < x.minDecompNoCP ∨ False) := fun h => h.elim (of_decide_eq_false h2) id
  cases h4 : x.isHangulLV a <;> cases h5 : x.isHangulLVT a
  · cases h6 : x.isDecompNoAlgorithmic a with
    | false =>
      have t := rawTail_run H N c a (n + 1) (n + 5)
      rcases verdict_cases t with ⟨e, p, q⟩ | ⟨o, st, p, q⟩ <;>
        py_run [getNorm16_run H N, h1, y, N.minDecompNoCP, h2, isDecompYes_run H N, h3, if_neg k2, isHangulLV_run H N, h4, isHangulLVT_run H N, h5, or_self,
          isDecompNoAlgorithmic_run H N, h6, q, p]
    | true =>
      cases h7 : Verif.chr (x.mapAlgorithmic c a) <;>
        py_run [getNorm16_run H N, h1, y, N.minDecompNoCP, h2, isDecompYes_run H N, h3, if_neg k2, isHangulLV_run H N, h4, isHangulLVT_run H N, h5, or_self,
          isDecompNoAlgorithmic_run H N, h6, mapAlgorithmic_run H N, chr_call H, h7, optional]
  all_goals
    cases hd : Normalizer2.rawHangulDecomposition c <;>
      py_run [getNorm16_run H N, h1, y, N.minDecompNoCP, h2, isDecompYes_run H N, h3, if_neg k2, isHangulLV_run H N, h4, isHangulLVT_run H N, h5, or_self, or_true, true_or,
        rawHangulDecomposition_run H N, hd, optional]

end Verif.PyRun.Norm

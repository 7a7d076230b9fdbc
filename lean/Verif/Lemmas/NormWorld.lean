import Verif.Lemmas.RunNorm
import Verif.Lemmas.PyImport
import Verif.Lemmas.NfcScan
/-! # The import of CPTrie.py and Normalizer2.py -/
namespace Verif.PyRun
open Verif.PySyntax Verif.Library Verif.Data
set_option Elab.async false
set_option maxRecDepth 100000

/-- The names of `Norm2NFCData`. -/
def nfcData : Scope :=
  [(0, n% "norm2_nfc_data_smallFCD", .val (.arr (n% "norm2_nfc_data_smallFCD") 0 nfcSmallFCD.size)),
   (0, n% "norm2_nfc_data_extraData", .val (.arr (n% "norm2_nfc_data_extraData") 0 nfcExtraData.size)),
   (0, n% "norm2_nfc_data_trieData", .val (.arr (n% "norm2_nfc_data_trieData") 0 nfcTrieData.size)),
   (0, n% "norm2_nfc_data_trieIndex", .val (.arr (n% "norm2_nfc_data_trieIndex") 0 nfcTrieIndex.size)),
   (0, n% "norm2_nfc_data_indexes", .val (.arr (n% "norm2_nfc_data_indexes") 0 nfcIndexes.size)),
   (0, n% "norm2_nfc_data_nullValue", .val (.int 1)),
   (0, n% "norm2_nfc_data_dataNullOffset", .val (.int nfcDataNullOffset)),
   (0, n% "norm2_nfc_data_index3NullOffset", .val (.int nfcIndex3NullOffset)),
   (0, n% "norm2_nfc_data_valueWidth", .val (.int nfcValueWidth)),
   (0, n% "norm2_nfc_data_type", .val (.int nfcType)),
   (0, n% "norm2_nfc_data_shifted12HighStart", .val (.int nfcShifted12HighStart)),
   (0, n% "norm2_nfc_data_highStart", .val (.int nfcHighStart)),
   (0, n% "norm2_nfc_data_dataLength", .val (.int 7892)),
   (0, n% "norm2_nfc_data_indexLength", .val (.int 1746))]

/-- The lists of `Norm2NFCData`. -/
noncomputable def nfcTables (k : Nat) : Arr :=
  if k = n% "norm2_nfc_data_smallFCD" then Arr.ofList (DataText.values nfcSmallFCD)
  else if k = n% "norm2_nfc_data_extraData" then Arr.ofList (DataText.values nfcExtraData)
  else if k = n% "norm2_nfc_data_trieData" then Arr.ofList (DataText.values nfcTrieData)
  else if k = n% "norm2_nfc_data_trieIndex" then Arr.ofList (DataText.values nfcTrieIndex)
  else if k = n% "norm2_nfc_data_indexes" then Arr.ofList (DataText.values nfcIndexes)
  else empty.tables k

/-- The names of ICUDataFile.py that are used. -/
def icuData : Scope := [(0, n% "ICUData", .val .other)]

noncomputable def normBase : World :=
  ⟨[(n% "ICUDataFile", icuData), (n% "Norm2NFCData", nfcData), (n% "CPTrie", CPTries.cptrie), (n% "Utilities", utilities)], nfcTables⟩

noncomputable def normScope : Scope := scopeOf (define normBase depth (n% "Normalizer2") 0 (before (n% "nfkcTrie") Syntax.Normalizer2.module) [])

/-- The value of `nfcTrie.trie`. -/
def nfcTrieObject : Val :=
  .obj (n% "CPTrie") (n% "CPTrie") <| .field (n% "trieType") (.int nfcType) <| .field (n% "valueWidth") (.int nfcValueWidth) <|
    .field (n% "indexLength") (.int 0) <| .field (n% "dataLength") (.int nfcTrieData.size) <|
    .field (n% "index3NullOffset") (.int nfcIndex3NullOffset) <| .field (n% "dataNullOffset") (.int nfcDataNullOffset) <|
    .field (n% "highStart") (.int nfcHighStart) <| .field (n% "shifted12HighStart") (.int nfcShifted12HighStart) <|
    .field (n% "index") (.arr (n% "norm2_nfc_data_trieIndex") 0 nfcTrieIndex.size) <|
    .field (n% "data") (.arr (n% "norm2_nfc_data_trieData") 0 nfcTrieData.size) .nil

/-- The value of `nfcTrie`. -/
def nfcObject : Val :=
  .obj (n% "Normalizer2") (n% "Normalizer2") <| .field (n% "trie") nfcTrieObject <| .field (n% "minDecompNoCP") (.int 0xC0) <|
    .field (n% "minCompNoMaybeCP") (.int 0x300) <| .field (n% "minLcccCP") (.int 0x300) <| .field (n% "minYesNo") (.int 0xAE2) <|
    .field (n% "minYesNoMappingsOnly") (.int 0x1288) <| .field (n% "minNoNo") (.int 0x29E0) <|
    .field (n% "minNoNoCompBoundaryBefore") (.int 0x3B9C) <| .field (n% "minNoNoCompNoMaybeCC") (.int 0x3C34) <|
    .field (n% "minNoNoEmpty") (.int 0x3C66) <| .field (n% "limitNoNo") (.int 0x3C66) <| .field (n% "minMaybeYes") (.int 0xFC00) <|
    .field (n% "centerNoNoDelta") (.int 0x1F3F) <| .field (n% "maybeYesCompositions") (.arr (n% "norm2_nfc_data_extraData") 0 0) <|
    .field (n% "extraData") (.arr (n% "norm2_nfc_data_extraData") 0 nfcExtraData.size) .nil

theorem normScope_ok : define normBase depth (n% "Normalizer2") 0 (before (n% "nfkcTrie") Syntax.Normalizer2.module) [] = .ok normScope ∧
    (((0, n% "nfcTrie", some (.val nfcObject)) :: Norm.names).all fun p => decide (normScope.find p.1 p.2.1 = p.2.2) &&
      (p.2.1 != n% "nfkcTrie" && p.2.1 != n% "nfkc_cfTrie")) = true := by decide +kernel

/-- The names of the last two statements of Normalizer2.py. -/
def fileTries (v v' : Val) : Scope := [(0, n% "nfkc_cfTrie", .val v'), (0, n% "nfkcTrie", .val v)]

/-- The modules after the import of Normalizer2.py. -/
noncomputable def normWorld (v v' : Val) : World := ⟨(n% "Normalizer2", fileTries v v' ++ normScope) :: normBase.modules, nfcTables⟩

variable (v v' : Val)

theorem normWorld_find (p : Nat × Nat × Option Def) (hp : p ∈ (0, n% "nfcTrie", some (.val nfcObject)) :: Norm.names) :
    (normWorld v v').find (n% "Normalizer2") p.1 p.2.1 = p.2.2 := by
  have h := List.all_eq_true.mp normScope_ok.2 p hp
  rw [Bool.and_eq_true, Bool.and_eq_true, bne_iff_ne, bne_iff_ne, decide_eq_true_eq] at h
  rw [normWorld, find_cons, fileTries, List.cons_append, List.cons_append, List.nil_append, Scope.find, if_neg (fun e => h.2.2 e.2.symm), Scope.find,
    if_neg (fun e => h.2.1 e.2.symm), h.1]

theorem normWorld_nfc : (normWorld v v').find (n% "Normalizer2") 0 (n% "nfcTrie") = some (.val nfcObject) :=
  normWorld_find v v' (0, n% "nfcTrie", some (.val nfcObject)) (List.mem_cons_self ..)

theorem normWorld_trie : (normWorld v v').scope (n% "CPTrie") = CPTries.cptrie := by
  rw [normWorld, scope_tail (by decide), normBase, scope_tail (by decide), scope_tail (by decide), scope_cons]

theorem normWorld_utilities : (normWorld v v').scope (n% "Utilities") = utilities := by
  rw [normWorld, scope_tail (by decide), normBase, scope_tail (by decide), scope_tail (by decide), scope_tail (by decide), scope_cons]

theorem Norm.imported : Norm.Imported (normWorld v v') where
  trie := normWorld_trie v v'
  utilities := normWorld_utilities v v'
  name := fun p hp => normWorld_find v v' p (List.mem_cons_of_mem _ hp)

/-- Reading a list of a data module. -/
theorem index_int {w : World} {k : Nat} {a : Arr} (h : Same (w.tables k) a) (i : Int) :
    index w (.arr k 0 a.size) (.int i) = match a.getI i with | .ok e => .ok (.int e) | .error e => .error (.raised e) := by
  have g : ∀ j : Nat, Arr.get ⟨a.size, fun j => (w.tables k).at' (0 + j)⟩ j = a.get j := by
    intro j
    unfold Arr.get
    dsimp only
    by_cases hj : j < a.size
    · rw [if_pos hj, if_pos hj, Nat.zero_add, h j hj]
    · rw [if_neg hj, if_neg hj]
  have e : Arr.getInt ⟨a.size, fun j => (w.tables k).at' (0 + j)⟩ i = a.getI i := by
    unfold Arr.getInt Arr.getI
    simp only [g]
  rw [index, e]
  cases a.getI i <;> rfl

theorem nfc_isTrie : CPTries.IsTrie (normWorld v v') nfcTrieObject (.arr (n% "norm2_nfc_data_trieIndex") 0 nfcTrieIndex.size)
    (.arr (n% "norm2_nfc_data_trieData") 0 nfcTrieData.size) nfcTrie where
  object := ⟨_, rfl⟩
  index := rfl
  data := rfl
  dataLength := rfl
  trieType := rfl
  highStart := rfl
  indexAt := index_table (a := nfcTrieIndex.arr) (same_values nfcTrieIndex)
  dataAt := index_table (a := nfcTrieData.arr) (same_values nfcTrieData)
  long := by decide

theorem nfc_isNorm : Norm.IsNorm (normWorld v v') nfcObject nfcTrieObject (.arr (n% "norm2_nfc_data_trieIndex") 0 nfcTrieIndex.size)
    (.arr (n% "norm2_nfc_data_trieData") 0 nfcTrieData.size) (.arr (n% "norm2_nfc_data_extraData") 0 nfcExtraData.size) nfc where
  object := ⟨_, rfl⟩
  trie := rfl
  isTrie := nfc_isTrie v v'
  minDecompNoCP := rfl
  minYesNo := rfl
  minYesNoMappingsOnly := rfl
  limitNoNo := rfl
  minMaybeYes := rfl
  centerNoNoDelta := rfl
  extraData := rfl
  extraAt := index_int (a := nfcExtraData.arr.sliceFrom 0) (fun i h => (same_values nfcExtraData i h).trans
    (congrArg nfcExtraData.arr.at' (Nat.zero_add i).symm))

theorem nfcData_ok (w : World) (hw : w.tables = empty.tables) : importData w (n% "Norm2NFCData") (textOf nfcText) =
    .ok ⟨(n% "Norm2NFCData", nfcData) :: w.modules, nfcTables⟩ := by
  obtain ⟨env, h, r⟩ := DataText.Props.nfc_import
  rw [List.reverse_eq_iff] at r
  subst r
  refine data_ok h ?_ fun k => ?_
  · simp only [List.reverse_cons, List.reverse_nil, List.nil_append, List.cons_append, List.map_cons, List.map_nil, table, values_length]
    decide +kernel
  · rw [hw]
    simp only [List.reverse_cons, List.reverse_nil, List.nil_append, List.cons_append, tablesOf, nfcTables]
    rfl

theorem part_ok {w : World} {n m x : Nat} {names : List Nat} {rest : Scope} {text : Str} {b : Stmt} {s : Scope} (h : parse text = some b)
    (h' : define w n m 0 (before x b) (names.map fun y => (0, y, .val .other)) = .ok s) :
    importPart w n m names x rest text = .ok { w with modules := (m, rest ++ s) :: w.modules } := by
  rw [importPart, h]
  simp only [h', Except.map]

attribute [local irreducible] utilities CPTries.cptrie normScope textOf

theorem normalizer2_ok : normalizer2 v v' = .ok (normWorld v v') := by
  have h0 := import_ok parse_Utilities utilities_ok
  have h1 := part_ok (names := [n% "sstruct"]) (rest := []) parse_CPTrie CPTries.cptrie_ok
  have h2 := nfcData_ok ⟨[(n% "CPTrie", CPTries.cptrie), (n% "Utilities", utilities)], empty.tables⟩ rfl
  have h4 := part_ok (names := []) (rest := fileTries v v') parse_Normalizer2 normScope_ok.1
  unfold normalizer2
  rw [h0, ok_bind]
  refine (congrArg (fun r => r >>= _) h1).trans ?_
  rw [ok_bind]
  refine (congrArg (fun r => r >>= _) h2).trans ?_
  rw [ok_bind]
  exact h4

end Verif.PyRun

import Verif.Lemmas.NormWorld
import Verif.Props.Decompositions
/-!
# CPTrie.py and Normalizer2.py, executed from their texts (C137)

As `Props/RunCharProps` for CharProps.py. `createFromFileData` and `createFromData`, which read bytes of the file with the data of ICU, are not
executed: `normalizer2 v v'` assigns any values `v` and `v'` to the two names of the module whose values they are.
`Props/RunCPEnum` has the enumerator of CPTrie.py.
-/
namespace Verif.PyRun.Norm
open Verif.PySyntax Verif.Library Verif.Data Verif.Spec

/-- The functions and methods that a module defines. -/
def methods : Stmt → List Nat
  | .seq a b => methods a ++ methods b
  | .defn x _ _ => [x]
  | .deco _ s => methods s
  | .cls _ _ b => methods b
  | _ => []

/-- The predicates of `Normalizer2`. -/
def predicates (x : Normalizer2) : List (Nat × (Nat → Bool)) :=
  [(n% "isMaybeOrNonZeroCC", x.isMaybeOrNonZeroCC), (n% "isDecompNoAlgorithmic", x.isDecompNoAlgorithmic), (n% "isDecompYes", x.isDecompYes),
   (n% "isInert", Normalizer2.isInert), (n% "isJamoL", Normalizer2.isJamoL), (n% "isJamoVT", Normalizer2.isJamoVT),
   (n% "isHangulLV", x.isHangulLV), (n% "isHangulLVT", x.isHangulLVT)]

/-- C137. Importing CPTrie.py, the data module and Normalizer2.py makes the object `nfcTrie`. Every method of it, executed from the text of
the file, returns or raises what the model of it does, for all natural numbers (and for all ints where one is given). -/
theorem text_methods (v v' : Val) :
    (∃ b, parse (textOf Source.Normalizer2) = some b ∧ ∀ f ∈ methods b, f ∈ (predicates nfc).map Prod.fst ++
      [n% "__init__", n% "createFromHardCodedData", n% "createFromFileData", n% "getNorm16", n% "getRawNorm16", n% "hangulLVT", n% "hangulDecomposition",
       n% "rawHangulDecomposition", n% "mapAlgorithmic", n% "getMappingIndex", n% "stringFromData", n% "getDecomposition", n% "getRawDecomposition"]) ∧
    ∃ w t tv x, normalizer2 v v' = .ok w ∧ w.find (n% "Normalizer2") 0 (n% "nfcTrie") = some (.val t) ∧ attr w t (n% "trie") = .ok tv ∧
    createFromHardCodedData = .ok x ∧ ∀ (n c a : Nat) (i l : Int),
    let call := fun (f : Nat) (args : List Int) => callMethod w (run w (n + 6)) t f (chain (args.map .int))
    (∀ p ∈ predicates x, call p.1 [a] = .ok (.bool (p.2 a))) ∧
    callMethod w (run w (n + 6)) tv (n% "get") (chain [.int c]) = lift ((x.trie.get c).map fun e => .int e) ∧
    call (n% "getNorm16") [c] = lift ((x.getNorm16 c).map fun e => .int e) ∧
    call (n% "getRawNorm16") [c] = lift ((x.getRawNorm16 c).map fun e => .int e) ∧
    call (n% "hangulLVT") [] = .ok (.int x.hangulLVT) ∧
    call (n% "hangulDecomposition") [i] = lift ((Normalizer2.hangulDecomposition i).map .str) ∧
    call (n% "rawHangulDecomposition") [i] = lift ((Normalizer2.rawHangulDecomposition i).map .str) ∧
    call (n% "mapAlgorithmic") [c, a] = .ok (.int (x.mapAlgorithmic c a)) ∧
    call (n% "getMappingIndex") [a] = .ok (.int (Normalizer2.getMappingIndex a : Nat)) ∧
    call (n% "stringFromData") [i, l] = lift ((x.stringFromData i l).map .str) ∧
    call (n% "getDecomposition") [c] = lift ((x.getDecomposition c).map optional) ∧
    call (n% "getRawDecomposition") [c] = lift ((x.getRawDecomposition c).map optional) := by
  have H := imported v v'
  have N := nfc_isNorm v v'
  refine ⟨⟨_, parse_Normalizer2, by decide +kernel⟩, _, nfcObject, nfcTrieObject, nfc, normalizer2_ok v v',
    normWorld_nfc v v', rfl, nfc_created, fun n c a i l => ⟨?_, trie_run H N c (n + 2), getNorm16_run H N c (n + 1),
    getRawNorm16_run H N c (n + 1), hangulLVT_run H N (n + 5), hangulDecomposition_run H N i (n + 5), rawHangulDecomposition_run H N i (n + 5),
    mapAlgorithmic_run H N c a (n + 5), getMappingIndex_run H N a (n + 5), stringFromData_run H N i l (n + 4), getDecomposition_run H N c n,
    getRawDecomposition_run H N c n⟩⟩
  simp only [predicates, List.forall_mem_cons, List.not_mem_nil, false_imp_iff, implies_true, and_true]
  exact ⟨isMaybeOrNonZeroCC_run H N a (n + 5), isDecompNoAlgorithmic_run H N a (n + 5), isDecompYes_run H N a (n + 5), isInert_run H N a (n + 5),
    isJamoL_run H N a (n + 5), isJamoVT_run H N a (n + 5), isHangulLV_run H N a (n + 5), isHangulLVT_run H N a (n + 4)⟩

/-- C137. So, for the files as they are shipped: `nfcTrie.getRawDecomposition(c)` is the canonical decomposition mapping of Unicode 13.0, and
`nfcTrie.getDecomposition(c)` the full canonical decomposition, for every code point; both are `None` if the standard has no mapping. -/
theorem text_standard (v v' : Val) : ∃ w t, normalizer2 v v' = .ok w ∧ w.find (n% "Normalizer2") 0 (n% "nfcTrie") = some (.val t) ∧
    ∀ c : Nat, c ≤ 0x10FFFF →
    callMethod w (run w 6) t (n% "getRawDecomposition") (chain [.int c]) = .ok (optional (standardRaw c)) ∧
    (standardRaw c = none → callMethod w (run w 6) t (n% "getDecomposition") (chain [.int c]) = .ok .none) ∧
    (standardRaw c ≠ none → ∃ d, callMethod w (run w 6) t (n% "getDecomposition") (chain [.int c]) = .ok (.str d) ∧ Expands standardRaw [c] d ∧
      ∀ e, Expands standardRaw [c] e → e = d) := by
  have H := imported v v'
  have N := nfc_isNorm v v'
  refine ⟨_, nfcObject, normalizer2_ok v v', normWorld_nfc v v', fun c hc => ⟨?_, fun h => ?_, fun h => ?_⟩⟩
  · refine (getRawDecomposition_run H N c 0).trans ?_
    rw [Normalizer2.Props.raw_map nfc_created hc]; rfl
  · refine (getDecomposition_run H N c 0).trans ?_
    rw [(Normalizer2.Props.full_map nfc_created hc).1 h]; rfl
  · obtain ⟨d, e, r⟩ := (Normalizer2.Props.full_map nfc_created hc).2 h
    refine ⟨d, (getDecomposition_run H N c 0).trans ?_, r⟩
    rw [e]; rfl

/-- U+1E69 decomposes to s, U+0323 and U+0307, in two steps; the raw decomposition of U+AC01 has two characters and the full one three. -/
example (v v' : Val) : ∃ w t, normalizer2 v v' = .ok w ∧ w.find (n% "Normalizer2") 0 (n% "nfcTrie") = some (.val t) ∧
    callMethod w (run w 6) t (n% "getDecomposition") (chain [.int 0x1E69]) = .ok (.str [0x73, 0x323, 0x307]) ∧
    callMethod w (run w 6) t (n% "getRawDecomposition") (chain [.int 0x1E69]) = .ok (.str [0x1E63, 0x307]) ∧
    callMethod w (run w 6) t (n% "getRawDecomposition") (chain [.int 0xAC01]) = .ok (.str [0xAC00, 0x11A8]) ∧
    callMethod w (run w 6) t (n% "getDecomposition") (chain [.int 0xAC01]) = .ok (.str [0x1100, 0x1161, 0x11A8]) ∧
    callMethod w (run w 6) t (n% "getDecomposition") (chain [.int 0x41]) = .ok .none := by
  have H := imported v v'
  have N := nfc_isNorm v v'
  refine ⟨_, nfcObject, normalizer2_ok v v', normWorld_nfc v v', (getDecomposition_run H N 0x1E69 0).trans ?_,
    (getRawDecomposition_run H N 0x1E69 0).trans ?_, (getRawDecomposition_run H N 0xAC01 0).trans ?_, (getDecomposition_run H N 0xAC01 0).trans ?_,
    (getDecomposition_run H N 0x41 0).trans ?_⟩ <;> decide +kernel

end Verif.PyRun.Norm

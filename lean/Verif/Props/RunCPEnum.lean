import Verif.Lemmas.RunCPEnum
import Verif.Lemmas.NormWorld
import Verif.Props.CPTrie
/-!
# `CPTrie.enumerator`, executed from the text of CPTrie.py (C140)

As `Props/RunNormalizer` for the other methods. A call of a generator is executed to its end: its value is the list of what it yields.
`item r` is the pair that is yielded for the run `r`: a `range` and the value of its code points.
-/
namespace Verif.PyRun.Norm
open Verif.PySyntax Verif.Library Verif.Data
open Verif.Spec (Tiles NeighboursDiffer)

theorem nfc_isWhole (v v' : Val) : CPTries.IsWhole (normWorld v v') nfcTrieObject (.arr (n% "norm2_nfc_data_trieIndex") 0 nfcTrieIndex.size)
    (.arr (n% "norm2_nfc_data_trieData") 0 nfcTrieData.size) nfcTrie where
  toIsTrie := nfc_isTrie v v'
  dataNullOffset := rfl
  index3NullOffset := rfl
  length := rfl

/-- C140. Importing CPTrie.py, the data module and Normalizer2.py makes the trie `nfcTrie.trie`. `enumerator(start, limit)` of it, executed from the
text of CPTrie.py with enough fuel, yields what the model of it yields, or raises what the model raises; 0 and 0x110000 stand for arguments that are
left out. If the model says that the main loop never ends, then the text neither returns nor raises, with any fuel. -/
theorem text_enumerator (v v' : Val) : ∃ w t tv x, normalizer2 v v' = .ok w ∧ w.find (n% "Normalizer2") 0 (n% "nfcTrie") = some (.val t) ∧
    attr w t (n% "trie") = .ok tv ∧ createFromHardCodedData = .ok x ∧ ∀ start limit n : Nat, 64 < n →
    let call := fun (args : List Nat) => callMethod w (run w (n + 1)) tv (n% "enumerator") (chain (args.map fun (i : Nat) => .int (i : Int)))
    (∀ k, k < n → x.trie.enumeratorFuel start limit k ≠ .error .diverges →
      call [start, limit] = lift ((x.trie.enumeratorFuel start limit k).map fun l => .list (chain (l.map CPTries.item)))) ∧
    ((∀ k, x.trie.enumeratorFuel start limit k = .error .diverges) → call [start, limit] = .error .stuck) ∧
    call [] = call [0, 0x110000] ∧ call [start] = call [start, 0x110000] := by
  have H := (imported v v').trie
  have W := nfc_isWhole v v'
  exact ⟨_, nfcObject, nfcTrieObject, nfc, normalizer2_ok v v', normWorld_nfc v v', rfl, nfc_created, fun start limit n hn =>
    ⟨fun k hk hd => CPTries.enumerator_run H W start limit k n hn hk hd, fun hd => CPTries.enumerator_never H W start limit hd n hn,
     (CPTries.defaults_run H (nfc_isTrie v v') start n).1, (CPTries.defaults_run H (nfc_isTrie v v') start n).2⟩⟩

/-- C140. So, for the files as they are shipped: `nfcTrie.trie.enumerator(start, limit)` with `start < limit <= 0x1000` yields ranges that are
contiguous from `start` to `limit`; the values of neighbours differ; and `nfcTrie.trie.get(c)` returns the value of the range of `c`. -/
theorem text_window (v v' : Val) : ∃ w t tv, normalizer2 v v' = .ok w ∧ w.find (n% "Normalizer2") 0 (n% "nfcTrie") = some (.val t) ∧
    attr w t (n% "trie") = .ok tv ∧ ∀ start limit : Nat, start < limit → limit ≤ 0x1000 → ∃ out : List (UTrie2.Run Nat),
    (∀ n, 0x2004 ≤ n → callMethod w (run w n) tv (n% "enumerator") (chain [.int start, .int limit]) = .ok (.list (chain (out.map CPTries.item)))) ∧
    Tiles out start limit ∧ NeighboursDiffer out ∧
    ∀ r ∈ out, ∀ c : Nat, r.start ≤ c → c < r.stop → callMethod w (run w 4) tv (n% "get") (chain [.int c]) = .ok (.int r.value) := by
  have H := (imported v v').trie
  have W := nfc_isWhole v v'
  refine ⟨_, nfcObject, nfcTrieObject, normalizer2_ok v v', normWorld_nfc v v', rfl, fun start limit h1 h2 => ?_⟩
  obtain ⟨out, e, a, b, g⟩ := CPTrie.Props.nfc_enumerator_partial h1 h2
  rw [CPTrie.enumerator] at e
  refine ⟨out, fun n hn => ?_, a, b, fun r hr c c1 c2 => ?_⟩
  · obtain ⟨n, rfl⟩ : ∃ m, n = m + 1 := ⟨n - 1, by omega⟩
    refine (CPTries.enumerator_run H W start limit (2 * (limit - start) + 2) n (by omega) (by omega) (by rw [e]; exact fun h => nomatch h)).trans ?_
    rw [e]
    rfl
  · refine (CPTries.get_run H (nfc_isTrie v v') c 0).trans ?_
    rw [g r hr c c1 c2]
    rfl

/-- C140, and the finding of C29 from the text: `nfcTrie.trie.enumerator(start, limit)` with `start <= 0xFFFF` and a limit above both `start` and
0x1000, and so `nfcTrie.trie.enumerator()`, never returns and never raises: with no fuel does the execution end. -/
theorem text_endless (v v' : Val) : ∃ w t tv, normalizer2 v v' = .ok w ∧ w.find (n% "Normalizer2") 0 (n% "nfcTrie") = some (.val t) ∧
    attr w t (n% "trie") = .ok tv ∧ ∀ n, 66 ≤ n → (∀ start limit : Nat, start ≤ 0xFFFF → start < limit → 0x1000 < limit →
      callMethod w (run w n) tv (n% "enumerator") (chain [.int start, .int limit]) = .error .stuck) ∧
    callMethod w (run w n) tv (n% "enumerator") (chain []) = .error .stuck := by
  have H := (imported v v').trie
  have W := nfc_isWhole v v'
  refine ⟨_, nfcObject, nfcTrieObject, normalizer2_ok v v', normWorld_nfc v v', rfl, fun n hn => ?_⟩
  obtain ⟨n, rfl⟩ : ∃ m, n = m + 1 := ⟨n - 1, by omega⟩
  have q (start limit : Nat) (h1 : start ≤ 0xFFFF) (h2 : start < limit) (h3 : 0x1000 < limit) :=
    CPTries.enumerator_never H W start limit (CPTrie.Props.enumerator_terminates_refuted h1 h2 h3) n (by omega)
  exact ⟨q, (CPTries.defaults_run H (nfc_isTrie v v') 0 n).1.trans (q 0 0x110000 (by omega) (by omega) (by omega))⟩

/-- From U+00BE to U+00C1 there are three ranges; from U+0FFF to U+1000 the execution does not end. -/
example (v v' : Val) : ∃ w t tv, normalizer2 v v' = .ok w ∧ w.find (n% "Normalizer2") 0 (n% "nfcTrie") = some (.val t) ∧ attr w t (n% "trie") = .ok tv ∧
    callMethod w (run w 80) tv (n% "enumerator") (chain [.int 0xBE, .int 0xC2]) = .ok (.list (chain [.tuple (chain [.range 0xBE 0xC0, .int 1]),
      .tuple (chain [.range 0xC0 0xC1, .int 0x128A]), .tuple (chain [.range 0xC1 0xC2, .int 0x1290])])) ∧
    callMethod w (run w 1000) tv (n% "enumerator") (chain [.int 0xFFF, .int 0x1001]) = .error .stuck := by
  have H := (imported v v').trie
  have W := nfc_isWhole v v'
  refine ⟨_, nfcObject, nfcTrieObject, normalizer2_ok v v', normWorld_nfc v v', rfl, ?_,
    CPTries.enumerator_never H W 0xFFF 0x1001 (CPTrie.Props.enumerator_terminates_refuted (by omega) (by omega) (by omega)) 999 (by omega)⟩
  have e : nfcTrie.enumeratorFuel 0xBE 0xC2 10 = .ok [⟨0xBE, 0xC0, 1⟩, ⟨0xC0, 0xC1, 0x128A⟩, ⟨0xC1, 0xC2, 0x1290⟩] := by decide +kernel
  refine (CPTries.enumerator_run H W 0xBE 0xC2 10 79 (by omega) (by omega) (by rw [e]; exact fun h => nomatch h)).trans ?_
  rw [e]
  rfl

end Verif.PyRun.Norm

import Verif.Lemmas.RunScan
import Verif.Lemmas.CharGet
import Verif.Lemmas.CharBidi
/-! # The values of the shipped tries against lists of ranges with values -/
namespace Verif.Char
open Verif Verif.Spec Verif.Data
set_option maxRecDepth 100000

/-- The check of a field of the main trie. -/
noncomputable def propsMap (f : Nat → Nat) (k d : Nat) (runs : List (Nat × Nat × Nat)) : Bool :=
  force propsIndex.big fun B => (propsTrie.withBig B).runsCheck f k d runs

theorem propsMap_spec {f : Nat → Nat} {k d : Nat} {runs : List (Nat × Nat × Nat)} (hk0 : 0 < k) (hk : k ≤ 32) (hd : d < 2 ^ k)
    (hf : ∀ v, f v < 2 ^ k) (h : propsMap f k d runs = true) {c : Nat} (hc : c < 0x10FFFF) :
    f (propsTrie.getv c) = valueIn d runs c := by
  unfold propsMap at h
  rw [force_eq] at h
  have := bfull.runs hk0 hk hf hd h hc
  rw [show (propsTrie.withBig propsIndex.big).getv c = propsTrie.getv c from agree.getv trie_ok c] at this
  exact this

/-- The check of a field of the bidi trie. -/
noncomputable def bidiMap (f : Nat → Nat) (k d : Nat) (runs : List (Nat × Nat × Nat)) : Bool :=
  force bidiIndex.big fun B => (Bidi.bidiPropsTrie.withBig B).runsCheck f k d runs

theorem bidiMap_spec {f : Nat → Nat} {k d : Nat} {runs : List (Nat × Nat × Nat)} (hk0 : 0 < k) (hk : k ≤ 32) (hd : d < 2 ^ k)
    (hf : ∀ v, f v < 2 ^ k) (h : bidiMap f k d runs = true) {c : Nat} (hc : c < 0x10FFFF) :
    f (Bidi.bidiPropsTrie.getv c) = valueIn d runs c := by
  unfold bidiMap at h
  rw [force_eq] at h
  have := BidiCross.bfull.runs hk0 hk hf hd h hc
  rw [show (Bidi.bidiPropsTrie.withBig bidiIndex.big).getv c = Bidi.bidiPropsTrie.getv c from BidiCross.agree.getv Bidi.trie_ok c] at this
  exact this

/-- The check of a function of the three words of the vectors. -/
noncomputable def vecMap (f : Nat → Nat → Nat → Nat) (k m d : Nat) (runs : List (Nat × Nat × Nat)) : Bool :=
  force (vecFields f k) fun G => force propsVectorsIndex.big fun B =>
    (propsVectorTrie.withBig B).runsCheck (fun v => bigEntry k m G (Nat.div v 3)) k d runs

theorem vecMap_spec {f : Nat → Nat → Nat → Nat} {k m d : Nat} {runs : List (Nat × Nat × Nat)} (hm : m = 2 ^ k - 1) (hk0 : 0 < k)
    (hk : k ≤ 32) (hd : d < 2 ^ k) (hf : ∀ a b d, f a b d < 2 ^ k) (h : vecMap f k m d runs = true) {c : Nat}
    (hc : c < 0x10FFFF) : f (word c 0) (word c 1) (word c 2) = valueIn d runs c := by
  unfold vecMap at h
  simp only [force_eq] at h
  have hG := vecFields_spec (k := k) (m := m) hf hm hk c
  generalize vecFields f k = G at h hG
  have hlt : ∀ v, (fun v => bigEntry k m G (Nat.div v 3)) v < 2 ^ k := fun v => by
    show bigEntry k m G (v / 3) < 2 ^ k
    rw [bigEntry_eq _ _ hm (by omega)]
    exact Nat.mod_lt _ (Nat.two_pow_pos k)
  have key := bvfull.runs (f := fun v => bigEntry k m G (Nat.div v 3)) hk0 hk hlt hd h hc
  rw [show (propsVectorTrie.withBig propsVectorsIndex.big).getv c = propsVectorTrie.getv c from vagree.getv vtrie_ok c] at key
  have key : bigEntry k m G (propsVectorTrie.getv c / 3) = valueIn d runs c := key
  rw [hG] at key
  exact key

/-- A masked and shifted word is small. -/
theorem maskShift_lt {w m s k : Nat} (h : m >>> s < 2 ^ k) : (w &&& m) >>> s < 2 ^ k := by
  rw [Nat.shiftRight_eq_div_pow] at h ⊢
  exact Nat.lt_of_le_of_lt (Nat.div_le_div_right Nat.and_le_right) h

/-- A field of a word of the vectors. -/
noncomputable def vecField (mask shift w : Nat) : Nat := Nat.shiftRight (Nat.land w mask) shift

theorem mapIs_of {get : Nat → Py Nat} {names legend : List (Nat × String)} {f : Nat → Nat → Nat → Nat} {d k m : Nat}
    {runs : List (Nat × Nat × Nat)} (hk : m = 2 ^ k - 1 ∧ 0 < k ∧ k ≤ 32 ∧ d < 2 ^ k) (hf : ∀ a b d, f a b d < 2 ^ k)
    (hget : ∀ c, get c = .ok (f (word c 0) (word c 1) (word c 2))) (hs : vecMap f k m d runs = true)
    (hl : f (word 0x10FFFF 0) (word 0x10FFFF 1) (word 0x10FFFF 2) = valueIn d runs 0x10FFFF)
    (hn : (legend.map fun e => names.lookup e.1) = legend.map fun e => some e.2) : MapIs get names d runs legend := by
  refine ⟨fun c hc => ?_, fun _ he => List.map_inj_left.mp hn _ he⟩
  rw [hget]
  by_cases h : c = 0x10FFFF
  · subst h; rw [hl]
  · exact congrArg Except.ok (vecMap_spec hk.1 hk.2.1 hk.2.2.1 hk.2.2.2 hf hs (by omega))

end Verif.Char

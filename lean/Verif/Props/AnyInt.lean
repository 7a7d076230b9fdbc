import Verif.Model.AnyInt
import Verif.Props.CPTrie
import Verif.Props.Utrie2
/-! # Lookups with integers that are not code points (C121) -/
namespace Verif.UTrie2.Props
open Verif.Spec Verif.Data

/-- C121 for integers beyond the code points: a trie that stores `f` answers with the error value, and for code points but the last
with the value. -/
theorem getInt_partial {t : UTrie2} {f : Nat → Nat} {err : Nat} (h : Represents t f err) :
    (∀ c : Nat, c < 0x10FFFF → t.getInt c = .ok (f c)) ∧ (∀ c : Int, 0x10FFFF < c → t.getInt c = .ok err) := by
  refine ⟨fun c hc => ?_, fun c hc => ?_⟩
  · unfold getInt
    rw [if_pos (by omega), Int.toNat_natCast]
    exact (get_correct_partial h).1 c hc
  · unfold getInt
    rw [if_pos (by omega)]
    exact (get_correct_partial h).2 _ (by omega)

example : Represents Char.propsTrie Char.propsTrie.val 0 ∧ Char.propsTrie.getInt 0x41 = .ok 1 ∧ Char.propsTrie.getInt 0x110000 = .ok 0 := by
  have h : Represents Char.propsTrie Char.propsTrie.val 0 := (by decide +kernel : Char.propsTrie.index.at' (Char.propsTrie.indexLength + 0x80) = 0) ▸
    Char.trie_ok.represents
  exact ⟨h, by decide +kernel, (getInt_partial h).2 _ (by decide)⟩

/-- C121 for negative integers: the answer is found by counting from the end of the array; it is no error value but some other entry,
and integers that count beyond the beginning raise `IndexError`. -/
theorem getInt_negative (t : UTrie2) (k j : Nat) (hj : j < 32) :
    t.getInt (-32 * ((k : Int) + 1) + j) =
      if k < t.index.size then t.index.get (t.index.at' (t.index.size - 1 - k) * 4 + j) else .error .indexError := by
  have e1 : (-32 * ((k : Int) + 1) + j) / 32 = -((k : Int) + 1) := by omega
  have e2 : (-32 * ((k : Int) + 1) + j) % 32 = j := by omega
  unfold getInt indexRawInt Arr.getInt
  rw [if_neg (by omega), e1, e2, if_neg (by omega)]
  by_cases h : k < t.index.size
  · rw [if_pos (by omega), if_pos h, show ((t.index.size : Int) + -((k : Int) + 1)).toNat = t.index.size - 1 - k by omega, Arr.get_ok (by omega)]
    simp only [bind, Except.bind, pure, Except.pure]
    rw [if_pos (by omega), show ((t.index.at' (t.index.size - 1 - k) : Int) * 4 + (j : Int)).toNat = t.index.at' (t.index.size - 1 - k) * 4 + j by omega]
  · rw [if_neg (by omega), if_neg h]
    rfl

example : Char.propsTrie.getInt (-1) = .ok 1373 ∧ Char.propsTrie.getInt (-1000000) = .error .indexError := by
  refine ⟨?_, ?_⟩
  · have := getInt_negative Char.propsTrie 0 31 (by decide)
    rw [show (-32 * (((0 : Nat) : Int) + 1) + (31 : Nat)) = -1 by decide] at this
    rw [this]
    decide +kernel
  · have := getInt_negative Char.propsTrie 31249 0 (by decide)
    rw [show (-32 * (((31249 : Nat) : Int) + 1) + (0 : Nat)) = -1000000 by decide] at this
    rw [this]
    decide +kernel

/-- Every negative integer has this form. -/
theorem negative_form (c : Int) (hc : c < 0) : ∃ k j : Nat, j < 32 ∧ c = -32 * ((k : Int) + 1) + j :=
  ⟨(-(c / 32) - 1).toNat, (c % 32).toNat, by omega, by omega⟩

end Verif.UTrie2.Props

namespace Verif.CPTrie.Props
open Verif.CPTrie.Spec Verif.Data

/-- C121 for `CPTrie`: beyond the code points the error value, which is also the answer for -1; other negative integers count from the end
of the data, and raise `IndexError` beyond its beginning. -/
theorem getInt_partial {t : CPTrie} {f : Nat → Nat} {err : Nat} (h : Represents t f err) :
    (∀ c : Nat, c ≤ 0x10FFFF → t.getInt c = .ok (f c)) ∧ (∀ c : Int, 0x10FFFF < c → t.getInt c = .ok err) ∧ t.getInt (-1) = .ok err ∧
    (∀ k : Nat, k < t.data.size → t.getInt (-((k : Int) + 1)) = .ok (t.data.at' (t.data.size - 1 - k))) ∧
    (∀ k : Nat, t.data.size ≤ k → t.getInt (-((k : Int) + 1)) = .error .indexError) := by
  have hneg : ∀ k : Nat, k < t.data.size → t.getInt (-((k : Int) + 1)) = .ok (t.data.at' (t.data.size - 1 - k)) := by
    intro k hk
    unfold getInt Arr.getInt
    rw [if_neg (by omega), if_neg (by omega), if_pos (by omega), show ((t.data.size : Int) + -((k : Int) + 1)).toNat = t.data.size - 1 - k by omega,
      Arr.get_ok (by omega)]
  refine ⟨fun c hc => ?_, fun c hc => ?_, ?_, hneg, fun k hk => ?_⟩
  · unfold getInt
    rw [if_pos (by omega), Int.toNat_natCast]
    exact (get_correct h).1 c hc
  · unfold getInt
    rw [if_pos (by omega)]
    exact (get_correct h).2 _ (by omega)
  · have h0 : 0 < t.data.size := by
      have := h.ascii 0 (by omega)
      unfold Arr.get at this
      split at this
      · assumption
      · cases this
    have := hneg 0 h0
    rw [show (-1 : Int) = -(((0 : Nat) : Int) + 1) by omega, this, ← h.error, Arr.get_ok (by omega)]
    rfl
  · unfold getInt Arr.getInt
    rw [if_neg (by omega), if_neg (by omega), if_neg (by omega)]

example : (∃ f err, Represents nfcTrie f err) ∧ nfcTrie.getInt (-1) = .ok 1 ∧ nfcTrie.getInt (-100000) = .error .indexError :=
  ⟨⟨_, _, nfc_ok.represents⟩, by decide +kernel, by decide +kernel⟩

end Verif.CPTrie.Props

namespace Verif.Char.Props
open Verif.Data

/-- C121 is violated for negative integers: -1 is a final quotation mark with the numeric value 0, while 0x110000 is unassigned and has none. -/
theorem notCodePoint_refuted :
    getGeneralCategoryInt (-1) = .ok 29 ∧ ispunctInt (-1) = .ok true ∧ getNumericValueInt (-1) = .ok (some 0) ∧
    getGeneralCategoryInt 0x110000 = .ok 0 ∧ ispunctInt 0x110000 = .ok false ∧ getNumericValueInt 0x110000 = .ok none := by
  decide +kernel

/-- And for integers that are even smaller the functions raise. -/
theorem notCodePoint_raises {c : Int} (hc : c < -712832) : getGeneralCategoryInt c = .error .indexError := by
  obtain ⟨k, j, hj, e⟩ := UTrie2.Props.negative_form c (by omega)
  unfold getGeneralCategoryInt
  rw [e, UTrie2.Props.getInt_negative _ _ _ hj, if_neg]
  · rfl
  · show ¬ k < 22276
    omega

end Verif.Char.Props

import Verif.Lemmas.CharData
import Verif.Spec.Category
/-! # The functions of `CharProps` in terms of table entries -/
namespace Verif.Char
open Verif.Data Verif.Char.Spec
set_option maxRecDepth 100000

/-- The general category of a code point. -/
noncomputable def gcOf (c : Nat) : Nat := propsTrie.getv c &&& 0x1f

theorem gcOf_lt (c : Nat) : gcOf c < 30 := (prop_facts c).gc

theorem getGeneralCategory_eq (c : Nat) : getGeneralCategory c = .ok (gcOf c) := by
  unfold getGeneralCategory
  rw [get_eq]
  rfl

/-- The name of category `g` is in `l`. -/
def inCat (g : Nat) (l : List String) : Bool :=
  match generalCategoryNames.lookup g with
  | some n => l.contains n
  | none => false

theorem inCategory_iff (c : Nat) (l : List String) : InCategory c l ↔ inCat (gcOf c) l = true := by
  unfold InCategory inCat
  rw [getGeneralCategory_eq]
  constructor
  · rintro ⟨v, n, h1, h2, h3⟩
    cases h1
    rw [h2]
    exact List.contains_iff_mem.mpr h3
  · intro h
    split at h
    · rename_i n hn
      exact ⟨_, n, rfl, hn, List.contains_iff_mem.mp h⟩
    · exact absurd h (by decide)

theorem decides_of {p : Py Bool} {P : Prop} {b : Bool} (h : p = .ok b) (hb : b = true ↔ P) : Decides p P := by
  subst h
  refine ⟨fun h => by rw [hb.mpr h], fun h => ?_⟩
  cases b
  · rfl
  · exact absurd (hb.mp rfl) h

theorem decides_iff {p : Py Bool} {P : Prop} (h : Decides p P) : p = .ok true ↔ P := by
  refine ⟨fun hp => Classical.byContradiction fun hn => ?_, h.1⟩
  rw [h.2 hn] at hp
  exact absurd hp (by decide)

/-- A predicate computed from the category is decided by a list of names if it is so for the 30 categories. -/
theorem decides_cat {p : Py Bool} {c : Nat} (f : Nat → Bool) (l : List String) (h : p = .ok (f (gcOf c)))
    (hf : ∀ g < 30, f g = inCat g l) : Decides p (InCategory c l) :=
  decides_of h (by rw [inCategory_iff, hf _ (gcOf_lt c)])

theorem decides_not_cat {p : Py Bool} {c : Nat} (f : Nat → Bool) (l : List String) (h : p = .ok (f (gcOf c)))
    (hf : ∀ g < 30, f g = !inCat g l) : Decides p (¬InCategory c l) :=
  decides_of h (by rw [inCategory_iff, hf _ (gcOf_lt c)]; simp)

theorem cat_sub {c : Nat} {l m : List String} (hf : ∀ g < 30, inCat g l = true → inCat g m = true) (h : InCategory c l) :
    InCategory c m :=
  (inCategory_iff c m).mpr (hf _ (gcOf_lt c) ((inCategory_iff c l).mp h))

theorem getUnicodeProperties_eq (c k : Nat) (hk : k < 3) : getUnicodeProperties c k = .ok (word c k) := by
  unfold getUnicodeProperties
  rw [if_neg (show ¬ k > propsVectorsColumns from Nat.not_lt.mpr (Nat.le_of_lt hk)), vget_eq]
  exact vec_get c k hk

theorem and_one_shift (w s : Nat) : (w &&& (1 <<< s) ≠ 0) ↔ w.testBit s = true := by
  rw [Nat.one_shiftLeft]
  constructor
  · intro h
    refine Classical.byContradiction fun hn => h ?_
    apply Nat.eq_of_testBit_eq
    intro i
    rw [Nat.testBit_and, Nat.testBit_two_pow, Nat.zero_testBit]
    by_cases hi : s = i
    · subst hi; simp [hn]
    · simp [hi]
  · intro h h0
    have := congrArg (fun n => n.testBit s) h0
    simp [Nat.testBit_and, h] at this

theorem decide_bit (w s : Nat) : decide (w &&& (1 <<< s) ≠ 0) = bitAt w s := by
  rw [bitAt_eq]
  by_cases h : w.testBit s = true
  · rw [h]; exact decide_eq_true ((and_one_shift w s).mpr h)
  · rw [Bool.eq_false_iff.mpr h]
    exact decide_eq_false fun h' => h ((and_one_shift w s).mp h')

theorem getBinaryProp_eq (c s k : Nat) (hs : s < 32) (hk : k < 3) : getBinaryProp c s k = .ok (bitAt (word c k) s) := by
  unfold getBinaryProp
  rw [if_neg (show ¬ s ≥ 32 by omega), vget_eq]
  show binaryPropFromVecIndex (propsVectorTrie.getv c) s k = _
  unfold binaryPropFromVecIndex
  rw [vec_get c k hk]
  exact congrArg Except.ok (decide_bit (word c k) s)

theorem isAlphabetic_eq (c : Nat) : isAlphabetic c = .ok (bitAt (word c 1) 8) := by
  unfold isAlphabetic
  rw [getUnicodeProperties_eq c 1 (by decide)]
  exact congrArg Except.ok (decide_bit _ 8)

theorem isUWhiteSpace_eq (c : Nat) : isUWhiteSpace c = .ok (bitAt (word c 1) 0) := by
  unfold isUWhiteSpace
  rw [getUnicodeProperties_eq c 1 (by decide)]
  exact congrArg Except.ok (decide_bit _ 0)

theorem getBlock_eq (c : Nat) : getBlock c = .ok ((word c 0 &&& 0x0001ff00) >>> 8) := by
  unfold getBlock
  rw [vget_eq]
  show blockFromVecIndex (propsVectorTrie.getv c) = _
  unfold blockFromVecIndex
  rw [vec_get c 0 (by decide)]
  rfl

theorem getScript_eq (c : Nat) (hc : c ≤ 0x10FFFF) : getScript c = .ok ((scriptOf (word c 0) : Nat) : Int) := by
  unfold getScript
  rw [if_neg (show ¬ c > 0x10FFFF by omega), vget_eq]
  show (scriptFromVecIndex (propsVectorTrie.getv c) >>= fun s => .ok ((s : Nat) : Int)) = _
  rw [script_eq]
  rfl

theorem getAge_eq (c : Nat) : getAge c = .ok [word c 0 >>> 24 >>> 4, (word c 0 >>> 24) &&& 0xF, 0, 0] := by
  unfold getAge
  rw [getUnicodeProperties_eq c 0 (by decide)]
  rfl

theorem getNumericTypeValue_eq (c : Nat) : getNumericTypeValue c = .ok (propsTrie.getv c >>> 6) := by
  unfold getNumericTypeValue
  rw [get_eq]
  rfl

theorem digitValue_eq (c : Nat) : digitValue c = .ok (if ((propsTrie.getv c >>> 6 : Nat) : Int) - 1 ≤ 9 then
    ((propsTrie.getv c >>> 6 : Nat) : Int) - 1 else -1) := by
  unfold digitValue
  rw [getNumericTypeValue_eq]
  rfl

/-! ## Numeric values -/

theorem timesPow10_eq : ∀ (fuel : Nat) (v : Rat) (e : Nat), e < fuel → timesPow10 fuel v e = .ok (v * 10 ^ e)
  | 0, _, _, h => absurd h (Nat.not_lt_zero _)
  | fuel + 1, v, e, h => by
    unfold timesPow10
    by_cases h4 : e ≥ 4
    · rw [if_pos h4, timesPow10_eq fuel _ (e - 4) (by omega)]
      obtain ⟨k, rfl⟩ : ∃ k, e = k + 4 := ⟨e - 4, by omega⟩
      rw [Nat.add_sub_cancel]
      congr 1
      grind
    · rw [if_neg h4]
      have : e = 0 ∨ e = 1 ∨ e = 2 ∨ e = 3 := by omega
      rcases this with rfl | rfl | rfl | rfl
      · simp
      · simp
      · rw [if_neg (by decide), if_pos rfl]; congr 1
      · rw [if_pos rfl]; congr 1

theorem cast_sub (n k : Nat) (h : k ≤ n) : (((n : Int) - (k : Int) : Int) : Rat) = ((n - k : Nat) : Rat) := by
  rw [← Int.ofNat_sub h]
  exact Rat.intCast_natCast _

theorem cast_minus (m : Nat) (k : Int) : (((m : Int) - k : Int) : Rat) = (m : Rat) - (k : Rat) := by
  rw [Rat.intCast_sub, Rat.intCast_natCast]

theorem numericValueFromProps_eq (props : Nat) : numericValueFromProps props = .ok (numericValue (props >>> 6)) := by
  unfold numericValueFromProps numericTypeValueFromProps numericValue
  generalize props >>> 6 = n
  dsimp only
  by_cases h0 : n = 0
  · rw [if_pos h0, if_pos h0]
  rw [if_neg h0, if_neg h0]
  by_cases h1 : n < 11
  · rw [if_pos h1, if_pos h1]; exact congrArg (fun q => Except.ok (some q)) (cast_sub n 1 (by omega))
  rw [if_neg h1, if_neg h1]
  by_cases h2 : n < 21
  · rw [if_pos h2, if_pos h2]; exact congrArg (fun q => Except.ok (some q)) (cast_sub n 11 (by omega))
  rw [if_neg h2, if_neg h2]
  by_cases h3 : n < 0xb0
  · rw [if_pos h3, if_pos h3]; exact congrArg (fun q => Except.ok (some q)) (cast_sub n 21 (by omega))
  rw [if_neg h3, if_neg h3]
  by_cases h4 : n < 0x1e0
  · rw [if_pos h4, if_pos h4]
    have e1 : n >>> 4 = n / 16 := Nat.shiftRight_eq_div_pow n 4
    have e2 : n &&& 0xf = n % 16 := Nat.and_two_pow_sub_one_eq_mod n 4
    rw [e1, e2, cast_minus, show ((n % 16 + 1 : Nat) : Rat) = ((n % 16 : Nat) : Rat) + 1 by grind]
    rfl
  rw [if_neg h4, if_neg h4]
  by_cases h5 : n < 0x300
  · rw [if_pos h5, if_pos h5]
    have e1 : n >>> 5 = n / 32 := Nat.shiftRight_eq_div_pow n 5
    have e2 : n &&& 0x1f = n % 32 := Nat.and_two_pow_sub_one_eq_mod n 5
    rw [e1, e2, timesPow10_eq _ _ _ (by omega)]
    show Except.ok _ = _
    rw [cast_minus]
    rfl
  rw [if_neg h5, if_neg h5]
  by_cases h6 : n < 0x324
  · rw [if_pos (show n < 0x300 + 36 from h6), if_pos h6]
    have e1 : n >>> 2 = n / 4 := Nat.shiftRight_eq_div_pow n 2
    have e2 : n &&& 3 = n % 4 := Nat.and_two_pow_sub_one_eq_mod n 2
    rw [e1, e2]
    have : n % 4 = 0 ∨ n % 4 = 1 ∨ n % 4 = 2 ∨ n % 4 = 3 := by omega
    congr 2
    generalize n / 4 = m
    have c60 : ∀ k : Int, ((((m : Int) - 0xbf) * k : Int) : Rat) = ((m : Rat) - 0xbf) * (k : Rat) := fun k => by
      rw [Rat.intCast_mul, cast_minus]; rfl
    rcases this with h | h | h | h <;> rw [h]
    · exact (c60 60).trans (by congr 1)
    · exact (c60 (60 * 60)).trans (by congr 1)
    · exact (c60 (60 * 60 * 60)).trans (by congr 1)
    · exact (c60 (60 * 60 * 60 * 60)).trans (by congr 1)
  rw [if_neg (show ¬ n < 0x300 + 36 from h6), if_neg h6]
  by_cases h7 : n < 0x33c
  · rw [if_pos (show n < 0x300 + 36 + 24 from h7), if_pos h7]
    have e1 : (n - (0x300 + 36)) >>> 2 = (n - 0x324) / 4 := Nat.shiftRight_eq_div_pow _ 2
    have e2 : (n - (0x300 + 36)) &&& 3 = (n - 0x324) % 4 := Nat.and_two_pow_sub_one_eq_mod _ 2
    rw [e1, e2, Nat.shiftLeft_eq]
  rw [if_neg (show ¬ n < 0x300 + 36 + 24 from h7), if_neg h7]
  by_cases h8 : n < 0x34c
  · rw [if_pos (show n < 0x300 + 36 + 24 + 16 from h8), if_pos h8]
    have e1 : (n - (0x300 + 36 + 24)) >>> 2 = (n - 0x33c) / 4 := Nat.shiftRight_eq_div_pow _ 2
    have e2 : (n - (0x300 + 36 + 24)) &&& 3 = (n - 0x33c) % 4 := Nat.and_two_pow_sub_one_eq_mod _ 2
    rw [e1, e2, Nat.shiftLeft_eq]
  rw [if_neg (show ¬ n < 0x300 + 36 + 24 + 16 from h8), if_neg h8]

end Verif.Char

import Verif.Lemmas.ShippedTries
import Verif.Props.Utilities
/-! # Whole-table checks on the bidi data -/
namespace Verif.Bidi
open Verif.Data
set_option maxRecDepth 100000

/-- 32 copies of 0xE300: the mirror delta and the bracket type. -/
def mask : Nat := 0xE300 * ((2 ^ 512 - 1) / (2 ^ 16 - 1))

theorem mask_spec : ∀ j < 32, (mask >>> (bidiIndex.bits * j)) % 2 ^ bidiIndex.bits = 0xE300 := by decide +kernel

/-- What is checked for a code point with a mirror delta or a bracket type. -/
noncomputable def goodMirror (c v : Nat) : Bool :=
  match getMirrorFromProps c v with
  | .ok m =>
    decide (0 ≤ m) && decide (m < 0x110000) &&
    decide (getMirror m.toNat = .ok (c : Int)) && (decide (m = c) || getFlagFromProps v 12) &&
    (decide (v &&& 0x300 = 0) ||
      (decide (getPairedBracketType m.toNat = .ok (3 - (v &&& 0x300) >>> 8)) && decide ((v &&& 0x300) >>> 8 ≤ 2) && decide (m ≠ c)))
  | .error _ => false

noncomputable def goodC (c v : Nat) : Bool := or (Nat.beq (Nat.land v 0xE300) 0) (goodMirror c v)

theorem mirror_scan : allB (bidiPropsTrie.scanG (bidiIndex.quick mask) goodC) 10 0 = true := by decide +kernel

/-- Values stored in the data part. -/
noncomputable def goodValue (k : Nat) : Bool :=
  let i := Nat.add bidiIndexLength k
  or (Nat.ble bidiIndex.size i)
    (and (Nat.blt (Nat.land (bidiIndex.entry i) 0x1f) 23) (Nat.blt (Nat.shiftRight (Nat.land (bidiIndex.entry i) 0xe0) 5) 6))

theorem values_scan : allB goodValue 14 0 = true := by decide +kernel

theorem getv_lt (c : Nat) : bidiPropsTrie.getv c < 65536 :=
  trie_ok.forall_values (· < 65536) (fun i _ _ => bidiIndex.entry_lt i) c

theorem getv_good (c : Nat) :
    bidiPropsTrie.getv c &&& 0x1f < 23 ∧ (bidiPropsTrie.getv c &&& 0xe0) >>> 5 < 6 := by
  refine trie_ok.forall_values (fun v => v &&& 0x1f < 23 ∧ (v &&& 0xe0) >>> 5 < 6) (fun i h1 h2 => ?_) c
  have h1' : 3568 ≤ i := h1
  have h2' : i < 12536 := h2
  have := allB_range values_scan (lo := 0) (hi := 16384) rfl rfl (i - 3568) (by omega) (by omega)
  unfold goodValue at this
  have e : Nat.add bidiIndexLength (i - 3568) = i := by
    show 3568 + (i - 3568) = i
    omega
  simp only [e, Bool.or_eq_true, Bool.and_eq_true, Nat.blt_eq, Nat.ble_eq] at this
  rcases this with h | h
  · exact absurd h (by show ¬ 12536 ≤ i; omega)
  · exact h

theorem getMirrorFromProps_trivial {v : Nat} (hv : v < 65536) (h : v &&& 0xE300 = 0) (c : Nat) :
    getMirrorFromProps c v = .ok (c : Int) := by
  have h2 : v / 8192 = 0 := by
    have e : v &&& 0xE000 = (v &&& 0xE300) &&& 0xE000 := by rw [Nat.and_assoc]; rfl
    have := and_field v 3 13
    simp only [Nat.reducePow, Nat.reduceSub, Nat.reduceMul] at this
    rw [e, h] at this
    simp only [Nat.zero_and] at this
    omega
  have hd : getMirrorDeltaFromProps v = .ok 0 := by
    unfold getMirrorDeltaFromProps MIRROR_DELTA_BITS
    rw [Utilities.Props.arithmeticShift_signed (by decide) (by decide) (by omega)
      (by have : (2 : Int) ^ 16 = 65536 := by decide
          omega)]
    have : (v : Int) / 2 ^ (16 - (16 - 13)) = 0 := by
      have : (2 : Int) ^ (16 - (16 - 13)) = 8192 := by decide
      rw [this]; omega
    rw [this]
    rfl
  unfold getMirrorFromProps
  rw [hd]
  simp [bind, Except.bind, pure, Except.pure]

theorem goodC_get (c : Nat) : goodC c (bidiPropsTrie.getv c) = true := by
  have triv : ∀ v c, v &&& 0xE300 = 0 → goodC c v = true := by
    intro v c h
    unfold goodC
    rw [show Nat.land v 0xE300 = v &&& 0xE300 from rfl, h]; rfl
  by_cases hc : c < 0x10FFFF
  · refine trie_ok.forall_scanG nulls_ok (bidiIndex.quick mask) goodC ?_ (fun c => triv _ c rfl) ?_ ?_ c hc
    · intro a ha j hj c
      exact triv _ _ (bidiIndex.quick_spec mask 0xE300 a mask_spec ha j hj)
    · intro g hg
      exact allB_range mirror_scan (lo := 0) (hi := 1024) rfl rfl g (by omega) (by omega)
    · intro c h1 h2
      have h1' : 0x110000 ≤ c := h1
      omega
  · refine triv _ _ ?_
    unfold UTrie2.getv
    rw [if_neg hc]
    decide +kernel

theorem get_eq (c : Nat) : bidiPropsTrie.get c = .ok (bidiPropsTrie.getv c) := trie_ok.get c

theorem getMirror_eq (c : Nat) : getMirror c = getMirrorFromProps c (bidiPropsTrie.getv c) := by
  unfold getMirror
  rw [get_eq]; rfl

theorem and_300_of_E300 {v : Nat} (h : v &&& 0xE300 = 0) : v &&& 0x300 = 0 := by
  have e : v &&& 0x300 = (v &&& 0xE300) &&& 0x300 := by rw [Nat.and_assoc]; rfl
  rw [e, h]; rfl

/-- What the scan says about the mirror of `c`. -/
theorem mirror_facts (c : Nat) (hc : c ≤ 0x10FFFF) : ∃ m : Nat,
    getMirror c = .ok (m : Int) ∧ m ≤ 0x10FFFF ∧ getMirror m = .ok (c : Int) ∧
    (m ≠ c → getFlagFromProps (bidiPropsTrie.getv c) 12 = true) ∧
    (bidiPropsTrie.getv c &&& 0x300 ≠ 0 →
      (bidiPropsTrie.getv m &&& 0x300) >>> 8 = 3 - (bidiPropsTrie.getv c &&& 0x300) >>> 8 ∧
      (bidiPropsTrie.getv c &&& 0x300) >>> 8 ≤ 2 ∧ m ≠ c) := by
  have hg := goodC_get c
  unfold goodC at hg
  rw [Bool.or_eq_true] at hg
  rcases hg with hg | hg
  · have h0 : bidiPropsTrie.getv c &&& 0xE300 = 0 := Nat.eq_of_beq_eq_true hg
    have hm : getMirror c = .ok (c : Int) := by
      rw [getMirror_eq, getMirrorFromProps_trivial (getv_lt c) h0]
    exact ⟨c, hm, hc, hm, fun h => absurd rfl h, fun h => absurd (and_300_of_E300 h0) h⟩
  · unfold goodMirror at hg
    rw [← getMirror_eq] at hg
    cases hm : getMirror c with
    | error e => rw [hm] at hg; simp at hg
    | ok m =>
      rw [hm] at hg
      simp only [Bool.and_eq_true, Bool.or_eq_true, decide_eq_true_eq] at hg
      obtain ⟨⟨⟨⟨h0, h1⟩, h2⟩, h3⟩, h4⟩ := hg
      have em : ((m.toNat : Nat) : Int) = m := Int.toNat_of_nonneg h0
      refine ⟨m.toNat, by rw [em], by omega, h2, fun h => ?_, fun h => ?_⟩
      · rcases h3 with h3 | h3
        · omega
        · exact h3
      · rcases h4 with h4 | ⟨⟨h4, h5⟩, h6⟩
        · exact absurd h4 h
        · refine ⟨?_, h5, by omega⟩
          unfold getPairedBracketType at h4
          rw [get_eq] at h4
          simpa [bind, Except.bind, pure, Except.pure] using h4

end Verif.Bidi

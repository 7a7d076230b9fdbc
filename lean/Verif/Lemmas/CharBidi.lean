import Verif.Lemmas.CharData
/-! # Relations between the bidi data and the general category -/
namespace Verif.Char
open Verif.Data
set_option maxRecDepth 100000

namespace BidiCross

theorem full : Bidi.bidiPropsTrie.Full := ⟨Bidi.trie_ok, Bidi.nulls_ok, by decide, rfl⟩
theorem agree : UTrie2.Agree Bidi.bidiPropsTrie (Bidi.bidiPropsTrie.withBig bidiIndex.big) := UTrie2.agree_big rfl rfl (by decide)
theorem bfull : (Bidi.bidiPropsTrie.withBig bidiIndex.big).Full := full.big rfl rfl (by decide)

/-- Statements about a value of the bidi trie: bracket types 1 and 2, bidi control, join control, class NSM, explicit
classes, not NSM, not L, not ON, not joining type T, class B, class EN or AN. -/
noncomputable def bidiBits (v : Nat) : List Bool :=
  force (Nat.land v 0x1f) fun cl => force (Nat.land v 0x300) fun br =>
  [Nat.beq br 0x100, Nat.beq br 0x200, bitAt v 11, bitAt v 10, Nat.beq cl 17, bitAt 0x79D800 cl, not (Nat.beq cl 17),
   not (Nat.beq cl 0), not (Nat.beq cl 10), not (Nat.beq (Nat.land v 0xe0) 0xa0), Nat.beq cl 7, bitAt 0x24 cl,
   false, false, false, false]

/-- Statements about a general category that follow from them: Ps, Pe, Cf, Cf, Mn or Me, Cf, not Me, not Mc, none of
Ps, Pe, Pc, Pi, Pf, neither Mn nor Me, Cc or Zp, one of N*, Cf, Po. -/
def gcBits (gc : Nat) : List Bool :=
  [Nat.beq gc 20, Nat.beq gc 21, Nat.beq gc 16, Nat.beq gc 16, bitAt 0xC0 gc, Nat.beq gc 16, not (Nat.beq gc 7),
   not (Nat.beq gc 8), not (bitAt 0x30700000 gc), not (bitAt 0xC0 gc), bitAt 0xC000 gc, bitAt 0x810E00 gc,
   false, false, false, false]

noncomputable def rel (_b w1 w2 : Nat) : Bool :=
  force (Nat.land w1 (2 ^ 512 - 1)) fun w1 => Nat.beq (Nat.land w1 w2) w1

noncomputable def check : Bool :=
  force (fields (fun gc => pack (gcBits gc)) 16 5 0) fun C =>
  force bidiIndex.big fun B1 => force propsIndex.big fun B2 =>
    UTrie2.check2 (Bidi.bidiPropsTrie.withBig B1) (propsTrie.withBig B2)
      (fun v => pack (bidiBits v)) (fun v => bigEntry 16 0xFFFF C (Nat.land v 0x1f)) 16 (fun _ => true) rel

theorem scan : check = true := by decide +kernel

set_option exponentiation.threshold 600 in
theorem rel_spec (b w1 w2 : Nat) (h : rel b w1 w2 = true) (j : Nat) (hj : j < 32) :
    field 16 w1 j &&& field 16 w2 j = field 16 w1 j := by
  unfold rel at h
  rw [force_eq] at h
  have h1' := congrArg (fun w => field 16 w j) (Nat.eq_of_beq_eq_true h)
  have em : field 16 (Nat.land w1 (2 ^ 512 - 1)) j = field 16 w1 j := by
    show field 16 (w1 &&& (2 ^ 512 - 1)) j = _
    rw [Nat.and_two_pow_sub_one_eq_mod, field_mod _ _ _ _ (by omega)]
  have h1'' : field 16 (Nat.land w1 (2 ^ 512 - 1)) j &&& field 16 w2 j = field 16 (Nat.land w1 (2 ^ 512 - 1)) j := by
    rw [← field_and]; exact h1'
  rw [em] at h1''
  exact h1''

theorem gc_field (v : Nat) :
    bigEntry 16 0xFFFF (fields (fun gc => pack (gcBits gc)) 16 5 0) (Nat.land v 0x1f) = pack (gcBits (v &&& 0x1f)) := by
  have hf : ∀ gc, pack (gcBits gc) < 2 ^ 16 := fun gc => pack_lt _
  have hlt : v &&& 0x1f < 2 ^ 5 := Nat.lt_of_le_of_lt Nat.and_le_right (by decide)
  have := fields_get hf 5 0 (v &&& 0x1f) hlt
  rw [Nat.zero_mul, Nat.zero_add] at this
  rw [← this, bigEntry_eq _ _ (by decide) (by decide)]
  rfl

theorem bidiBits_lt (v : Nat) : pack (bidiBits v) < 2 ^ 16 := by
  unfold bidiBits
  simp only [force_eq]
  exact pack_lt _

theorem key (C : Nat)
    (hs : UTrie2.check2 (Bidi.bidiPropsTrie.withBig bidiIndex.big) (propsTrie.withBig propsIndex.big)
      (fun v => pack (bidiBits v)) (fun v => bigEntry 16 0xFFFF C (Nat.land v 0x1f)) 16 (fun _ => true) rel = true)
    (h0 : pack (bidiBits 0) &&& bigEntry 16 0xFFFF C (Nat.land 0 0x1f) = pack (bidiBits 0)) (c : Nat) (hc : c < 0x10FFFF) :
    pack (bidiBits (Bidi.bidiPropsTrie.getv c)) &&& bigEntry 16 0xFFFF C (Nat.land (propsTrie.getv c) 0x1f)
      = pack (bidiBits (Bidi.bidiPropsTrie.getv c)) := by
  have lt16 : ∀ G i, bigEntry 16 0xFFFF G i < 2 ^ 16 := fun G i => Nat.lt_of_le_of_lt Nat.and_le_right (by decide)
  have key := UTrie2.forall_check2 bfull Char.bfull (f1 := fun v => pack (bidiBits v))
    (f2 := fun v => bigEntry 16 0xFFFF C (Nat.land v 0x1f)) (k := 16) (by decide)
    bidiBits_lt (fun v => lt16 _ _) (fun _ => true) rel (fun _ x y => x &&& y = x) rel_spec (fun _ _ _ => h0) hs c hc
  rw [agree.getv Bidi.trie_ok, Char.agree.getv trie_ok] at key
  exact key

/-- What the scan says about code points below U+10FFFF. -/
theorem facts (c : Nat) (hc : c < 0x10FFFF) (i : Nat) (h : (bidiBits (Bidi.bidiPropsTrie.getv c)).getD i false = true) :
    (gcBits (propsTrie.getv c &&& 0x1f)).getD i false = true := by
  have hs := scan
  unfold check at hs
  simp only [force_eq] at hs
  have h0 : pack (bidiBits 0) &&& pack (gcBits (0 &&& 0x1f)) = pack (bidiBits 0) := by decide +kernel
  have k1 : pack (bidiBits (Bidi.bidiPropsTrie.getv c)) &&& pack (gcBits (propsTrie.getv c &&& 0x1f))
      = pack (bidiBits (Bidi.bidiPropsTrie.getv c)) := by
    have hg := gc_field
    rw [← hg] at h0 ⊢
    clear hg
    generalize fields (fun gc => pack (gcBits gc)) 16 5 0 = C at *
    exact key C hs h0 c hc
  have := congrArg (fun n => n.testBit i) k1
  simp only [Nat.testBit_and, pack_testBit] at this
  rw [h, Bool.true_and] at this
  exact this

end BidiCross
end Verif.Char

import Verif.Lemmas.CPTrieGet
import Verif.Lemmas.Scan
import Verif.Model.Normalizer2
/-!
# Fast tries with 16-bit index-3 entries, and the shipped NFC trie
-/
namespace Verif.CPTrie
open Verif.CPTrie.Spec
set_option maxRecDepth 100000

/-- Position of the values of the 16 code points from `16 * b` on. -/
def blk (t : CPTrie) (b : Nat) : Nat :=
  bif Nat.blt b 0x1000 then Nat.add (t.index.at' (Nat.div b 4)) (Nat.mul 16 (Nat.mod b 4))
  else t.index.at' (Nat.add (t.index.at' (Nat.add (t.index.at' (Nat.add 1020 (Nat.div b 1024))) (Nat.mod (Nat.div b 32) 32))) (Nat.mod b 32))

/-- The value stored for `c`. -/
def val (t : CPTrie) (c : Nat) : Nat :=
  if c < t.highStart then t.data.at' (t.blk (c / 16) + c % 16) else t.data.at' (t.data.size - 2)

/-- The group `g` of 512 code points has 16-bit entries inside the index. -/
noncomputable def checkG (t : CPTrie) (g : Nat) : Bool :=
  or (Nat.blt g 128) (or (Nat.ble (Nat.div t.highStart 512) g)
    (force (Nat.add 1020 (Nat.div g 32)) fun i => and (Nat.blt i t.index.size)
      (force (Nat.add (t.index.at' i) (Nat.mod g 32)) fun i2 => and (Nat.blt i2 t.index.size)
        (force (t.index.at' i2) fun e => and (Nat.blt e 0x8000) (Nat.blt (Nat.add e 31) t.index.size)))))

/-- The block `b` lies inside the data. -/
def checkB (t : CPTrie) (b : Nat) : Bool :=
  or (Nat.ble (Nat.div t.highStart 16) b) (Nat.blt (Nat.add (t.blk b) 15) t.data.size)

/-- The checks the shipped trie passes. -/
structure Ok (t : CPTrie) : Prop where
  type : t.trieType = 0
  isize : 1024 ≤ t.index.size
  dsize : 2 ≤ t.data.size
  hs : t.highStart % 512 = 0
  hsLo : 0x10000 ≤ t.highStart
  hsHi : t.highStart ≤ 0x110000
  ascii : t.index.at' 0 = 0 ∧ t.index.at' 1 = 64
  groups : ∀ g < 2176, checkG t g = true
  blocks : ∀ b < 69632, checkB t b = true

theorem Ok.block {t : CPTrie} (h : Ok t) {b : Nat} (hb : 16 * b < t.highStart) : t.blk b + 15 < t.data.size := by
  have := h.blocks b (by have := h.hsHi; omega)
  simp only [checkB, Bool.or_eq_true, Nat.ble_eq, Nat.blt_eq] at this
  rcases this with h' | h'
  · have : t.highStart / 16 ≤ b := h'
    have := h.hs
    omega
  · exact h'

theorem Ok.group {t : CPTrie} (h : Ok t) {g : Nat} (h1 : 128 ≤ g) (h2 : 512 * g < t.highStart) :
    1020 + g / 32 < t.index.size ∧ t.index.at' (1020 + g / 32) + g % 32 < t.index.size ∧
    t.index.at' (t.index.at' (1020 + g / 32) + g % 32) < 0x8000 ∧
    t.index.at' (t.index.at' (1020 + g / 32) + g % 32) + 31 < t.index.size := by
  have := h.groups g (by have := h.hsHi; omega)
  simp only [checkG, force_eq, Bool.or_eq_true, Bool.and_eq_true, Nat.ble_eq, Nat.blt_eq] at this
  rcases this with h' | h' | h'
  · omega
  · have : t.highStart / 512 ≤ g := h'
    have := h.hs
    omega
  · exact ⟨h'.1, h'.2.1, h'.2.2.1, h'.2.2.2⟩

theorem blk_lo (t : CPTrie) {b : Nat} (h : b < 0x1000) : t.blk b = t.index.at' (b / 4) + 16 * (b % 4) := by
  unfold blk
  rw [Nat.blt_eq.mpr h]
  rfl

theorem blk_hi (t : CPTrie) {b : Nat} (h : 0x1000 ≤ b) :
    t.blk b = t.index.at' (t.index.at' (t.index.at' (1020 + b / 1024) + b / 32 % 32) + b % 32) := by
  unfold blk
  have : Nat.blt b 0x1000 = false := by
    rw [← Bool.not_eq_true, Nat.blt_eq]; omega
  rw [this]
  rfl

theorem Ok.represents {t : CPTrie} (h : Ok t) : Represents t t.val (t.data.at' (t.data.size - 1)) := by
  have hlo := h.hsLo
  have hal := h.hs
  have hfl : fastLimit t = 0x10000 := by unfold fastLimit; rw [if_pos h.type]
  have hval : ∀ c, c < t.highStart → t.data.get (t.blk (c / 16) + c % 16) = .ok (t.val c) := by
    intro c hc
    have := h.block (b := c / 16) (by omega)
    unfold val
    rw [if_pos hc]
    exact Arr.get_ok (by omega)
  have hfast : ∀ b, 64 * b < 0x10000 → ∃ p, t.index.get b = .ok p ∧ (∀ j < 64, t.data.get (p + j) = .ok (t.val (64 * b + j))) ∧ p = t.index.at' b := by
    intro b hb
    refine ⟨t.index.at' b, Arr.get_ok (by have := h.isize; omega), fun j hj => ?_, rfl⟩
    have h1 := hval (64 * b + j) (by omega)
    rw [blk_lo t (by omega)] at h1
    rw [← h1]
    have e1 : (64 * b + j) / 16 / 4 = b := by omega
    have e2 : (64 * b + j) / 16 % 4 = j / 16 := by omega
    rw [e1, e2]
    congr 1
    omega
  constructor
  · exact .inl h.type
  · intro c hc
    by_cases h1 : c < 64
    · obtain ⟨p, _, h2, h3⟩ := hfast 0 (by omega)
      have := h2 c h1
      rw [h3, h.ascii.1] at this
      simpa using this
    · obtain ⟨p, _, h2, h3⟩ := hfast 1 (by omega)
      have := h2 (c - 64) (by omega)
      rw [h3, h.ascii.2] at this
      rw [show 64 + (c - 64) = c by omega] at this
      exact this
  · intro b hb
    obtain ⟨p, h1, h2, _⟩ := hfast b (by omega)
    exact ⟨p, h1, h2⟩
  · intro g h1 h2
    rw [hfl] at h1
    obtain ⟨g1, g2, g3, g4⟩ := h.group (g := g) (by omega) h2
    have e : index1Pos t g = 1020 + g / 32 := by
      unfold index1Pos; rw [if_pos h.type]; omega
    refine ⟨_, _, fun k => t.index.at' (t.index.at' (t.index.at' (1020 + g / 32) + g % 32) + k), ?_, Arr.get_ok g2, .inl ⟨g3, ?_⟩, ?_⟩
    · rw [e]; exact Arr.get_ok g1
    · intro k hk; exact Arr.get_ok (by omega)
    · intro k hk j hj
      have h3 := hval (512 * g + 16 * k + j) (by omega)
      rw [blk_hi t (by omega)] at h3
      rw [← h3]
      have e1 : (512 * g + 16 * k + j) / 16 / 1024 = g / 32 := by omega
      have e2 : (512 * g + 16 * k + j) / 16 / 32 % 32 = g % 32 := by omega
      have e3 : (512 * g + 16 * k + j) / 16 % 32 = k := by omega
      have e4 : (512 * g + 16 * k + j) % 16 = j := by omega
      rw [e1, e2, e3, e4]
  · intro c _ h2 _
    unfold val
    rw [if_neg (by omega)]
    exact Arr.get_ok (by have := h.dsize; omega)
  · exact Arr.get_ok (by have := h.dsize; omega)
  · exact hal

end Verif.CPTrie

namespace Verif
open Verif.Data Verif.CPTrie
set_option maxRecDepth 100000

theorem nfc_groups : allB (checkG nfcTrie) 12 0 = true := by decide +kernel
theorem nfc_blocks : allB (fun b => or (Nat.ble 12224 b) (checkB nfcTrie b)) 14 0 = true := by decide +kernel

theorem nfc_ok : nfcTrie.Ok where
  type := rfl
  isize := by decide +kernel
  dsize := by decide +kernel
  hs := by decide +kernel
  hsLo := by decide +kernel
  hsHi := by decide +kernel
  ascii := ⟨by decide +kernel, by decide +kernel⟩
  groups := fun g hg => allB_range nfc_groups (lo := 0) (hi := 4096) rfl rfl g (by omega) (by omega)
  blocks := fun b hb => by
    by_cases h : b < 12224
    · have := allB_range nfc_blocks (lo := 0) (hi := 16384) rfl rfl b (by omega) (by omega)
      rw [Bool.or_eq_true, Nat.ble_eq] at this
      rcases this with h' | h'
      · omega
      · exact h'
    · unfold checkB
      have : Nat.ble (Nat.div nfcTrie.highStart 16) b = true := by
        rw [Nat.ble_eq]
        have : Nat.div nfcTrie.highStart 16 = 12224 := by decide +kernel
        omega
      rw [this]; rfl

theorem nfc_get (c : Nat) (hc : c ≤ 0x10FFFF) : nfcTrie.get c = .ok (nfcTrie.val c) := represents_get nfc_ok.represents c hc

end Verif

import Verif.Lemmas.Trie2Get
/-!
# Checking a predicate on whole tables in the kernel

`allB p d b` runs `p` on the `2 ^ d` numbers from `b * 2 ^ d` on, by binary splitting; it is made for evaluation by
the kernel and `allB_spec` turns a successful evaluation into a statement about every number of the range.
-/
namespace Verif

/-- `p` holds on the `2 ^ d` numbers from `b * 2 ^ d` on. -/
noncomputable def allB (p : Nat → Bool) (d : Nat) : Nat → Bool :=
  Nat.rec (fun b => p b) (fun _ ih b => and (ih (Nat.mul 2 b)) (ih (Nat.add (Nat.mul 2 b) 1))) d

theorem allB_spec (p : Nat → Bool) : ∀ (d b : Nat), allB p d b = true →
    ∀ i, b * 2 ^ d ≤ i → i < (b + 1) * 2 ^ d → p i = true := by
  intro d
  induction d with
  | zero => intro b h i h1 h2; have : i = b := by omega
            subst this; exact h
  | succ d ih =>
    intro b h i h1 h2
    have h' : (allB p d (2 * b) && allB p d (2 * b + 1)) = true := h
    rw [Bool.and_eq_true] at h'
    rw [Nat.pow_succ] at h1 h2
    by_cases hx : i < (2 * b + 1) * 2 ^ d
    · refine ih _ h'.1 i ?_ hx
      calc 2 * b * 2 ^ d = b * (2 ^ d * 2) := by rw [Nat.mul_comm 2 b, Nat.mul_assoc, Nat.mul_comm 2]
        _ ≤ i := h1
    · refine ih _ h'.2 i (by omega) ?_
      calc i < (b + 1) * (2 ^ d * 2) := h2
        _ = (2 * b + 1 + 1) * 2 ^ d := by
          rw [show 2 * b + 1 + 1 = (b + 1) * 2 by omega, Nat.mul_assoc, Nat.mul_comm 2]

/-- The same as a statement about a range of numbers. -/
theorem allB_range {p : Nat → Bool} {d b lo hi : Nat} (h : allB p d b = true) (h1 : lo = b * 2 ^ d)
    (h2 : hi = (b + 1) * 2 ^ d) : ∀ i, lo ≤ i → i < hi → p i = true := by
  subst h1; subst h2; exact allB_spec p d b h

/-- `f x`, evaluating `x` first when the kernel computes it. -/
noncomputable def force {β : Type} (x : Nat) (f : Nat → β) : β := Nat.rec (f 0) (fun n _ => f (Nat.succ n)) x

theorem force_eq {β : Type} (x : Nat) (f : Nat → β) : force x f = f x := by cases x <;> rfl

namespace UTrie2
open Spec

/-- Index entry of the data block of the 32 code points from `32 * b` on. -/
def blk (t : UTrie2) (b : Nat) : Nat :=
  bif Nat.ble b 0x7FF then
    bif and (Nat.ble 0x6C0 b) (Nat.ble b 0x6DF) then t.index.at' (Nat.add b 0x140) else t.index.at' b
  else t.index.at' (Nat.add (t.index.at' (Nat.add 2080 (Nat.div b 64))) (Nat.mod b 64))

/-- The data block of `b` lies in the data part of the array. -/
def checkB (t : UTrie2) (b : Nat) : Bool :=
  or (Nat.ble (Nat.div t.highStart 32) b)
   (and (or (Nat.ble b 0x7FF) (Nat.blt (Nat.add (t.index.at' (Nat.add 2080 (Nat.div b 64))) (Nat.mod b 64)) t.index.size))
    (and (Nat.blt (Nat.add (Nat.mul 4 (blk t b)) 31) t.index.size) (Nat.ble t.indexLength (Nat.mul 4 (blk t b)))))

/-- The entry for `c` in a trie that passes the checks. -/
def val (t : UTrie2) (c : Nat) : Nat :=
  if c < t.highStart then t.index.at' (4 * t.blk (c / 32) + c % 32) else t.index.at' t.highValueIndex

/-- What `get` returns for `c` in a trie that passes the checks. -/
def getv (t : UTrie2) (c : Nat) : Nat :=
  if c < 0x10FFFF then t.val c else t.index.at' (t.indexLength + 0x80)

/-- The checks a shipped trie passes. -/
structure Ok (t : UTrie2) : Prop where
  size : 2624 ≤ t.index.size
  hs : t.highStart % 2048 = 0
  hsLo : 0x10000 ≤ t.highStart
  hsHi : t.highStart ≤ 0x110000
  hvi : t.indexLength ≤ t.highValueIndex ∧ t.highValueIndex < t.index.size
  err : t.indexLength + 0x80 < t.index.size
  blocks : ∀ b < 34816, checkB t b = true

theorem Ok.block {t : UTrie2} (h : Ok t) {b : Nat} (hb : b < t.highStart / 32) :
    (b ≤ 0x7FF ∨ t.index.at' (2080 + b / 64) + b % 64 < t.index.size) ∧
    4 * t.blk b + 31 < t.index.size ∧ t.indexLength ≤ 4 * t.blk b := by
  have := h.blocks b (by have := h.hsHi; omega)
  unfold checkB at this
  simp only [Bool.or_eq_true, Bool.and_eq_true, Nat.blt_eq, Nat.ble_eq] at this
  rcases this with this | this
  · exact absurd hb (by have : t.highStart.div 32 ≤ b := this; exact Nat.not_lt.2 this)
  · exact ⟨this.1, this.2.1, this.2.2⟩

theorem blk_bmp (t : UTrie2) {b : Nat} (h1 : b < 0x800) (h2 : ¬ (0x6C0 ≤ b ∧ b < 0x6E0)) : t.blk b = t.index.at' b := by
  unfold blk
  rw [Nat.ble_eq_true_of_le (by omega : b ≤ 0x7FF)]
  have : and (Nat.ble 0x6C0 b) (Nat.ble b 0x6DF) = false := by
    cases hh : and (Nat.ble 0x6C0 b) (Nat.ble b 0x6DF) with
    | false => rfl
    | true =>
      have hh' : (Nat.ble 0x6C0 b && Nat.ble b 0x6DF) = true := hh
      simp only [Bool.and_eq_true, Nat.ble_eq] at hh'
      omega
  rw [this]; rfl

theorem blk_lead (t : UTrie2) {b : Nat} (h1 : 0x6C0 ≤ b) (h2 : b < 0x6E0) : t.blk b = t.index.at' (b + 0x140) := by
  unfold blk
  rw [Nat.ble_eq_true_of_le (by omega : b ≤ 0x7FF), Nat.ble_eq_true_of_le h1, Nat.ble_eq_true_of_le (by omega : b ≤ 0x6DF)]
  rfl

theorem blk_supp (t : UTrie2) {b : Nat} (h1 : 0x800 ≤ b) :
    t.blk b = t.index.at' (t.index.at' (2080 + b / 64) + b % 64) := by
  unfold blk
  have : Nat.ble b 0x7FF = false := by
    cases hh : Nat.ble b 0x7FF with
    | false => rfl
    | true => have := Nat.le_of_ble_eq_true hh; omega
  rw [this]; rfl

theorem Ok.represents {t : UTrie2} (h : Ok t) : Represents t t.val (t.index.at' (t.indexLength + 0x80)) := by
  have hs := h.hs
  have hlo := h.hsLo
  have hhi := h.hsHi
  have hsz := h.size
  have key : ∀ i b, t.index.get i = .ok (t.blk b) → b < t.highStart / 32 → BlockAt t.index i t.val (32 * b) := by
    intro i b hi hb
    refine ⟨_, hi, fun j hj => ?_⟩
    have := (h.block hb).2.1
    rw [Arr.get_ok (by omega)]
    unfold val
    rw [if_pos (by omega), show (32 * b + j) / 32 = b by omega, show (32 * b + j) % 32 = j by omega]
  constructor
  · intro b h1 h2
    exact key b b (by rw [Arr.get_ok (by omega), blk_bmp t h1 h2]) (by omega)
  · intro k hk
    rw [show 0xD800 + 32 * k = 32 * (0x6C0 + k) by omega]
    refine key _ _ ?_ (by omega)
    rw [Arr.get_ok (by omega), blk_lead t (by omega) (by omega)]
    congr 2; omega
  · intro g h1 h2 h3
    refine ⟨_, Arr.get_ok (by omega), fun m hm => ?_⟩
    rw [show 2048 * g + 32 * m = 32 * (64 * g + m) by omega]
    refine key _ _ ?_ (by omega)
    rw [blk_supp t (by omega)]
    have hb := (h.block (b := 64 * g + m) (by omega)).1
    rw [show (64 * g + m) / 64 = g by omega, show (64 * g + m) % 64 = m by omega] at hb ⊢
    rw [show 2112 + (g - 32) = 2080 + g by omega]
    exact Arr.get_ok (by omega)
  · intro c h1 h2 h3
    rw [Arr.get_ok h.hvi.2]
    unfold val
    rw [if_neg (by omega)]
  · exact Arr.get_ok h.err
  · exact hs

theorem Ok.get {t : UTrie2} (h : Ok t) (c : Nat) : t.get c = .ok (t.getv c) := by
  unfold getv
  by_cases hc : c < 0x10FFFF
  · rw [if_pos hc]; exact represents_get h.represents c hc
  · rw [if_neg hc, get_error t c (by omega)]; exact Arr.get_ok h.err

/-- A property of all entries of the data part holds for all values returned. -/
theorem Ok.forall_values {t : UTrie2} (h : Ok t) (P : Nat → Prop)
    (hP : ∀ i, t.indexLength ≤ i → i < t.index.size → P (t.index.at' i)) (c : Nat) : P (t.getv c) := by
  unfold getv val
  split
  · split
    · rename_i h1 h2
      have hs := h.hs
      have := h.block (b := c / 32) (by omega)
      exact hP _ (by omega) (by omega)
    · exact hP _ h.hvi.1 h.hvi.2
  · have := h.err
    exact hP _ (by omega) (by omega)

/-- A check over all blocks: `p` is run on the 32 code points of a block unless `quick` accepts the block. -/
noncomputable def scanB (t : UTrie2) (quick : Nat → Bool) (p : Nat → Nat → Bool) (b : Nat) : Bool :=
  or (Nat.ble (Nat.div t.highStart 32) b)
   (force (blk t b) fun a => or (quick a)
     (allB (fun j => force (Nat.add (Nat.mul 32 b) j) fun c => force (t.index.at' (Nat.add (Nat.mul 4 a) j)) fun v => p c v) 5 0))

theorem Ok.forall_scan {t : UTrie2} (h : Ok t) (quick : Nat → Bool) (p : Nat → Nat → Bool)
    (hq : ∀ a, quick a = true → ∀ j < 32, ∀ c, p c (t.index.at' (4 * a + j)) = true)
    (hs : ∀ b < 34816, scanB t quick p b = true)
    (hhi : ∀ c, t.highStart ≤ c → c < 0x10FFFF → p c (t.index.at' t.highValueIndex) = true)
    (c : Nat) (hc : c < 0x10FFFF) : p c (t.getv c) = true := by
  unfold getv val
  rw [if_pos hc]
  by_cases h1 : c < t.highStart
  · rw [if_pos h1]
    have hal := h.hs
    have := hs (c / 32) (by have := h.hsHi; omega)
    unfold scanB at this
    simp only [force_eq, Bool.or_eq_true] at this
    rcases this with this | this | this
    · rw [Nat.ble_eq] at this
      have h2 : t.highStart / 32 ≤ c / 32 := this
      omega
    · exact hq _ this _ (by omega) _
    · have := allB_spec _ _ _ this (c % 32) (by omega) (by omega)
      have e : Nat.add (Nat.mul 32 (c / 32)) (c % 32) = c := Nat.div_add_mod c 32
      rw [e] at this
      exact this
  · rw [if_neg h1]; exact hhi c (by omega) hc

end UTrie2
end Verif

namespace Verif

/-- The bits from entry `4 * a` on: the row it is in followed by the next one. -/
noncomputable def Table.window (t : Table) (a : Nat) : Nat :=
  Nat.shiftRight
    (Nat.lor (Nat.mod (t.rows.row (Nat.shiftRight (Nat.mul 4 a) 6) t.depth) (Nat.pow 2 (Nat.mul 64 t.bits)))
      (Nat.shiftLeft (t.rows.row (Nat.add (Nat.shiftRight (Nat.mul 4 a) 6) 1) t.depth) (Nat.mul 64 t.bits)))
    (Nat.mul t.bits (Nat.mod (Nat.mul 4 a) 64))

/-- The 32 entries of a data block have no bit of the mask `M` (32 copies of an entry mask). -/
noncomputable def Table.quick (t : Table) (M a : Nat) : Bool := Nat.beq (Nat.land (t.window a) M) 0

theorem Table.entry_lt (t : Table) (i : Nat) : t.entry i < 2 ^ t.bits := Nat.mod_lt _ (Nat.two_pow_pos _)

theorem Table.entry_eq (t : Table) (i : Nat) :
    t.entry i = (t.rows.row (i / 64) t.depth >>> (t.bits * (i % 64))) % 2 ^ t.bits := by
  rw [show i / 64 = i >>> 6 by rw [Nat.shiftRight_eq_div_pow]]; rfl

theorem Table.window_entry (t : Table) (a j : Nat) (hj : j < 32) :
    t.entry (4 * a + j) = (t.window a >>> (t.bits * j)) % 2 ^ t.bits := by
  have hw : t.window a = (t.rows.row (4 * a / 64) t.depth % 2 ^ (64 * t.bits) |||
      t.rows.row (4 * a / 64 + 1) t.depth <<< (64 * t.bits)) >>> (t.bits * (4 * a % 64)) := by
    rw [show 4 * a / 64 = (4 * a) >>> 6 by rw [Nat.shiftRight_eq_div_pow]]; rfl
  rw [hw, t.entry_eq]
  apply Nat.eq_of_testBit_eq
  intro k
  simp only [Nat.testBit_mod_two_pow, Nat.testBit_shiftRight, Nat.testBit_or, Nat.testBit_shiftLeft]
  by_cases hk : k < t.bits
  · simp only [hk, decide_true, Bool.true_and]
    by_cases hc : 4 * a % 64 + j < 64
    · have e1 : (4 * a + j) / 64 = 4 * a / 64 := by omega
      have e2 : (4 * a + j) % 64 = 4 * a % 64 + j := by omega
      have hb : t.bits * (4 * a % 64) + (t.bits * j + k) < 64 * t.bits := by
        rw [← Nat.add_assoc, ← Nat.mul_add]
        calc t.bits * (4 * a % 64 + j) + k < t.bits * (4 * a % 64 + j) + t.bits := by omega
          _ = t.bits * (4 * a % 64 + j + 1) := by rw [Nat.mul_add _ _ 1, Nat.mul_one]
          _ ≤ t.bits * 64 := Nat.mul_le_mul_left _ hc
          _ = 64 * t.bits := Nat.mul_comm _ _
      rw [e1, e2]
      simp only [hb, decide_true, Bool.true_and]
      have : ¬ (t.bits * (4 * a % 64) + (t.bits * j + k) ≥ 64 * t.bits) := by omega
      simp only [this, decide_false, Bool.false_and, Bool.or_false]
      rw [Nat.mul_add, Nat.add_assoc]
    · have e1 : (4 * a + j) / 64 = 4 * a / 64 + 1 := by omega
      have e2 : (4 * a + j) % 64 = 4 * a % 64 + j - 64 := by omega
      have hb : 64 * t.bits ≤ t.bits * (4 * a % 64) + (t.bits * j + k) := by
        rw [← Nat.add_assoc, ← Nat.mul_add]
        calc 64 * t.bits = t.bits * 64 := Nat.mul_comm _ _
          _ ≤ t.bits * (4 * a % 64 + j) := Nat.mul_le_mul_left _ (by omega)
          _ ≤ _ := Nat.le_add_right _ _
      rw [e1, e2]
      have h2 : ¬ (t.bits * (4 * a % 64) + (t.bits * j + k) < 64 * t.bits) := by omega
      simp only [h2, decide_false, Bool.false_and, Bool.false_or, ge_iff_le, hb, decide_true, Bool.true_and]
      congr 1
      have e3 : t.bits * (4 * a % 64 + j - 64) = t.bits * (4 * a % 64) + t.bits * j - 64 * t.bits := by
        rw [Nat.mul_sub, Nat.mul_add, Nat.mul_comm 64]
      have h3 : 64 * t.bits ≤ t.bits * (4 * a % 64) + t.bits * j := by
        rw [← Nat.mul_add, Nat.mul_comm 64]
        exact Nat.mul_le_mul_left _ (by omega)
      rw [e3]; omega
  · simp [hk]

theorem Table.quick_spec (t : Table) (M m a : Nat) (hM : ∀ j < 32, (M >>> (t.bits * j)) % 2 ^ t.bits = m)
    (h : t.quick M a = true) (j : Nat) (hj : j < 32) : t.entry (4 * a + j) &&& m = 0 := by
  have h1 : t.window a &&& M = 0 := Nat.eq_of_beq_eq_true h
  rw [t.window_entry a j hj, ← hM j hj, ← Nat.and_mod_two_pow, ← Nat.shiftRight_and_distrib, h1]
  simp

end Verif

import Verif.Lemmas.BigTable
/-!
# Functions of trie values, 32 code points at a time

`valueFields t f k` holds `f` of every entry of the data part of a trie, in fields of `k` bits. The fields of the 32
code points of a data block are then a slice of that number, and a relation for 32 code points can be checked by one
operation on slices.
-/
namespace Verif
set_option maxRecDepth 10000

/-- 32 copies of `m` in fields of `k` bits. -/
def copies (m k : Nat) : Nat := m * ((2 ^ (32 * k) - 1) / (2 ^ k - 1))

/-- Field `j` of `w`. -/
def field (k w j : Nat) : Nat := (w >>> (k * j)) % 2 ^ k

theorem field_testBit (k w j i : Nat) : (field k w j).testBit i = (decide (i < k) && w.testBit (k * j + i)) := by
  unfold field
  rw [Nat.testBit_mod_two_pow, Nat.testBit_shiftRight]

theorem field_and (k w w' j : Nat) : field k (w &&& w') j = field k w j &&& field k w' j := by
  apply Nat.eq_of_testBit_eq
  intro i
  rw [Nat.testBit_and, field_testBit, field_testBit, field_testBit, Nat.testBit_and]
  cases decide (i < k) <;> simp

theorem field_mod (k w j n : Nat) (h : k * j + k ≤ n) : field k (w % 2 ^ n) j = field k w j := by
  apply Nat.eq_of_testBit_eq
  intro i
  rw [field_testBit, field_testBit, Nat.testBit_mod_two_pow]
  by_cases hi : i < k
  · have : k * j + i < n := by omega
    simp [hi, this]
  · simp [hi]

namespace UTrie2

/-- `f` of the entries of the data part, by position in the array (which has at most `2 ^ 15` entries). -/
noncomputable def valueFields (t : UTrie2) (f : Nat → Nat) (k : Nat) : Nat :=
  fields (fun i => cond (and (Nat.ble t.indexLength i) (Nat.blt i t.index.size)) (force (t.index.at' i) f) 0) k 15 0

/-- The slice of block `b`. -/
noncomputable def slice (t : UTrie2) (k F b : Nat) : Nat := window F (Nat.mul (Nat.mul 4 k) (t.blk b))

/-- The tries the scans work on: no high part, and few enough entries. -/
structure Full (t : UTrie2) : Prop where
  ok : Ok t
  nulls : NullsOk t
  size : t.index.size ≤ 32768
  hs : t.highStart = 0x110000

theorem Full.slice_spec {t : UTrie2} (h : Full t) {f : Nat → Nat} {k : Nat} (hk : k ≤ 32) (hf : ∀ v, f v < 2 ^ k) {c : Nat}
    (hc : c < 0x10FFFF) : field k (t.slice k (t.valueFields f k) (c / 32)) (c % 32) = f (t.getv c) := by
  have hhs := h.hs
  have hsz := h.size
  have hb := h.ok.block (b := c / 32) (by omega)
  have e : field k (t.slice k (t.valueFields f k) (c / 32)) (c % 32) =
      (t.valueFields f k >>> (k * (4 * t.blk (c / 32) + c % 32))) % 2 ^ k := by
    show (window (t.valueFields f k) (4 * k * t.blk (c / 32))) >>> (k * (c % 32)) % 2 ^ k = _
    have hle : k * (c % 32) + k ≤ 1024 := by
      calc k * (c % 32) + k = k * (c % 32 + 1) := by rw [Nat.mul_add, Nat.mul_one]
        _ ≤ 32 * 32 := Nat.mul_le_mul hk (by omega)
    apply Nat.eq_of_testBit_eq
    intro i
    rw [Nat.testBit_mod_two_pow, Nat.testBit_mod_two_pow, Nat.testBit_shiftRight, Nat.testBit_shiftRight]
    by_cases hi : i < k
    · rw [window_testBit _ _ _ (by omega), Nat.mul_add, ← Nat.mul_assoc k 4, Nat.mul_comm k 4, Nat.add_assoc]
    · simp [hi]
  have h1 : 4 * t.blk (c / 32) + c % 32 < 2 ^ 15 := by
    rw [show 2 ^ 15 = 32768 by decide]; omega
  have hf' : ∀ i, cond (and (Nat.ble t.indexLength i) (Nat.blt i t.index.size)) (force (t.index.at' i) f) 0 < 2 ^ k := by
    intro i
    rw [force_eq]
    cases and (Nat.ble t.indexLength i) (Nat.blt i t.index.size)
    · exact Nat.two_pow_pos k
    · exact hf _
  rw [e, valueFields, fields_get hf' 15 0 _ h1, Nat.zero_mul, Nat.zero_add, force_eq,
    Nat.ble_eq_true_of_le (by omega : t.indexLength ≤ 4 * t.blk (c / 32) + c % 32),
    Nat.blt_eq.mpr (by omega : 4 * t.blk (c / 32) + c % 32 < t.index.size)]
  unfold getv val
  rw [if_pos hc, if_pos (by omega)]
  rfl

theorem Full.null {t : UTrie2} (h : Full t) {c : Nat} (hc : c < 0x10FFFF) (h1 : 32 ≤ c / 2048)
    (h2 : t.index.at' (2080 + c / 2048) = t.index2NullOffset) : t.getv c = t.initialValue := by
  have hhs := h.hs
  unfold getv
  rw [if_pos hc]
  exact val_null h.ok h.nulls (by omega) (by omega) h2

theorem Full.big {t : UTrie2} {T : Table} (h : Full t) (hT : t.index = T.arr) (hb : T.bits = 16)
    (hsz : T.size ≤ 64 * 2 ^ T.depth) : Full (t.withBig T.big) :=
  ⟨(agree_big hT hb hsz).ok h.ok, (agree_big hT hb hsz).nulls h.nulls, h.size, h.hs⟩

/-- Check of all values. -/
noncomputable def checkValues (t : UTrie2) (P : Nat → Bool) : Bool :=
  allB (fun i => or (Nat.blt i t.indexLength) (or (Nat.ble t.index.size i) (force (t.index.at' i) P))) 15 0

theorem Full.forall_values {t : UTrie2} (h : Full t) {P : Nat → Bool} (hs : checkValues t P = true) (c : Nat) :
    P (t.getv c) = true := by
  refine h.ok.forall_values (fun v => P v = true) (fun i h1 h2 => ?_) c
  have hsz := h.size
  have := allB_range hs (lo := 0) (hi := 32768) rfl rfl i (by omega) (by omega)
  simp only [force_eq, Bool.or_eq_true, Nat.blt_eq, Nat.ble_eq] at this
  rcases this with h' | h' | h'
  · omega
  · omega
  · exact h'

/-! ## One trie -/

/-- Check of the blocks of group `g`; null groups are skipped if `skip` allows it. -/
noncomputable def scan1 (t : UTrie2) (k : Nat) (skip : Nat → Bool) (rel : Nat → Nat → Nat → Bool) (F g : Nat) : Bool :=
  or (Nat.ble 544 g) (or (and (Nat.ble 32 g) (and (skip g) (Nat.beq (t.index.at' (Nat.add 2080 g)) t.index2NullOffset)))
    (allB (fun m => force (Nat.add (Nat.mul 64 g) m) fun b => force (t.slice k F b) fun w => rel F b w) 6 0))

noncomputable def check1 (t : UTrie2) (f : Nat → Nat) (k : Nat) (skip : Nat → Bool) (rel : Nat → Nat → Nat → Bool) : Bool :=
  force (t.valueFields f k) fun F => allB (scan1 t k skip rel F) 10 0

theorem Full.forall_check1 {t : UTrie2} (h : Full t) {f : Nat → Nat} {k : Nat} (hk : k ≤ 32) (hf : ∀ v, f v < 2 ^ k)
    (skip : Nat → Bool) (rel : Nat → Nat → Nat → Bool) (Q : Nat → Nat → Prop)
    (hrel : ∀ b < 34816, ∀ w, w = t.slice k (t.valueFields f k) b → rel (t.valueFields f k) b w = true → ∀ j < 32, Q (32 * b + j) (field k w j))
    (hnull : ∀ c, 0x10000 ≤ c → skip (c / 2048) = true → Q c (f t.initialValue))
    (hs : check1 t f k skip rel = true) (c : Nat) (hc : c < 0x10FFFF) : Q c (f (t.getv c)) := by
  unfold check1 at hs
  simp only [force_eq] at hs
  have hg := allB_range hs (lo := 0) (hi := 1024) rfl rfl (c / 2048) (by omega) (by omega)
  unfold scan1 at hg
  simp only [Bool.or_eq_true, Bool.and_eq_true, force_eq] at hg
  rcases hg with hg | ⟨hg1, hg2, hg3⟩ | hg
  · rw [Nat.ble_eq] at hg
    omega
  · rw [Nat.ble_eq] at hg1
    rw [h.null hc hg1 (Nat.eq_of_beq_eq_true hg3)]
    exact hnull c (by omega) hg2
  · have hb := allB_range hg (lo := 0) (hi := 64) rfl rfl (c / 32 % 64) (by omega) (by omega)
    have e : Nat.add (Nat.mul 64 (c / 2048)) (c / 32 % 64) = c / 32 := by
      show 64 * (c / 2048) + c / 32 % 64 = c / 32
      omega
    rw [e] at hb
    have := hrel _ (by omega) _ rfl hb (c % 32) (by omega)
    rw [h.slice_spec hk hf hc, Nat.div_add_mod] at this
    exact this

/-! ## Two tries -/

/-- Check of a relation between two tries in group `g`; groups that are null in both are skipped if `skip` allows it. -/
noncomputable def scan2 (t1 t2 : UTrie2) (k : Nat) (skip : Nat → Bool) (rel : Nat → Nat → Nat → Bool) (F1 F2 g : Nat) : Bool :=
  or (Nat.ble 544 g) (or (and (Nat.ble 32 g) (and (skip g)
      (and (Nat.beq (t1.index.at' (Nat.add 2080 g)) t1.index2NullOffset)
        (Nat.beq (t2.index.at' (Nat.add 2080 g)) t2.index2NullOffset))))
    (allB (fun m => force (Nat.add (Nat.mul 64 g) m) fun b => force (t1.slice k F1 b) fun w1 => force (t2.slice k F2 b) fun w2 =>
      rel b w1 w2) 6 0))

noncomputable def check2 (t1 t2 : UTrie2) (f1 f2 : Nat → Nat) (k : Nat) (skip : Nat → Bool)
    (rel : Nat → Nat → Nat → Bool) : Bool :=
  force (t1.valueFields f1 k) fun F1 => force (t2.valueFields f2 k) fun F2 => allB (scan2 t1 t2 k skip rel F1 F2) 10 0

theorem forall_check2 {t1 t2 : UTrie2} (h1 : Full t1) (h2 : Full t2) {f1 f2 : Nat → Nat} {k : Nat} (hk : k ≤ 32)
    (hf1 : ∀ v, f1 v < 2 ^ k) (hf2 : ∀ v, f2 v < 2 ^ k) (skip : Nat → Bool)
    (rel : Nat → Nat → Nat → Bool) (Q : Nat → Nat → Nat → Prop)
    (hrel : ∀ b w1 w2, rel b w1 w2 = true → ∀ j < 32, Q (32 * b + j) (field k w1 j) (field k w2 j))
    (hnull : ∀ c, 0x10000 ≤ c → skip (c / 2048) = true → Q c (f1 t1.initialValue) (f2 t2.initialValue))
    (hs : check2 t1 t2 f1 f2 k skip rel = true) (c : Nat) (hc : c < 0x10FFFF) : Q c (f1 (t1.getv c)) (f2 (t2.getv c)) := by
  unfold check2 at hs
  simp only [force_eq] at hs
  have hg := allB_range hs (lo := 0) (hi := 1024) rfl rfl (c / 2048) (by omega) (by omega)
  unfold scan2 at hg
  simp only [Bool.or_eq_true, Bool.and_eq_true, force_eq] at hg
  rcases hg with hg | ⟨hg1, hg2, hg3, hg4⟩ | hg
  · rw [Nat.ble_eq] at hg
    omega
  · rw [Nat.ble_eq] at hg1
    rw [h1.null hc hg1 (Nat.eq_of_beq_eq_true hg3), h2.null hc hg1 (Nat.eq_of_beq_eq_true hg4)]
    exact hnull c (by omega) hg2
  · have hb := allB_range hg (lo := 0) (hi := 64) rfl rfl (c / 32 % 64) (by omega) (by omega)
    have e : Nat.add (Nat.mul 64 (c / 2048)) (c / 32 % 64) = c / 32 := by
      show 64 * (c / 2048) + c / 32 % 64 = c / 32
      omega
    rw [e] at hb
    have := hrel _ _ _ hb (c % 32) (by omega)
    rw [h1.slice_spec hk hf1 hc, h2.slice_spec hk hf2 hc, Nat.div_add_mod] at this
    exact this

end UTrie2
end Verif

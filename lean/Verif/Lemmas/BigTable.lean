import Verif.Lemmas.Trie2EnumOk
/-!
# A table as one number

`Table.big` joins the rows of a table in one number, which the kernel computes once; reading an entry is then a shift
and a mask, much faster than walking the tree of rows. `Agree` moves facts between a trie and the same trie with its
array read from such a number.
-/
namespace Verif
set_option maxRecDepth 10000

/-- The numbers `f (b * 2 ^ d + j)`, `j < 2 ^ d`, each in a field of `w` bits. -/
noncomputable def fields (f : Nat → Nat) (w d : Nat) : Nat → Nat :=
  Nat.rec (fun b => f b)
    (fun d ih b => Nat.lor (ih (Nat.mul 2 b)) (Nat.shiftLeft (ih (Nat.add (Nat.mul 2 b) 1)) (Nat.mul w (Nat.pow 2 d)))) d

theorem fields_succ (f : Nat → Nat) (w d b : Nat) :
    fields f w (d + 1) b = fields f w d (2 * b) ||| fields f w d (2 * b + 1) <<< (w * 2 ^ d) := rfl

theorem fields_lt {f : Nat → Nat} {w : Nat} (hf : ∀ i, f i < 2 ^ w) : ∀ d b, fields f w d b < 2 ^ (w * 2 ^ d) := by
  intro d
  induction d with
  | zero => intro b; show f b < 2 ^ (w * 2 ^ 0); simpa using hf b
  | succ d ih =>
    intro b
    rw [fields_succ]
    have e : w * 2 ^ (d + 1) = w * 2 ^ d + w * 2 ^ d := by rw [Nat.pow_succ, Nat.mul_two, Nat.mul_add]
    apply Nat.or_lt_two_pow
    · exact Nat.lt_of_lt_of_le (ih _) (Nat.pow_le_pow_right (by decide) (by omega))
    · rw [Nat.shiftLeft_eq, e, Nat.pow_add]
      exact Nat.mul_lt_mul_of_pos_right (ih _) (Nat.two_pow_pos _)

theorem fields_testBit {f : Nat → Nat} {w : Nat} (hf : ∀ i, f i < 2 ^ w) : ∀ (d b j k : Nat), j < 2 ^ d → k < w →
    (fields f w d b).testBit (w * j + k) = (f (b * 2 ^ d + j)).testBit k := by
  intro d
  induction d with
  | zero =>
    intro b j k hj hk
    have : j = 0 := by simpa using hj
    subst this
    show (f b).testBit _ = _
    simp
  | succ d ih =>
    intro b j k hj hk
    rw [fields_succ, Nat.testBit_or, Nat.testBit_shiftLeft]
    have e : 2 ^ (d + 1) = 2 ^ d + 2 ^ d := by rw [Nat.pow_succ]; omega
    have e1 : b * 2 ^ (d + 1) = 2 * b * 2 ^ d := by rw [Nat.pow_succ, Nat.mul_comm 2 b, Nat.mul_assoc, Nat.mul_comm 2]
    by_cases h1 : j < 2 ^ d
    · have hlt : w * j + k < w * 2 ^ d := by
        calc w * j + k < w * j + w := by omega
          _ = w * (j + 1) := by rw [Nat.mul_add, Nat.mul_one]
          _ ≤ w * 2 ^ d := Nat.mul_le_mul_left _ h1
      rw [ih _ _ _ h1 hk, e1]
      have : ¬ (w * 2 ^ d ≤ w * j + k) := by omega
      simp [this]
    · have hge : w * 2 ^ d ≤ w * j := Nat.mul_le_mul_left _ (by omega)
      have e2 : w * j + k - w * 2 ^ d = w * (j - 2 ^ d) + k := by rw [Nat.mul_sub]; omega
      have e3 : (fields f w d (2 * b)).testBit (w * j + k) = false :=
        Nat.testBit_lt_two_pow (Nat.lt_of_lt_of_le (fields_lt hf d _) (Nat.pow_le_pow_right (by decide) (by omega)))
      have e4 : (2 * b + 1) * 2 ^ d + (j - 2 ^ d) = b * 2 ^ (d + 1) + j := by
        rw [e1, Nat.add_mul, Nat.one_mul]; omega
      rw [e3, e2, ih _ _ _ (by omega) hk, e4]
      have : w * 2 ^ d ≤ w * j + k := by omega
      simp [this]

theorem fields_get {f : Nat → Nat} {w : Nat} (hf : ∀ i, f i < 2 ^ w) (d b j : Nat) (hj : j < 2 ^ d) :
    (fields f w d b >>> (w * j)) % 2 ^ w = f (b * 2 ^ d + j) := by
  apply Nat.eq_of_testBit_eq
  intro k
  rw [Nat.testBit_mod_two_pow, Nat.testBit_shiftRight]
  by_cases hk : k < w
  · rw [fields_testBit hf _ _ _ _ hj hk]; simp [hk]
  · rw [Nat.testBit_lt_two_pow (Nat.lt_of_lt_of_le (hf _) (Nat.pow_le_pow_right (by decide) (by omega)))]
    simp [hk]

/-- All rows of a table in one number. -/
noncomputable def Table.big (t : Table) : Nat :=
  fields (fun r => Nat.mod (t.rows.row r t.depth) (Nat.pow 2 (Nat.mul 64 t.bits))) (Nat.mul 64 t.bits) t.depth 0

/-- The bits of `B` from bit `n` on, taken out of a chunk of `w` bits starting at a multiple of `s`, so that the
kernel does not keep a big number for every access. -/
noncomputable def windowOf (s w B n : Nat) : Nat :=
  force (Nat.div n s) fun q =>
    Nat.shiftRight (Nat.land (Nat.shiftRight B (Nat.mul s q)) (Nat.sub (Nat.pow 2 w) 1)) (Nat.mod n s)

theorem windowOf_testBit (s w B n i : Nat) (hi : n % s + i < w) : (windowOf s w B n).testBit i = B.testBit (n + i) := by
  unfold windowOf
  rw [force_eq]
  show (((B >>> (s * (n / s))) &&& (2 ^ w - 1)) >>> (n % s)).testBit i = _
  rw [Nat.testBit_shiftRight, Nat.and_two_pow_sub_one_eq_mod, Nat.testBit_mod_two_pow, Nat.testBit_shiftRight,
    decide_eq_true hi, Bool.true_and, ← Nat.add_assoc, Nat.div_add_mod]

/-- At least 1024 bits of `B` from bit `n` on. -/
noncomputable def window (B n : Nat) : Nat := windowOf 8192 9216 B n

theorem window_testBit (B n i : Nat) (hi : i < 1024) : (window B n).testBit i = B.testBit (n + i) :=
  windowOf_testBit 8192 9216 B n i (by omega)

/-- Entry `i` of a table given as one number, `m` being the mask of an entry. -/
noncomputable def bigEntry (bits m B i : Nat) : Nat := Nat.land (window B (Nat.mul bits i)) m

theorem bigEntry_eq {bits m : Nat} (B i : Nat) (hm : m = 2 ^ bits - 1) (hb : bits ≤ 1024) :
    bigEntry bits m B i = (B >>> (bits * i)) % 2 ^ bits := by
  show window B (bits * i) &&& m = _
  rw [hm, Nat.and_two_pow_sub_one_eq_mod]
  apply Nat.eq_of_testBit_eq
  intro k
  rw [Nat.testBit_mod_two_pow, Nat.testBit_mod_two_pow, Nat.testBit_shiftRight]
  by_cases hk : k < bits
  · rw [window_testBit _ _ _ (by omega)]
  · simp [hk]

theorem Table.big_entry (t : Table) {m : Nat} (hm : m = 2 ^ t.bits - 1) (hb : t.bits ≤ 1024) {i : Nat}
    (hi : i < 64 * 2 ^ t.depth) : bigEntry t.bits m t.big i = t.entry i := by
  have hf : ∀ r, Nat.mod (t.rows.row r t.depth) (Nat.pow 2 (Nat.mul 64 t.bits)) < 2 ^ (64 * t.bits) :=
    fun r => Nat.mod_lt _ (Nat.two_pow_pos _)
  have hrow := fields_testBit hf t.depth 0 (i / 64)
  rw [bigEntry_eq _ _ hm hb, t.entry_eq]
  apply Nat.eq_of_testBit_eq
  intro k
  rw [Nat.testBit_mod_two_pow, Nat.testBit_mod_two_pow]
  by_cases hk : k < t.bits
  · simp only [hk, decide_true, Bool.true_and, Nat.testBit_shiftRight]
    have hlt : t.bits * (i % 64) + k < 64 * t.bits := by
      calc t.bits * (i % 64) + k < t.bits * (i % 64) + t.bits := by omega
        _ = t.bits * (i % 64 + 1) := by rw [Nat.mul_add, Nat.mul_one]
        _ ≤ t.bits * 64 := Nat.mul_le_mul_left _ (by omega)
        _ = 64 * t.bits := Nat.mul_comm _ _
    have := hrow (t.bits * (i % 64) + k) (by omega) hlt
    have e : 64 * t.bits * (i / 64) + (t.bits * (i % 64) + k) = t.bits * i + k := by
      rw [Nat.mul_comm 64, Nat.mul_assoc, ← Nat.add_assoc, ← Nat.mul_add, Nat.div_add_mod]
    rw [e] at this
    refine this.trans ?_
    show ((t.rows.row (0 * 2 ^ t.depth + i / 64) t.depth) % 2 ^ (64 * t.bits)).testBit _ = _
    rw [Nat.testBit_mod_two_pow, decide_eq_true hlt, Bool.true_and, Nat.zero_mul, Nat.zero_add]
  · simp [hk]

namespace UTrie2

/-- The trie with its array read from a number. -/
noncomputable def withBig (t : UTrie2) (B : Nat) : UTrie2 :=
  { t with index := ⟨t.index.size, bigEntry 16 0xFFFF B⟩ }

/-- The arrays of `t` and `t'` have the same entries and the other fields are equal. -/
structure Agree (t t' : UTrie2) : Prop where
  size : t'.index.size = t.index.size
  entry : ∀ i < t.index.size, t'.index.at' i = t.index.at' i
  il : t'.indexLength = t.indexLength
  n2 : t'.index2NullOffset = t.index2NullOffset
  nd : t'.dataNullOffset = t.dataNullOffset
  hs : t'.highStart = t.highStart
  hv : t'.highValueIndex = t.highValueIndex
  iv : t'.initialValue = t.initialValue

theorem agree_big {t : UTrie2} {T : Table} (hT : t.index = T.arr) (hb : T.bits = 16) (hsz : T.size ≤ 64 * 2 ^ T.depth) :
    Agree t (t.withBig T.big) := by
  refine ⟨rfl, fun i hi => ?_, rfl, rfl, rfl, rfl, rfl, rfl⟩
  have hi' : i < T.size := by rw [hT] at hi; exact hi
  have := T.big_entry (m := 0xFFFF) (by rw [hb]) (by omega) (i := i) (by omega)
  rw [hb] at this
  rw [hT]
  exact this

variable {t t' : UTrie2}

theorem Agree.get (h : Agree t t') (i : Nat) : t'.index.get i = t.index.get i := by
  unfold Arr.get
  rw [h.size]
  by_cases hi : i < t.index.size
  · rw [if_pos hi, if_pos hi, h.entry i hi]
  · rw [if_neg hi, if_neg hi]

theorem Agree.blk (h : Agree t t') (ok : Ok t) {b : Nat} (hb : b < t.highStart / 32) : t'.blk b = t.blk b := by
  have hs := ok.size
  have hhi := ok.hsHi
  by_cases h1 : b < 0x800
  · by_cases h2 : 0x6C0 ≤ b ∧ b < 0x6E0
    · rw [blk_lead t h2.1 h2.2, blk_lead t' h2.1 h2.2, h.entry _ (by omega)]
    · rw [blk_bmp t h1 h2, blk_bmp t' h1 h2, h.entry _ (by omega)]
  · rw [blk_supp t (by omega), blk_supp t' (by omega), h.entry (2080 + b / 64) (by omega)]
    have := (ok.block hb).1
    rw [h.entry _ (by omega)]

theorem Agree.ok (h : Agree t t') (ok : Ok t) : Ok t' := by
  refine ⟨by rw [h.size]; exact ok.size, by rw [h.hs]; exact ok.hs, by rw [h.hs]; exact ok.hsLo, by rw [h.hs]; exact ok.hsHi,
    by rw [h.il, h.hv, h.size]; exact ok.hvi, by rw [h.il, h.size]; exact ok.err, fun b _ => checkB_of fun hb => ?_⟩
  rw [h.hs] at hb
  have hhi := ok.hsHi
  have hs := ok.size
  rw [h.size, h.blk ok hb, h.il, h.entry (2080 + b / 64) (by omega)]
  exact ok.block hb

theorem Agree.nulls (h : Agree t t') (n : NullsOk t) : NullsOk t' := by
  refine ⟨fun j hj v hv => ?_, fun m hm e he => ?_⟩
  · rw [h.get, h.nd] at hv
    rw [h.iv]
    exact n.data j hj v hv
  · rw [h.get, h.n2] at he
    rw [h.nd]
    exact n.index2 m hm e he

theorem Agree.getv (h : Agree t t') (ok : Ok t) (c : Nat) : t'.getv c = t.getv c := by
  have ok' := h.ok ok
  have e1 := ok'.get c
  have e2 := ok.get c
  have e : t'.get c = t.get c := by
    by_cases hc : c < 0x10FFFF
    · have r := represents_get ok.represents c hc
      have r' := represents_get ok'.represents c hc
      rw [r, r']
      congr 1
      unfold val
      rw [h.hs, h.hv]
      by_cases h1 : c < t.highStart
      · rw [if_pos h1, if_pos h1]
        have hal := ok.hs
        have hb := ok.block (b := c / 32) (by omega)
        rw [h.blk ok (by omega), h.entry _ (by omega)]
      · rw [if_neg h1, if_neg h1, h.entry _ ok.hvi.2]
    · rw [get_error t c (by omega), get_error t' c (by omega), h.get, h.il]
  rw [e1, e2] at e
  exact Except.ok.inj e

end UTrie2
end Verif

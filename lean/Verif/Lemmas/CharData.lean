import Verif.Lemmas.ShippedTries
import Verif.Lemmas.BitScan
/-! # Whole-table checks on the character property data -/
namespace Verif.Char
open Verif.Data
set_option maxRecDepth 100000

theorem get_eq (c : Nat) : propsTrie.get c = .ok (propsTrie.getv c) := trie_ok.get c
theorem vget_eq (c : Nat) : propsVectorTrie.get c = .ok (propsVectorTrie.getv c) := vtrie_ok.get c

theorem full : propsTrie.Full := ⟨trie_ok, nulls_ok, by decide, rfl⟩
theorem vfull : propsVectorTrie.Full := ⟨vtrie_ok, vnulls_ok, by decide, rfl⟩
theorem agree : UTrie2.Agree propsTrie (propsTrie.withBig propsIndex.big) := UTrie2.agree_big rfl rfl (by decide)
theorem vagree : UTrie2.Agree propsVectorTrie (propsVectorTrie.withBig propsVectorsIndex.big) :=
  UTrie2.agree_big rfl rfl (by decide)
theorem bfull : (propsTrie.withBig propsIndex.big).Full := full.big rfl rfl (by decide)
theorem bvfull : (propsVectorTrie.withBig propsVectorsIndex.big).Full := vfull.big rfl rfl (by decide)

/-! ## Values of the vector trie are starts of vectors -/

def goodVecIndex (v : Nat) : Bool := and (Nat.beq (Nat.mod v 3) 0) (Nat.blt (Nat.add v 2) 6999)

theorem vecIndex_scan : (force propsVectorsIndex.big fun B =>
    (propsVectorTrie.withBig B).checkValues goodVecIndex) = true := by decide +kernel

theorem vecIndex_good (c : Nat) : propsVectorTrie.getv c % 3 = 0 ∧ propsVectorTrie.getv c + 2 < 6999 := by
  have h := vecIndex_scan
  rw [force_eq] at h
  have := bvfull.forall_values h c
  rw [vagree.getv vtrie_ok] at this
  unfold goodVecIndex at this
  simp only [Bool.and_eq_true, Nat.blt_eq] at this
  exact ⟨Nat.eq_of_beq_eq_true this.1, this.2⟩

theorem vector_get {v : Nat} (h : v + 2 < 6999) {k : Nat} (hk : k < 3) :
    unicodePropertiesFromVecIndex v k = .ok (propsVectorsTable.entry (v + k)) :=
  Arr.get_ok (show v + k < 6999 by omega)

/-- Word `k` of the vector of `c`. -/
noncomputable def word (c k : Nat) : Nat := propsVectorsTable.entry (propsVectorTrie.getv c + k)

theorem vec_get (c k : Nat) (hk : k < 3) : unicodePropertiesFromVecIndex (propsVectorTrie.getv c) k = .ok (word c k) :=
  vector_get (vecIndex_good c).2 hk

/-! ## Properties of all vectors -/

/-- Bit `k` of `G`. -/
def bitAt (G k : Nat) : Bool := Nat.beq (Nat.land (Nat.shiftRight G k) 1) 1

theorem bitAt_eq (G k : Nat) : bitAt G k = G.testBit k := by
  show Nat.beq ((G >>> k) &&& 1) 1 = _
  rw [Nat.testBit, Nat.and_comm 1, Nat.and_one_is_mod, Nat.shiftRight_eq_div_pow]
  rcases Nat.mod_two_eq_zero_or_one (G / 2 ^ k) with h | h <;> rw [h] <;> rfl

/-- A function of the three words of vector `n`, the table being given as one number. -/
noncomputable def onVector {β : Type} (B n : Nat) (f : Nat → Nat → Nat → β) : β :=
  force (bigEntry 32 0xFFFFFFFF B (Nat.mul 3 n)) fun a =>
    force (bigEntry 32 0xFFFFFFFF B (Nat.add (Nat.mul 3 n) 1)) fun b =>
    force (bigEntry 32 0xFFFFFFFF B (Nat.add (Nat.mul 3 n) 2)) fun d => f a b d

theorem onVector_word {β : Type} (f : Nat → Nat → Nat → β) (c : Nat) :
    onVector propsVectorsTable.big (propsVectorTrie.getv c / 3) f = f (word c 0) (word c 1) (word c 2) := by
  obtain ⟨h3, hlt⟩ := vecIndex_good c
  unfold word onVector
  generalize propsVectorTrie.getv c = v at *
  simp only [force_eq]
  have e : Nat.mul 3 (v / 3) = v := by show 3 * (v / 3) = v; omega
  have big : ∀ i < 6999, bigEntry 32 0xFFFFFFFF propsVectorsTable.big i = propsVectorsTable.entry i := fun i hi =>
    propsVectorsTable.big_entry (m := 0xFFFFFFFF) rfl (by decide)
      (Nat.lt_of_lt_of_le hi (by decide : 6999 ≤ 64 * 2 ^ propsVectorsTable.depth))
  rw [e, big v (by omega), big (Nat.add v 1) (by show v + 1 < 6999; omega), big (Nat.add v 2) hlt]
  rfl

/-- The check that all vectors satisfy `P`. -/
noncomputable def vecCheck (P : Nat → Nat → Nat → Bool) : Bool :=
  force propsVectorsTable.big fun B => allB (fun n => or (Nat.ble 2333 n) (onVector B n P)) 12 0

theorem vec_forall {P : Nat → Nat → Nat → Bool} (h : vecCheck P = true) (c : Nat) :
    P (word c 0) (word c 1) (word c 2) = true := by
  obtain ⟨h3, hlt⟩ := vecIndex_good c
  unfold vecCheck at h
  rw [force_eq] at h
  have := allB_range h (lo := 0) (hi := 4096) rfl rfl (propsVectorTrie.getv c / 3) (by omega) (by omega)
  rw [onVector_word, Bool.or_eq_true, Nat.ble_eq] at this
  rcases this with h' | h'
  · omega
  · exact h'

/-- Fields of `k` bits computed from the vectors. -/
noncomputable def vecFields (f : Nat → Nat → Nat → Nat) (k : Nat) : Nat :=
  force propsVectorsTable.big fun B => fields (fun n => cond (Nat.blt n 2333) (onVector B n f) 0) k 12 0

theorem vecFields_spec {f : Nat → Nat → Nat → Nat} {k m : Nat} (hf : ∀ a b d, f a b d < 2 ^ k) (hm : m = 2 ^ k - 1)
    (hk : k ≤ 32) (c : Nat) :
    bigEntry k m (vecFields f k) (propsVectorTrie.getv c / 3) = f (word c 0) (word c 1) (word c 2) := by
  obtain ⟨h3, hlt⟩ := vecIndex_good c
  have hf' : ∀ n, cond (Nat.blt n 2333) (onVector propsVectorsTable.big n f) 0 < 2 ^ k := by
    intro n
    cases Nat.blt n 2333
    · exact Nat.two_pow_pos k
    · show onVector propsVectorsTable.big n f < 2 ^ k
      unfold onVector
      simp only [force_eq]
      exact hf _ _ _
  rw [bigEntry_eq _ _ hm (by omega)]
  unfold vecFields
  rw [force_eq, fields_get hf' 12 0 _ (by rw [show 2 ^ 12 = 4096 by decide]; omega),
    Nat.zero_mul, Nat.zero_add, Nat.blt_eq.mpr (by omega : propsVectorTrie.getv c / 3 < 2333)]
  exact onVector_word f c

/-- The script number in the first word of a vector. -/
noncomputable def scriptOf (a : Nat) : Nat :=
  force (Nat.land a 0x00f000ff) fun x =>
  force (mergeScriptCodeOrIndex x) fun k =>
  cond (Nat.blt x 0x400000) k (cond (Nat.blt x 0x800000) 0 (cond (Nat.blt x 0xc00000) 1 (scriptExtensions.entry k)))

noncomputable def goodNames (a _b d : Nat) : Bool :=
  and (and (Nat.blt (Nat.shiftRight (Nat.land a 0x1ff00) 8) 309) (Nat.blt (Nat.shiftRight (Nat.land a 0xe0000) 17) 6))
  (and (and (Nat.blt (Nat.shiftRight (Nat.land d 0x3f00000) 20) 43) (Nat.blt (Nat.shiftRight (Nat.land d 0xf8000) 15) 15))
  (and (and (Nat.blt (Nat.shiftRight (Nat.land d 0x7c00) 10) 23) (Nat.blt (Nat.shiftRight (Nat.land d 0x3e0) 5) 18))
  (and (Nat.blt (Nat.land d 0x1f) 18) (and (Nat.ble (Nat.shiftRight a 24) 0xD0) (and (Nat.blt (scriptOf a) 193)
    (or (Nat.blt (Nat.land a 0x00f000ff) 0xc00000) (Nat.blt (mergeScriptCodeOrIndex (Nat.land a 0x00f000ff)) 262)))))))

theorem names_scan : vecCheck goodNames = true := by decide +kernel

structure Names (a d : Nat) : Prop where
  block : (a &&& 0x1ff00) >>> 8 < 309
  width : (a &&& 0xe0000) >>> 17 < 6
  line : (d &&& 0x3f00000) >>> 20 < 43
  sentence : (d &&& 0xf8000) >>> 15 < 15
  word : (d &&& 0x7c00) >>> 10 < 23
  grapheme : (d &&& 0x3e0) >>> 5 < 18
  decomp : d &&& 0x1f < 18
  age : a >>> 24 ≤ 0xD0
  script : scriptOf a < 193
  ext : a &&& 0x00f000ff < 0xc00000 ∨ mergeScriptCodeOrIndex (a &&& 0x00f000ff) < 262

theorem names (c : Nat) : Names (word c 0) (word c 2) := by
  have := vec_forall names_scan c
  unfold goodNames at this
  simp only [Bool.and_eq_true, Bool.or_eq_true, Nat.blt_eq, Nat.ble_eq] at this
  obtain ⟨⟨h1, h2⟩, ⟨h3, h4⟩, ⟨h5, h6⟩, h7, h8, h9, h10⟩ := this
  exact ⟨h1, h2, h3, h4, h5, h6, h7, h8, h9, h10⟩

theorem cond_blt {α : Type} (x y : Nat) (p q : α) : cond (Nat.blt x y) p q = if x < y then p else q := by
  by_cases h : x < y
  · rw [Nat.blt_eq.mpr h, if_pos h]; rfl
  · have : Nat.blt x y = false := Bool.eq_false_iff.2 fun h' => h (Nat.blt_eq.mp h')
    rw [this, if_neg h]; rfl

theorem script_eq (c : Nat) : scriptFromVecIndex (propsVectorTrie.getv c) = .ok (scriptOf (word c 0)) := by
  unfold scriptFromVecIndex
  rw [vec_get c 0 (by decide)]
  have hx := (names c).ext
  unfold scriptOf
  simp only [force_eq, cond_blt]
  generalize word c 0 = a at *
  show (if a &&& 0x00f000ff < 0x400000 then Except.ok (mergeScriptCodeOrIndex (a &&& 0x00f000ff))
    else if a &&& 0x00f000ff < 0x800000 then Except.ok 0 else if a &&& 0x00f000ff < 0xc00000 then Except.ok 1
    else scriptExtensions.arr.get (mergeScriptCodeOrIndex (a &&& 0x00f000ff))) = _
  show _ = Except.ok (if a &&& 0x00f000ff < 0x400000 then mergeScriptCodeOrIndex (a &&& 0x00f000ff)
    else if a &&& 0x00f000ff < 0x800000 then 0 else if a &&& 0x00f000ff < 0xc00000 then 1
    else scriptExtensions.entry (mergeScriptCodeOrIndex (a &&& 0x00f000ff)))
  split
  · rfl
  · split
    · rfl
    · split
      · rfl
      · rcases hx with hx | hx
        · contradiction
        · exact Arr.get_ok hx

/-! ## Values of the props trie -/

/-- General category, and decimal digits have exactly the numeric type values 1 to 10. -/
noncomputable def goodProp (v : Nat) : Bool :=
  force (Nat.land v 0x1f) fun gc => force (Nat.shiftRight v 6) fun n =>
      and (Nat.blt gc 30) (and (cond (Nat.beq gc 9) (and (Nat.ble 1 n) (Nat.ble n 10)) (or (Nat.beq n 0) (Nat.ble 11 n)))
        (or (not (or (Nat.beq gc 10) (Nat.beq gc 11))) (and (Nat.ble 11 n) (Nat.blt n 0x34c))))

theorem prop_scan : (force propsIndex.big fun B => (propsTrie.withBig B).checkValues goodProp) = true := by decide +kernel

structure PropFacts (v : Nat) : Prop where
  gc : v &&& 0x1f < 30
  digit : v &&& 0x1f = 9 → 1 ≤ v >>> 6 ∧ v >>> 6 ≤ 10
  other : v &&& 0x1f ≠ 9 → v >>> 6 = 0 ∨ 11 ≤ v >>> 6
  number : v &&& 0x1f = 10 ∨ v &&& 0x1f = 11 → 11 ≤ v >>> 6 ∧ v >>> 6 < 0x34c

theorem prop_facts (c : Nat) : PropFacts (propsTrie.getv c) := by
  have h := prop_scan
  rw [force_eq] at h
  have := bfull.forall_values h c
  rw [agree.getv trie_ok] at this
  unfold goodProp at this
  simp only [force_eq, Bool.and_eq_true, Bool.or_eq_true, Nat.blt_eq, Nat.ble_eq] at this
  generalize propsTrie.getv c = v at this ⊢
  obtain ⟨a, b, d⟩ := this
  have b' : (bif (v &&& 0x1f).beq 9 then Nat.ble 1 (v >>> 6) && (v >>> 6).ble 10
      else (v >>> 6).beq 0 || Nat.ble 11 (v >>> 6)) = true := b
  have d' : (!((v &&& 0x1f).beq 10 || (v &&& 0x1f).beq 11)) = true ∨ 11 ≤ v >>> 6 ∧ v >>> 6 < 0x34c := d
  refine ⟨a, fun e => ?_, fun e => ?_, fun e => ?_⟩
  · rw [show (v &&& 0x1f).beq 9 = true from Nat.beq_eq.mpr e] at b'
    simpa [Nat.ble_eq] using b'
  · rw [show (v &&& 0x1f).beq 9 = false from Bool.eq_false_iff.2 (fun h => e (Nat.eq_of_beq_eq_true h))] at b'
    simpa [Nat.ble_eq] using b'
  · rcases d' with d' | d'
    · exfalso
      rw [Bool.not_eq_true', Bool.or_eq_false_iff] at d'
      rcases e with e | e
      · rw [Nat.beq_eq.mpr e] at d'; simp at d'
      · rw [Nat.beq_eq.mpr e] at d'; simp at d'
    · exact d'

/-! ## Relations between the two tries -/

/-- Truth values packed in a number. -/
noncomputable def pack (l : List Bool) : Nat := List.rec 0 (fun b _ ih => Nat.add (cond b 1 0) (Nat.mul 2 ih)) l

theorem pack_cons (b : Bool) (l : List Bool) : pack (b :: l) = b.toNat + 2 * pack l := by cases b <;> rfl

theorem pack_lt (l : List Bool) : pack l < 2 ^ l.length := by
  induction l with
  | nil => exact Nat.one_pos
  | cons b l ih =>
    rw [pack_cons, List.length_cons, Nat.pow_succ]
    cases b <;> simp only [Bool.toNat_true, Bool.toNat_false] <;> omega

theorem pack_testBit (l : List Bool) : ∀ i, (pack l).testBit i = l.getD i false := by
  induction l with
  | nil => intro i; show (0 : Nat).testBit i = _; simp
  | cons b l ih =>
    intro i
    rw [pack_cons]
    cases i with
    | zero => cases b <;> simp [Nat.testBit_zero]
    | succ i =>
      rw [Nat.testBit_succ, show (b.toNat + 2 * pack l) / 2 = pack l by cases b <;> simp <;> omega, ih]
      rfl

/-- Statements about a general category, to be compared with `vecBits`. -/
def catBits (gc : Nat) : List Bool :=
  [bitAt 0x43E gc, bitAt 0xC0 gc, bitAt 0x1000000 gc, bitAt 0x80000 gc, bitAt 0x60001 gc, not (bitAt 0x60001 gc),
   bitAt 1 gc, not (bitAt 1 gc), bitAt 0x7000 gc, not (bitAt 0xF000 gc), not (bitAt 0x7E001 gc), bitAt 0x7E001 gc,
   bitAt 0x8000 gc, false, false, false]

/-- Statements about a vector that follow from those in `catBits`. -/
noncomputable def vecBits (a b _d : Nat) : List Bool :=
  [bitAt b 8, bitAt b 13, bitAt b 5, bitAt b 1, Nat.beq (scriptOf a) 103, not (Nat.beq (scriptOf a) 103),
   or (Nat.beq (Nat.shiftRight a 24) 0) (bitAt b 12), not (or (Nat.beq (Nat.shiftRight a 24) 0) (bitAt b 12)),
   bitAt b 0, not (bitAt b 0), xor (bitAt b 26) (bitAt b 13), not (bitAt b 26),
   true, bitAt b 12, false, false]

def skipG (g : Nat) : Bool := Nat.blt (Nat.mod g 32) 31

/-- Non-characters in block `b`, as bit 13 of the fields. -/
def nonPattern (b : Nat) : Nat :=
  cond (Nat.beq (Nat.mod b 2048) 2047) (0x20002 <<< 492)
    (cond (Nat.beq b 2030) (0x2000200020002000200020002000200020002000200020002000200020002000 <<< 256)
      (cond (Nat.beq b 2031) 0x2000200020002000200020002000200020002000200020002000200020002000 0))

noncomputable def crossRel (b w1 w2 : Nat) : Bool :=
  force (Nat.land w1 (2 ^ 512 - 1)) fun w1 =>
  and (Nat.beq (Nat.land w1 w2) w1)
   (and (or (Nat.blt b 5) (Nat.beq (Nat.land w1 (copies 0x1000 16)) 0))
    (Nat.beq (Nat.land w2 (copies 0x2000 16)) (nonPattern b)))

noncomputable def crossCheck : Bool :=
  force (fields (fun gc => pack (catBits gc)) 16 5 0) fun C => force (vecFields (fun a b d => pack (vecBits a b d)) 16) fun G =>
  force propsIndex.big fun B1 => force propsVectorsIndex.big fun B2 =>
    UTrie2.check2 (propsTrie.withBig B1) (propsVectorTrie.withBig B2)
      (fun v => bigEntry 16 0xFFFF C (Nat.land v 0x1f)) (fun v => bigEntry 16 0xFFFF G (Nat.div v 3)) 16 skipG crossRel

theorem cross_scan : crossCheck = true := by decide +kernel

/-- A non-character, except that the value of U+10FFFF is not looked up. -/
def isNon (c : Nat) : Bool := decide (c % 65536 ≥ 65534) || decide (0xFDD0 ≤ c ∧ c ≤ 0xFDEF)

theorem copies_1000 : ∀ j < 32, field 16 (copies 0x1000 16) j = 0x1000 := by decide +kernel
theorem copies_2000 : ∀ j < 32, field 16 (copies 0x2000 16) j = 0x2000 := by decide +kernel
theorem pattern_end : ∀ j < 32, field 16 (0x20002 <<< 492) j = if j ≥ 30 then 0x2000 else 0 := by decide +kernel
theorem pattern_fdd : ∀ j < 32,
    field 16 (0x2000200020002000200020002000200020002000200020002000200020002000 <<< 256) j = if j ≥ 16 then 0x2000 else 0 := by
  decide +kernel
theorem pattern_fde : ∀ j < 32,
    field 16 0x2000200020002000200020002000200020002000200020002000200020002000 j = if j < 16 then 0x2000 else 0 := by
  decide +kernel

theorem nonPattern_field (b j : Nat) (hj : j < 32) :
    field 16 (nonPattern b) j = if isNon (32 * b + j) = true then 0x2000 else 0 := by
  have hn : isNon (32 * b + j) = true ↔ ((32 * b + j) % 65536 ≥ 65534 ∨ (0xFDD0 ≤ 32 * b + j ∧ 32 * b + j ≤ 0xFDEF)) := by
    unfold isNon; simp [Bool.or_eq_true]
  simp only [hn]
  clear hn
  unfold nonPattern
  by_cases h1 : b % 2048 = 2047
  · rw [show Nat.beq (Nat.mod b 2048) 2047 = true from Nat.beq_eq.mpr h1, cond_true, pattern_end j hj]
    split <;> split <;> omega
  · rw [show Nat.beq (Nat.mod b 2048) 2047 = false from Bool.eq_false_iff.2 fun h => h1 (Nat.eq_of_beq_eq_true h), cond_false]
    by_cases h2 : b = 2030
    · subst h2
      rw [show Nat.beq 2030 2030 = true from rfl, cond_true, pattern_fdd j hj]
      split <;> split <;> omega
    · rw [show Nat.beq b 2030 = false from Bool.eq_false_iff.2 fun h => h2 (Nat.eq_of_beq_eq_true h), cond_false]
      by_cases h3 : b = 2031
      · subst h3
        rw [show Nat.beq 2031 2031 = true from rfl, cond_true, pattern_fde j hj]
        split <;> split <;> omega
      · rw [show Nat.beq b 2031 = false from Bool.eq_false_iff.2 fun h => h3 (Nat.eq_of_beq_eq_true h), cond_false,
          if_neg (by omega)]
        unfold field; simp

theorem cat_field (v : Nat) :
    bigEntry 16 0xFFFF (fields (fun gc => pack (catBits gc)) 16 5 0) (Nat.land v 0x1f) = pack (catBits (v &&& 0x1f)) := by
  have hf : ∀ gc, pack (catBits gc) < 2 ^ 16 := fun gc => pack_lt _
  have hlt : v &&& 0x1f < 2 ^ 5 := Nat.lt_of_le_of_lt Nat.and_le_right (by decide)
  have := fields_get hf 5 0 (v &&& 0x1f) hlt
  rw [Nat.zero_mul, Nat.zero_add] at this
  rw [← this, bigEntry_eq _ _ (by decide) (by decide)]
  rfl

/-- What is checked for the fields of a code point. -/
def CrossQ (c x y : Nat) : Prop :=
  x &&& y = x ∧ (160 ≤ c → x &&& 0x1000 = 0) ∧ y &&& 0x2000 = if isNon c = true then 0x2000 else 0

set_option exponentiation.threshold 600 in
theorem crossRel_spec (b w1 w2 : Nat) (h : crossRel b w1 w2 = true) (j : Nat) (hj : j < 32) :
    CrossQ (32 * b + j) (field 16 w1 j) (field 16 w2 j) := by
  unfold crossRel at h
  rw [force_eq] at h
  simp only [Bool.and_eq_true, Bool.or_eq_true, Nat.blt_eq] at h
  obtain ⟨h1, h2, h3⟩ := h
  have h1' := congrArg (fun w => field 16 w j) (Nat.eq_of_beq_eq_true h1)
  have h3' := congrArg (fun w => field 16 w j) (Nat.eq_of_beq_eq_true h3)
  have em : field 16 (Nat.land w1 (2 ^ 512 - 1)) j = field 16 w1 j := by
    show field 16 (w1 &&& (2 ^ 512 - 1)) j = _
    rw [Nat.and_two_pow_sub_one_eq_mod, field_mod _ _ _ _ (by omega)]
  have h1'' : field 16 (Nat.land w1 (2 ^ 512 - 1)) j &&& field 16 w2 j = field 16 (Nat.land w1 (2 ^ 512 - 1)) j := by
    rw [← field_and]; exact h1'
  rw [em] at h1''
  have h3'' : field 16 w2 j &&& field 16 (copies 0x2000 16) j = field 16 (nonPattern b) j := by
    rw [← field_and]; exact h3'
  rw [copies_2000 j hj, nonPattern_field b j hj] at h3''
  refine ⟨h1'', fun hge => ?_, h3''⟩
  rcases h2 with h2 | h2
  · omega
  · have h2' := congrArg (fun w => field 16 w j) (Nat.eq_of_beq_eq_true h2)
    have h2'' : field 16 (Nat.land w1 (2 ^ 512 - 1)) j &&& field 16 (copies 0x1000 16) j = field 16 0 j := by
      rw [← field_and]; exact h2'
    rw [em, copies_1000 j hj] at h2''
    rw [h2'']; unfold field; simp

theorem cross_key (C G : Nat)
    (hs : UTrie2.check2 (propsTrie.withBig propsIndex.big) (propsVectorTrie.withBig propsVectorsIndex.big)
      (fun v => bigEntry 16 0xFFFF C (Nat.land v 0x1f)) (fun v => bigEntry 16 0xFFFF G (Nat.div v 3)) 16 skipG crossRel = true)
    (h1 : bigEntry 16 0xFFFF C (Nat.land 0 0x1f) = 0xa50) (h2 : bigEntry 16 0xFFFF G (0 / 3) = 0x1a50)
    (c : Nat) (hc : c < 0x10FFFF) :
    CrossQ c (bigEntry 16 0xFFFF C (Nat.land (propsTrie.getv c) 0x1f)) (bigEntry 16 0xFFFF G (propsVectorTrie.getv c / 3)) := by
  have lt16 : ∀ G i, bigEntry 16 0xFFFF G i < 2 ^ 16 := fun G i => Nat.lt_of_le_of_lt Nat.and_le_right (by decide)
  have key := UTrie2.forall_check2 bfull bvfull (f1 := fun v => bigEntry 16 0xFFFF C (Nat.land v 0x1f))
    (f2 := fun v => bigEntry 16 0xFFFF G (Nat.div v 3)) (k := 16) (by decide)
    (fun v => lt16 _ _) (fun v => lt16 _ _) skipG crossRel CrossQ crossRel_spec ?_ hs c hc
  · rw [agree.getv trie_ok, vagree.getv vtrie_ok] at key
    exact key
  · intro c hc hsk
    have hsk' : c / 2048 % 32 < 31 := Nat.blt_eq.mp hsk
    have hn : isNon c = false := by
      unfold isNon
      rw [decide_eq_false (by omega), decide_eq_false (by omega)]; rfl
    show CrossQ c (bigEntry 16 0xFFFF C (Nat.land 0 0x1f)) (bigEntry 16 0xFFFF G (0 / 3))
    rw [h1, h2]
    unfold CrossQ
    rw [hn]
    exact ⟨by decide, fun _ => by decide, by decide⟩

theorem vecBits_lt (a b d : Nat) : pack (vecBits a b d) < 2 ^ 16 := pack_lt (vecBits a b d)

theorem cross_get (c : Nat) (hc : c < 0x10FFFF) :
    CrossQ c (pack (catBits (propsTrie.getv c &&& 0x1f))) (pack (vecBits (word c 0) (word c 1) (word c 2))) := by
  have hv : ∀ c, bigEntry 16 0xFFFF (vecFields (fun a b d => pack (vecBits a b d)) 16) (propsVectorTrie.getv c / 3) =
      pack (vecBits (word c 0) (word c 1) (word c 2)) := fun c =>
    vecFields_spec (f := fun a b d => pack (vecBits a b d)) (k := 16) (m := 0xFFFF) vecBits_lt (by decide) (by decide) c
  have hcat := cat_field
  have hs := cross_scan
  unfold crossCheck at hs
  simp only [force_eq] at hs
  have h0 := hv 0x50000
  rw [show propsVectorTrie.getv 0x50000 = 0 by decide +kernel] at h0
  have hw : pack (vecBits (word 0x50000 0) (word 0x50000 1) (word 0x50000 2)) = 0x1a50 := by decide +kernel
  have hx : pack (catBits (0 &&& 0x1f)) = 0xa50 := by decide +kernel
  rw [hw] at h0
  have hx' := (hcat 0).trans hx
  have hv' := hv c
  have hc' := hcat (propsTrie.getv c)
  rw [← hv', ← hc']
  clear hv hcat hw hx hv' hc'
  generalize vecFields (fun a b d => pack (vecBits a b d)) 16 = G at *
  generalize fields (fun gc => pack (catBits gc)) 16 5 0 = C at *
  exact cross_key C G hs hx' h0 c hc

/-- What the scan says about code points below U+10FFFF. -/
theorem cross_facts (c : Nat) (hc : c < 0x10FFFF) :
    (∀ i, (catBits (propsTrie.getv c &&& 0x1f)).getD i false = true → (vecBits (word c 0) (word c 1) (word c 2)).getD i false = true) ∧
    (propsTrie.getv c &&& 0x1f = 15 → c < 160) ∧ bitAt (word c 1) 12 = isNon c := by
  obtain ⟨k1, k2, k3⟩ := cross_get c hc
  refine ⟨fun i hi => ?_, fun hcc => ?_, ?_⟩
  · have := congrArg (fun n => n.testBit i) k1
    simp only [Nat.testBit_and, pack_testBit] at this
    rw [hi, Bool.true_and] at this
    exact this
  · refine Classical.byContradiction fun hge => ?_
    have := congrArg (fun n => n.testBit 12) (k2 (by omega))
    simp only [Nat.testBit_and, pack_testBit, hcc] at this
    revert this
    decide
  · have := congrArg (fun n => n.testBit 13) k3
    simp only [Nat.testBit_and, pack_testBit] at this
    have e : (vecBits (word c 0) (word c 1) (word c 2)).getD 13 false = bitAt (word c 1) 12 := rfl
    rw [e] at this
    have t : Nat.testBit 0x2000 13 = true := by decide
    rw [t, Bool.and_true] at this
    rw [this]
    cases isNon c
    · rfl
    · exact t

end Verif.Char

import Verif.Lemmas.CaseData
/-! # Properties of `CaseProps` (C34-C37, C61, C62) -/
namespace Verif.Case.Props
open Verif.Data
set_option maxRecDepth 100000

/-- `m` can be the image of `c`: a code point, and a surrogate only if it is `c`. -/
def Image (c m : Nat) : Prop := m ≤ 0x10FFFF ∧ (0xD800 ≤ m ∧ m ≤ 0xDFFF → m = c)

/-- C34. The simple mappings are total on code points and stay among them. -/
theorem simple_total (c : Nat) (hc : c ≤ 0x10FFFF) :
    (∃ l : Nat, toLower c = .ok (l : Int) ∧ Image c l) ∧ (∃ u : Nat, toUpper c = .ok (u : Int) ∧ Image c u) ∧
    (∃ t : Nat, toTitle c = .ok (t : Int) ∧ Image c t) := by
  obtain ⟨l, u, t, hl, hu, ht, h, _⟩ := simple_facts c
  have key : ∀ m, m = l ∨ m = u ∨ m = t → Image c m := by
    intro m hm
    rcases h m hm with h | h
    · exact ⟨by omega, fun _ => h⟩
    · exact ⟨h.1, fun h' => absurd h' h.2⟩
  exact ⟨⟨l, hl, key l (by simp)⟩, ⟨u, hu, key u (by simp)⟩, ⟨t, ht, key t (by simp)⟩⟩

example : toLower 0x130 = .ok 0x69 ∧ toUpper 0x1C6 = .ok 0x1C4 ∧ toTitle 0x1C6 = .ok 0x1C5 ∧ toLower 0x13A0 = .ok 0xAB70 ∧
    toUpper 0x1E943 = .ok 0x1E921 ∧ toLower 0xDC00 = .ok 0xDC00 := by decide +kernel

/-- C35. The simple mappings are idempotent. -/
theorem simple_idempotent (c m : Nat) :
    (toLower c = .ok (m : Int) → toLower m = .ok (m : Int)) ∧ (toUpper c = .ok (m : Int) → toUpper m = .ok (m : Int)) ∧
    (toTitle c = .ok (m : Int) → toTitle m = .ok (m : Int)) := by
  obtain ⟨l, u, t, hl, hu, ht, _, h1, h2, h3, _⟩ := simple_facts c
  rw [hl, hu, ht]
  simp only [Except.ok.injEq]
  refine ⟨fun h => ?_, fun h => ?_, fun h => ?_⟩
  · have : l = m := by omega
    rw [← this, h1]
  · have : u = m := by omega
    rw [← this, h2]
  · have : t = m := by omega
    rw [← this, h3]

/-- C61. Upper-casing forgets a previous lower-casing for all code points but six, and these six are exceptions. -/
theorem upper_lower (c : Nat) (l u u' : Nat) (hl : toLower c = .ok (l : Int)) (hu : toUpper c = .ok (u : Int))
    (hu' : toUpper l = .ok (u' : Int)) : u' = u ↔ c ∉ [0x130, 0x3F4, 0x1E9E, 0x2126, 0x212A, 0x212B] := by
  constructor
  · rintro rfl hc
    have : (okNat (toLower c) fun l => okNat (toUpper c) fun u => okNat (toUpper l) fun u' => !(Nat.beq u' u)) = true := by
      simp only [List.mem_cons, List.not_mem_nil, or_false] at hc
      rcases hc with rfl | rfl | rfl | rfl | rfl | rfl <;> decide +kernel
    rw [hl] at this
    obtain ⟨l', e1, this⟩ := okNat_spec this
    have : l = l' := Int.ofNat_inj.1 (Except.ok.inj e1)
    subst this
    rw [hu] at this
    obtain ⟨v, e2, this⟩ := okNat_spec this
    rw [hu'] at this
    obtain ⟨v', e3, this⟩ := okNat_spec this
    have : u' = v := Int.ofNat_inj.1 (Except.ok.inj e2)
    subst this
    have : u' = v' := Int.ofNat_inj.1 (Except.ok.inj e3)
    subst this
    simp at this
  · intro hc
    obtain ⟨l', u'', t, h1, h2, h3, _, _, _, _, _, h4, _⟩ := simple_facts c
    rw [h1] at hl
    rw [h2] at hu
    simp only [Except.ok.injEq] at hl hu
    have e1 : l' = l := by omega
    have e2 : u'' = u := by omega
    subst e1 e2
    have := h4 hc
    rw [hu'] at this
    simp only [Except.ok.injEq] at this
    omega

/-- C61. Lower-casing forgets a previous upper-casing for all code points but twenty-three. -/
theorem lower_upper (c : Nat) (l u l' : Nat) (hl : toLower c = .ok (l : Int)) (hu : toUpper c = .ok (u : Int))
    (hl' : toLower u = .ok (l' : Int)) : l' = l ↔
      c ∉ [0xB5, 0x131, 0x17F, 0x345, 0x3C2, 0x3D0, 0x3D1, 0x3D5, 0x3D6, 0x3F0, 0x3F1, 0x3F5, 0x1C80, 0x1C81, 0x1C82, 0x1C83,
        0x1C84, 0x1C85, 0x1C86, 0x1C87, 0x1C88, 0x1E9B, 0x1FBE] := by
  constructor
  · rintro rfl hc
    have : (okNat (toLower c) fun l => okNat (toUpper c) fun u => okNat (toLower u) fun l' => !(Nat.beq l' l)) = true := by
      simp only [List.mem_cons, List.not_mem_nil, or_false] at hc
      rcases hc with rfl | rfl | rfl | rfl | rfl | rfl | rfl | rfl | rfl | rfl | rfl | rfl | rfl | rfl | rfl | rfl | rfl | rfl | rfl | rfl | rfl | rfl | rfl <;> decide +kernel
    rw [hl] at this
    obtain ⟨v, e1, this⟩ := okNat_spec this
    have : l' = v := Int.ofNat_inj.1 (Except.ok.inj e1)
    subst this
    rw [hu] at this
    obtain ⟨w, e2, this⟩ := okNat_spec this
    have : u = w := Int.ofNat_inj.1 (Except.ok.inj e2)
    subst this
    rw [hl'] at this
    obtain ⟨v', e3, this⟩ := okNat_spec this
    have : l' = v' := Int.ofNat_inj.1 (Except.ok.inj e3)
    subst this
    simp at this
  · intro hc
    obtain ⟨l'', u'', t, h1, h2, h3, _, _, _, _, _, _, h4, _⟩ := simple_facts c
    rw [h1] at hl
    rw [h2] at hu
    simp only [Except.ok.injEq] at hl hu
    have e1 : l'' = l := by omega
    have e2 : u'' = u := by omega
    subst e1 e2
    have := h4 hc
    rw [hl'] at this
    simp only [Except.ok.injEq] at this
    omega

/-- C61. Title-casing does not change the upper case, and lower-casing after upper-casing is stable under further
upper- and lower-casing. -/
theorem upper_title (c t u : Nat) (ht : toTitle c = .ok (t : Int)) (hu : toUpper c = .ok (u : Int)) :
    toUpper t = .ok (u : Int) ∧
    ∃ m u' : Nat, toLower u = .ok (m : Int) ∧ toUpper m = .ok (u' : Int) ∧ toLower u' = .ok (m : Int) := by
  obtain ⟨l', u', t', h1, h2, h3, _, _, _, _, h4, _, _, h5⟩ := simple_facts c
  rw [h2] at hu
  rw [h3] at ht
  simp only [Except.ok.injEq] at hu ht
  have e1 : u' = u := by omega
  have e2 : t' = t := by omega
  subst e1 e2
  exact ⟨h4, h5⟩

/-- Non-trivial instances: titlecase dz, final sigma, the Kelvin sign. -/
example : toTitle 0x1F3 = .ok 0x1F2 ∧ toUpper 0x1F2 = .ok 0x1F1 ∧ toUpper 0x1F3 = .ok 0x1F1 ∧
    toUpper 0x3C2 = .ok 0x3A3 ∧ toLower 0x3A3 = .ok 0x3C3 ∧ toLower 0x212A = .ok 0x6B ∧ toUpper 0x212A = .ok 0x212A := by
  decide +kernel

/-- C62. Upper-case letters (Lu) are fixed by `toUpper`, lower-case letters (Ll) by `toLower`, title-case letters (Lt) by
`toTitle`. -/
theorem category_fixed (c gc : Nat) (hgc : Char.getGeneralCategory c = .ok gc) :
    (gc = 1 → toUpper c = .ok (c : Int)) ∧ (gc = 2 → toLower c = .ok (c : Int)) ∧ (gc = 3 → toTitle c = .ok (c : Int)) := by
  obtain ⟨l, u, t, hl, hu, ht, h1, h2, h3⟩ := category_facts c
  have h345 : Char.getGeneralCategory 0x345 = .ok 6 := by decide +kernel
  refine ⟨?_, ?_, ?_⟩
  · rintro rfl
    rcases h2 with rfl | rfl | ⟨g, e, hb⟩
    · exact hu
    · rw [h345] at hgc; simp at hgc
    · rw [hgc] at e
      cases e
      exact absurd hb (by decide)
  · rintro rfl
    rcases h1 with rfl | ⟨g, e, hb⟩
    · exact hl
    · rw [hgc] at e
      cases e
      exact absurd hb (by decide)
  · rintro rfl
    rcases h3 with rfl | rfl | ⟨g, e, hb⟩
    · exact ht
    · rw [h345] at hgc; simp at hgc
    · rw [hgc] at e
      cases e
      exact absurd hb (by decide)

/-- C62. Only letters with case (Lu, Ll, Lt), letter numbers (Nl), other symbols (So) and U+0345 are changed by a simple
case mapping. -/
theorem moved_category (c gc : Nat) (hgc : Char.getGeneralCategory c = .ok gc)
    (hm : toLower c ≠ .ok (c : Int) ∨ toUpper c ≠ .ok (c : Int) ∨ toTitle c ≠ .ok (c : Int)) :
    c = 0x345 ∨ gc = 1 ∨ gc = 2 ∨ gc = 3 ∨ gc = 10 ∨ gc = 27 := by
  obtain ⟨l, u, t, hl, hu, ht, h1, h2, h3⟩ := category_facts c
  have key : ∀ m, (∀ g, Nat.testBit m g = true → g < 28) → (∀ g < 28, Nat.testBit m g = true → g = 1 ∨ g = 2 ∨ g = 3 ∨ g = 10 ∨ g = 27) →
      (∃ g, Char.getGeneralCategory c = .ok g ∧ Nat.testBit m g = true) → gc = 1 ∨ gc = 2 ∨ gc = 3 ∨ gc = 10 ∨ gc = 27 := by
    rintro m hb h ⟨g, e, ht⟩
    rw [hgc] at e
    simp only [Except.ok.injEq] at e
    subst e
    exact h _ (hb _ ht) ht
  have lt : ∀ m, m < 2 ^ 28 → ∀ g, Nat.testBit m g = true → g < 28 := by
    intro m hm g hg
    have := Nat.ge_two_pow_of_testBit hg
    exact (Nat.pow_lt_pow_iff_right (by decide : 1 < 2)).1 (by omega)
  rcases h1 with rfl | h1
  · rcases h2 with rfl | h2 | h2
    · rcases h3 with rfl | h3 | h3
      · exact absurd hm (by rw [hl, hu, ht]; simp)
      · exact .inl h3
      · exact .inr (key _ (lt _ (by decide)) (by decide) h3)
    · exact .inl h2
    · exact .inr (key _ (lt _ (by decide)) (by decide) h2)
  · exact .inr (key _ (lt _ (by decide)) (by decide) h1)

example : Char.getGeneralCategory 0x2160 = .ok 10 ∧ toLower 0x2160 = .ok 0x2170 ∧ Char.getGeneralCategory 0x41 = .ok 1 := by
  decide +kernel

/-- C36. The full mappings are total on code points; the result is a non-empty string of at most three characters,
none of them a surrogate unless it is `c`; a result of one character is the simple mapping. -/
theorem full_total (c : Nat) (hc : c ≤ 0x10FFFF) :
    (∃ l xs, toLower c = .ok l ∧ toFullLower c = .ok xs ∧ xs ≠ [] ∧ xs.length ≤ 3 ∧ (∀ x ∈ xs, Image c x) ∧
      (∀ x, xs = [x] → (x : Int) = l)) ∧
    (∃ u xs, toUpper c = .ok u ∧ toFullUpper c = .ok xs ∧ xs ≠ [] ∧ xs.length ≤ 3 ∧ (∀ x ∈ xs, Image c x) ∧
      (∀ x, xs = [x] → (x : Int) = u)) ∧
    (∃ t xs, toTitle c = .ok t ∧ toFullTitle c = .ok xs ∧ xs ≠ [] ∧ xs.length ≤ 3 ∧ (∀ x ∈ xs, Image c x) ∧
      (∀ x, xs = [x] → (x : Int) = t)) := by
  obtain ⟨l, u, t, fl, fu, ft, hl, hu, ht, e1, e2, e3, g1, g2, g3⟩ := full_facts c hc
  obtain ⟨⟨l', hl', il⟩, ⟨u', hu', iu⟩, ⟨t', ht', it⟩⟩ := simple_total c hc
  have key : ∀ m xs, goodFull m xs = true → Image c m → (∀ x ∈ xs, Image c x) ∧ (∀ x, xs = [x] → (x : Int) = m) := by
    intro m xs h him
    obtain ⟨_, _, h3, h4⟩ := goodFull_spec h
    refine ⟨fun x hx => ?_, fun x hx => by rw [h3 x hx]⟩
    rcases h4 with h4 | h4
    · rw [h4] at hx; simp only [List.mem_singleton] at hx; subst hx; exact him
    · exact ⟨(h4 x hx).1, fun h => absurd h (h4 x hx).2⟩
  have q1 : l' = l := by rw [hl] at hl'; simp only [Except.ok.injEq] at hl'; omega
  have q2 : u' = u := by rw [hu] at hu'; simp only [Except.ok.injEq] at hu'; omega
  have q3 : t' = t := by rw [ht] at ht'; simp only [Except.ok.injEq] at ht'; omega
  subst q1 q2 q3
  exact ⟨⟨_, fl, hl, e1, (goodFull_spec g1).1, (goodFull_spec g1).2.1, (key _ _ g1 il).1, (key _ _ g1 il).2⟩,
    ⟨_, fu, hu, e2, (goodFull_spec g2).1, (goodFull_spec g2).2.1, (key _ _ g2 iu).1, (key _ _ g2 iu).2⟩,
    ⟨_, ft, ht, e3, (goodFull_spec g3).1, (goodFull_spec g3).2.1, (key _ _ g3 it).1, (key _ _ g3 it).2⟩⟩

/-- Sharp s, the ligature ffi, dotted capital I, the Armenian ligature. -/
example : toFullUpper 0xDF = .ok [0x53, 0x53] ∧ toFullTitle 0xDF = .ok [0x53, 0x73] ∧ toUpper 0xDF = .ok 0xDF ∧
    toFullUpper 0xFB03 = .ok [0x46, 0x46, 0x49] ∧ toFullLower 0x130 = .ok [0x69, 0x307] ∧
    toFullUpper 0x587 = .ok [0x535, 0x552] ∧ toFullTitle 0x587 = .ok [0x535, 0x582] ∧ toFullLower 0x41 = .ok [0x61] := by
  decide +kernel

/-! ## Exception slots (C37) -/

/-- The slots of an exception word that are present, in ascending order. -/
def presentSlots (word : Nat) : List Nat := (List.range 8).filter word.testBit

/-- The units that store the value `v` of a slot: one, or two (high part first) with the double-slot flag (bit 8). -/
def units (word v : Nat) : List Nat := if word.testBit 8 then [v / 65536, v % 65536] else [v]

/-- The optional part of an exception record with values `slots`: the units of the present slots one after the other. -/
def encode (word : Nat) (slots : Nat → Nat) : List Nat := (presentSlots word).flatMap (fun i => units word (slots i))

theorem flagsOffset_popcount : ∀ k < 256, caseFlagsOffset.arr.get k = .ok ((List.range 8).countP k.testBit) := by
  decide +kernel

theorem mask_bit (w i : Nat) : (w &&& (1 <<< i) ≠ 0) ↔ w.testBit i = true := by
  rw [Nat.testBit, Nat.shiftRight_eq_div_pow, Nat.and_comm 1]
  have h := and_field w 1 i
  simp only [Nat.reducePow, Nat.add_one_sub_one, Nat.one_mul] at h
  have e : 1 <<< i = 2 ^ i := by rw [Nat.shiftLeft_eq]; omega
  rw [e, h, Nat.and_one_is_mod]
  have : 0 < 2 ^ i := Nat.two_pow_pos i
  constructor
  · intro h'
    have : w / 2 ^ i % 2 ≠ 0 := fun h0 => h' (by rw [h0]; omega)
    simp; omega
  · intro h' h0
    have h1 : w / 2 ^ i % 2 = 1 := by
      have : w / 2 ^ i % 2 ≠ 0 := by simpa using h'
      omega
    rw [h1] at h0; omega

/-- C37. `hasSlot` tests the bit of the slot. -/
theorem hasSlot_iff (word i : Nat) : hasSlot word i = true ↔ word.testBit i = true := by
  unfold hasSlot
  rw [decide_eq_true_iff, mask_bit]

theorem range8 {i : Nat} (h : i < 8) : ∃ rest, List.range 8 = List.range i ++ i :: rest ∧ ∀ j ∈ rest, i < j := by
  refine ⟨(List.range (7 - i)).map (· + (i + 1)), ?_, ?_⟩
  · revert i; decide
  · intro j hj
    simp only [List.mem_map, List.mem_range] at hj
    omega

/-- C37. The slot offset is the number of present lower slots. -/
theorem slotOffset_counts (word i : Nat) (hi : i < 8) :
    slotOffset word i = .ok ((List.range i).countP word.testBit) := by
  have e : word &&& ((1 <<< i) - 1) = word % 2 ^ i := by
    rw [Nat.shiftLeft_eq, Nat.one_mul, Nat.and_two_pow_sub_one_eq_mod]
  have hlt : word % 2 ^ i < 2 ^ i := Nat.mod_lt _ (Nat.two_pow_pos i)
  have hle : 2 ^ i ≤ 2 ^ 8 := Nat.pow_le_pow_right (by decide) (by omega)
  unfold slotOffset
  rw [e, flagsOffset_popcount _ (by omega)]
  congr 1
  obtain ⟨rest, hr, hgt⟩ := range8 hi
  rw [hr, List.countP_append]
  have h1 : List.countP (word % 2 ^ i).testBit (List.range i) = List.countP word.testBit (List.range i) := by
    apply List.countP_congr
    intro j hj
    rw [List.mem_range] at hj
    rw [Nat.testBit_mod_two_pow]
    simp [hj]
  have h2 : List.countP (word % 2 ^ i).testBit (i :: rest) = 0 := by
    rw [List.countP_eq_zero]
    intro j hj
    rw [Nat.testBit_mod_two_pow]
    have : ¬ j < i := by
      rcases List.mem_cons.1 hj with h | h
      · omega
      · have := hgt j h; omega
    simp [this]
  rw [h1, h2]; rfl

theorem units_length (word v : Nat) : (units word v).length = if word.testBit 8 then 2 else 1 := by
  unfold units; split <;> rfl

theorem flatMap_units_length (word : Nat) (slots : Nat → Nat) (l : List Nat) :
    (l.flatMap (fun i => units word (slots i))).length = l.length * (if word.testBit 8 then 2 else 1) := by
  induction l with
  | nil => simp
  | cons x xs ih => rw [List.flatMap_cons, List.length_append, ih, units_length, List.length_cons, Nat.succ_mul]; omega

/-- C37. For every table that holds an exception record with the given word and slot values from `base` on,
`getSlotValue` returns the value of every slot that is present, together with the offset of the last unit of the slot:
the number of units of the slots up to this one, minus one. -/
theorem slot_value_correct (exc : Arr) (word base i : Nat) (slots : Nat → Nat)
    (henc : ∀ k (hk : k < (encode word slots).length), exc.get (base + k) = .ok ((encode word slots)[k]))
    (hi : i < 8) (hp : word.testBit i = true) :
    ∃ off, getSlotValue exc word i base = .ok (slots i, off) ∧
      off + 1 = ((List.range (i + 1)).filter word.testBit).length * (if word.testBit 8 then 2 else 1) := by
  obtain ⟨rest, hr, _⟩ := range8 hi
  generalize hn : (List.range i).countP word.testBit = n
  have hcount : ((List.range i).filter word.testBit).length = n := by rw [← hn, List.countP_eq_length_filter]
  have hcount' : ((List.range (i + 1)).filter word.testBit).length = n + 1 := by
    rw [List.range_succ, List.filter_append, List.length_append, hcount]
    simp [hp]
  have hsplit : encode word slots = ((List.range i).filter word.testBit).flatMap (fun i => units word (slots i)) ++
      (units word (slots i) ++ (rest.filter word.testBit).flatMap (fun i => units word (slots i))) := by
    unfold encode presentSlots
    rw [hr, List.filter_append, List.filter_cons_of_pos hp, List.flatMap_append, List.flatMap_cons]
  have hpre := flatMap_units_length word slots ((List.range i).filter word.testBit)
  rw [hcount] at hpre
  unfold getSlotValue
  rw [slotOffset_counts word i hi, hn, hcount']
  simp only [bind, Except.bind]
  by_cases hd : word.testBit 8 = true
  · have hu : units word (slots i) = [slots i / 65536, slots i % 65536] := by unfold units; rw [if_pos hd]
    rw [if_pos hd] at hpre ⊢
    have hne : ¬ (word &&& 0x100 = 0) := by
      have := (mask_bit word 8).2 hd
      simpa using this
    rw [if_neg hne]
    have hlen : n * 2 + 2 ≤ (encode word slots).length := by
      rw [hsplit, List.length_append, hpre, hu]; simp
    have g1 : exc.get (base + 2 * n) = .ok (slots i / 65536) := by
      rw [show base + 2 * n = base + n * 2 by omega, henc (n * 2) (by omega)]
      congr 1
      simp only [hsplit, hu]
      rw [List.getElem_append_right (by omega)]
      simp [hpre]
    have g2 : exc.get (base + 2 * n + 1) = .ok (slots i % 65536) := by
      rw [show base + 2 * n + 1 = base + (n * 2 + 1) by omega, henc (n * 2 + 1) (by omega)]
      congr 1
      simp only [hsplit, hu]
      rw [List.getElem_append_right (by omega)]
      simp [hpre]
    rw [g1]
    simp only
    rw [g2]
    refine ⟨2 * n + 1, ?_, by omega⟩
    have hv : (slots i / 65536) <<< 16 ||| slots i % 65536 = slots i := by
      rw [← Nat.shiftLeft_add_eq_or_of_lt (by have := Nat.mod_lt (slots i) (by decide : 65536 > 0); exact this),
        Nat.shiftLeft_eq]
      omega
    simp only [pure, Except.pure, hv]
  · have hu : units word (slots i) = [slots i] := by unfold units; rw [if_neg hd]
    rw [if_neg hd] at hpre ⊢
    have he : word &&& 0x100 = 0 := by
      have h1 := mask_bit word 8
      simp only [Nat.reduceShiftLeft] at h1
      exact Classical.byContradiction fun h => hd (h1.1 h)
    rw [if_pos he]
    have hlen : n + 1 ≤ (encode word slots).length := by
      rw [hsplit, List.length_append, hpre, hu]; simp
    have g1 : exc.get (base + n) = .ok (slots i) := by
      rw [henc n (by omega)]
      congr 1
      simp only [hsplit, hu]
      rw [List.getElem_append_right (by omega)]
      simp [hpre]
    rw [g1]
    exact ⟨n, rfl, by omega⟩

/-- A record with the slots lower, upper and delta, single and double units. -/
example : encode 0b10101 (fun i => 100 + i) = [100, 102, 104] ∧ slotOffset 0b10101 4 = .ok 2 ∧
    encode 0b100010101 (fun i => 0x10000 + i) = [1, 0, 1, 2, 1, 4] := by decide +kernel
example : getSlotValue (Arr.ofList [100, 102, 104]) 0b10101 4 0 = .ok (104, 2) ∧
    getSlotValue (Arr.ofList [1, 0, 1, 2, 1, 4]) 0b100010101 2 0 = .ok (0x10002, 3) := by decide +kernel

end Verif.Case.Props

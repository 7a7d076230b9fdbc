import Verif.Lemmas.ShippedTries
/-!
# Properties of `UTrie2` (C25-C27)

`Spec.Represents t f err` says that the array of `t` stores the map `f` in the UTrie2 format, see `Spec/Trie2.lean`.
-/
namespace Verif.UTrie2.Props
open Verif.Data Verif.Spec
set_option maxRecDepth 100000

/-- C25, without the code point 0x10FFFF. In a trie that stores `f`, `get` returns `f c`, and the error value beyond
the code points. -/
theorem get_correct_partial {t : UTrie2} {f : Nat → Nat} {err : Nat} (h : Represents t f err) :
    (∀ c, c < 0x10FFFF → t.get c = .ok (f c)) ∧ (∀ c, 0x10FFFF < c → t.get c = .ok err) :=
  ⟨fun c hc => represents_get h c hc, fun c hc => by rw [get_error t c (by omega)]; exact h.error⟩

/-- What `get` returns for the last code point in place of its value. -/
theorem get_last {t : UTrie2} {f : Nat → Nat} {err : Nat} (h : Represents t f err) : t.get 0x10FFFF = .ok err := by
  rw [get_error t _ (by omega)]; exact h.error

/-- C25 is violated at 0x10FFFF: the shipped bidi trie stores the class BN (18) for it and `get` returns 0. -/
theorem get_correct_refuted :
    ¬ ∀ (t : UTrie2) (f : Nat → Nat) (err : Nat), Represents t f err → ∀ c ≤ 0x10FFFF, t.get c = .ok (f c) := by
  intro h
  have h1 := h _ _ _ Bidi.trie_ok.represents 0x10FFFF (by omega)
  have h2 : Bidi.bidiPropsTrie.get 0x10FFFF = .ok 0 := by decide +kernel
  rw [h2] at h1
  have h3 : Bidi.bidiPropsTrie.val 0x10FFFF = 18 := by decide +kernel
  rw [h3] at h1
  simp at h1

/-- The value 18 in `get_correct_refuted` is forced: any map the shipped bidi trie stores has it. -/
theorem bidi_last_value {f : Nat → Nat} {err : Nat} (h : Represents Bidi.bidiPropsTrie f err) : f 0x10FFFF = 18 := by
  obtain ⟨i2, h1, h2⟩ := h.supp 543 (by omega) (by omega) (by decide +kernel)
  obtain ⟨e, h3, h4⟩ := h2 63 (by omega)
  have h5 := h4 31 (by omega)
  have k1 : Bidi.bidiPropsTrie.index.get (2112 + (543 - 32)) = .ok 3421 := by decide +kernel
  rw [k1] at h1
  simp only [Except.ok.injEq] at h1
  subst h1
  have k2 : Bidi.bidiPropsTrie.index.get (3421 + 63) = .ok 3100 := by decide +kernel
  rw [k2] at h3
  simp only [Except.ok.injEq] at h3
  subst h3
  have k3 : Bidi.bidiPropsTrie.index.get (4 * 3100 + 31) = .ok 18 := by decide +kernel
  rw [k3] at h5
  simp only [Except.ok.injEq] at h5
  exact h5.symm

/-- C25, round trip: for every map there is a trie in the format that stores it, so that `get` is the map. -/
theorem get_build (f : Nat → Nat) (err : Nat) :
    Represents (build f err) f err ∧ (∀ c, c < 0x10FFFF → (build f err).get c = .ok (f c)) :=
  ⟨build_represents f err, (get_correct_partial (build_represents f err)).1⟩

/-- The shipped tries store maps, hence `get` never raises on them. -/
theorem shipped_get_total (c : Nat) :
    (∃ v, Bidi.bidiPropsTrie.get c = .ok v) ∧ (∃ v, Case.casePropsTrie.get c = .ok v) ∧
    (∃ v, Char.propsTrie.get c = .ok v) ∧ (∃ v, Char.propsVectorTrie.get c = .ok v) :=
  ⟨⟨_, Bidi.trie_ok.get c⟩, ⟨_, Case.trie_ok.get c⟩, ⟨_, Char.trie_ok.get c⟩, ⟨_, Char.vtrie_ok.get c⟩⟩

example : Represents Char.propsTrie Char.propsTrie.val 0 ∧ Char.propsTrie.get 0x41 = .ok 1 ∧
    Char.propsTrie.get 0x1F600 = .ok 27 := by
  refine ⟨?_, by decide +kernel⟩
  have := Char.trie_ok.represents
  rwa [show Char.propsTrie.index.at' (Char.propsTrie.indexLength + 0x80) = 0 by decide +kernel] at this

/-- The windows on which the enumerator does what it should: they start at a multiple of 32 and are not longer than 2048. They do
not cross the borders of the surrogates; among the surrogates they start at U+DC00. From U+10000 on they are inside one group of
2048. -/
def GoodWindow (start limit : Nat) : Prop :=
  start % 32 = 0 ∧ start < limit ∧ limit ≤ start + 2048 ∧
  (limit ≤ 0xD800 ∨ start = 0xDC00 ∧ limit ≤ 0xE000 ∨ 0xE000 ≤ start ∧ limit ≤ 0x10000 ∨
    0x10000 ≤ start ∧ start / 2048 = (limit - 1) / 2048)

/-- C26 on good windows below `highStart`: all values are right, for all tries, all stored maps and all value functions. Missing:
other windows, where the property is false (see below). For windows above `highStart` see `enumerator_high`. -/
theorem enumerator_agrees_partial {α : Type} [DecidableEq α] {t : UTrie2} {f : Nat → Nat} {g : Nat → α} {err start limit : Nat}
    {out : List (Run α)} (hr : Represents t f err) (hn : NullsOk t) (h : t.enumerator g start limit = .ok out)
    (hw : GoodWindow start limit) (hhs : limit ≤ t.highStart) (hmax : limit ≤ 0x110000) :
    ∀ r ∈ out, ∀ c, r.start ≤ c → c < r.stop → c < 0x10FFFF → ∃ v, t.get c = .ok v ∧ r.value = g v := by
  intro r hr' c h1 h2 h3
  exact ⟨f c, represents_get hr c h3, enumerator_window hr hn h hw.1 hw.2.1 (by have := hw.2.2; omega) hhs hmax r hr' c h1 h2⟩

/-- The hypotheses hold for the shipped tries, e.g. on the window [0x5E0, 0x9E0) of `propsTrie`. -/
example : Represents Char.propsTrie Char.propsTrie.val (Char.propsTrie.index.at' (Char.propsTrie.indexLength + 0x80)) ∧
    NullsOk Char.propsTrie ∧ (∃ out, Char.propsTrie.enumerator (fun v => v &&& 0x1F) 0x5E0 0x9E0 = .ok out) ∧
    GoodWindow 0x5E0 0x9E0 ∧ 0x9E0 ≤ Char.propsTrie.highStart :=
  ⟨Char.trie_ok.represents, Char.nulls_ok, enumerator_ok Char.enum_ok _ _ _, by unfold GoodWindow; omega, by decide +kernel⟩

/-- C26 is violated by the shipped data: enumerating `propsTrie` across the group boundary at 0x12800 reports the value 5
(Lo) for U+12800, which is unassigned (0). (An enumeration of all code points meets the same fault; e.g. it reports
U+1000 as unassigned.) -/
theorem enumerator_agrees_refuted :
    Char.propsTrie.enumerator id 0x127E0 0x12820 = .ok [⟨0x127E0, 0x12800, 0⟩, ⟨0x12800, 0x12820, 5⟩] ∧
    Char.propsTrie.get 0x12800 = .ok 0 := by decide +kernel

/-- C26 is also violated on a short unaligned window: the bidi trie from 0x107F6 to 0x10809 is one run of value 0,
but U+10800 has the value 1 (right-to-left). -/
theorem enumerator_unaligned_refuted :
    Bidi.bidiPropsTrie.enumerator id 0x107F6 0x10809 = .ok [⟨0x107F6, 0x10809, 0⟩] ∧
    Bidi.bidiPropsTrie.get 0x10800 = .ok 1 := by decide +kernel

/-- C26 and C27 on supplementary windows from `highStart` on, aligned or not: there is one range, and its value is right. -/
theorem enumerator_high {α : Type} [DecidableEq α] {t : UTrie2} {f : Nat → Nat} {g : Nat → α} {err start limit : Nat}
    (hr : Represents t f err) (hs : 0x10000 ≤ start) (hhs : t.highStart ≤ start) (hlt : start < limit) (hmax : limit ≤ 0x10FFFF) :
    ∃ v, t.enumerator g start limit = .ok [⟨start, limit, g v⟩] ∧ ∀ c, start ≤ c → c < limit → t.get c = .ok v := by
  have hv : ∀ c, start ≤ c → c < limit → t.index.get t.highValueIndex = .ok (f c) := fun c h1 h2 => hr.high c (by omega) (by omega) (by omega)
  refine ⟨f start, ?_, fun c h1 h2 => ?_⟩
  · unfold enumerator
    have hl : enumLoop t g limit (limit - start) ⟨[], none, none, start, g 0, start⟩ = .ok ⟨[], none, none, start, g 0, start⟩ := by
      cases limit - start with
      | zero => simp only [enumLoop]; rw [if_neg (by omega)]
      | succ n => simp only [enumLoop]; rw [if_neg (by omega)]
    rw [hl]
    simp only [bind, Except.bind]
    unfold enumFinish
    rw [if_neg (by simp only; omega), if_pos (by simp only; omega), hv start (by omega) hlt]
    simp only [bind, Except.bind, pure, Except.pure, EState.switch]
    split <;> simp_all
  · rw [represents_get hr c (by omega), ← Except.ok.inj ((hv c h1 h2).symm.trans (hv start (by omega) hlt))]

/-- The shipped trie of case properties is such a trie, with `highStart` 0xE0800. -/
example : Represents Case.casePropsTrie Case.casePropsTrie.val (Case.casePropsTrie.index.at' (Case.casePropsTrie.indexLength + 0x80)) ∧
    0x10000 ≤ Case.casePropsTrie.highStart ∧ Case.casePropsTrie.highStart + 5 < 0x10FFFF :=
  ⟨Case.trie_ok.represents, by decide +kernel, by decide +kernel⟩

/-- A trie that stores 7 for U+D800..U+D81F and 0 for all other code points. -/
def leads : UTrie2 where
  index := { size := 70000, at' := fun i => if i = 0x800 then 16384 else if 65536 ≤ i ∧ i < 65568 then 7 else 0 }
  indexLength := 2624
  index2NullOffset := 0xFFFF
  dataNullOffset := 0
  highStart := 0x10000
  highValueIndex := 3000

/-- `leads` is a well-formed trie. -/
theorem leads_represents : Represents leads (fun c => if 0xD800 ≤ c ∧ c ≤ 0xD81F then 7 else 0) 0 := by
  have h0 : ∀ i, i < 65536 → i ≠ 0x800 → leads.index.get i = .ok 0 := by
    intro i h1 h2
    rw [Arr.get_ok (by show i < 70000; omega)]
    show Except.ok (if i = 0x800 then 16384 else if 65536 ≤ i ∧ i < 65568 then 7 else 0) = _
    rw [if_neg h2, if_neg (by omega)]
  have key : ∀ i c0, i < 65536 → i ≠ 0x800 → (∀ j < 32, ¬ (0xD800 ≤ c0 + j ∧ c0 + j ≤ 0xD81F)) →
      BlockAt leads.index i (fun c => if 0xD800 ≤ c ∧ c ≤ 0xD81F then 7 else 0) c0 := by
    intro i c0 h1 h2 h3
    refine ⟨0, h0 i h1 h2, fun j hj => ?_⟩
    rw [h0 _ (by omega) (by omega)]
    simp only [if_neg (h3 j hj)]
  constructor
  · intro b hb hb2
    exact key _ _ (by omega) (by omega) (fun j hj => by omega)
  · intro k hk
    by_cases h : k = 0
    · subst h
      refine ⟨16384, ?_, fun j hj => ?_⟩
      · rw [Arr.get_ok (by decide)]
        rfl
      · rw [Arr.get_ok (by show 4 * 16384 + j < 70000; omega)]
        show Except.ok (if 4 * 16384 + j = 0x800 then 16384 else if 65536 ≤ 4 * 16384 + j ∧ 4 * 16384 + j < 65568 then 7 else 0) = _
        rw [if_neg (by omega), if_pos (by omega)]
        simp only
        rw [if_pos (by omega)]
    · exact key _ _ (by omega) (by omega) (fun j hj => by omega)
  · intro g h1 h2 h3
    have : 2048 * g < 0x10000 := h3
    omega
  · intro c h1 h2 h3
    show leads.index.get 3000 = _
    rw [h0 _ (by omega) (by omega), if_neg (by omega)]
  · exact h0 _ (by decide) (by decide)
  · decide

/-- C26 is violated for lead surrogates: the enumerator looks at the first of their blocks only, so it reports U+D820..U+DBFF with
the value of the block before. -/
theorem enumerator_leads_refuted : leads.enumerator id 0xD800 0xDC00 = .ok [⟨0xD800, 0xDC00, 7⟩] ∧ leads.get 0xD820 = .ok 0 := by
  decide +kernel

/-- C27 for all tries, value functions and windows that start at a multiple of 32, except windows that end at a trail
surrogate block boundary they may overshoot (0xDC00 < limit < 0xE3E0 with start below 0xE000): the yielded ranges
are non-empty and contiguous from start to limit, neighbours differ. -/
theorem enumerator_tiles_partial {α : Type} [DecidableEq α] {t : UTrie2} {g : Nat → α} {start limit : Nat} {out : List (Run α)}
    (h : t.enumerator g start limit = .ok out) (hs : start % 32 = 0) (hsl : start ≤ limit)
    (hr : limit ≤ 0xDC00 ∨ 0xE3E0 ≤ limit ∨ 0xE000 ≤ start) : Tiles out start limit ∧ NeighboursDiffer out :=
  enumerator_tiles h hs hsl hr

/-- C27 for the default arguments `start = 0`, `limit = 0x110000`. -/
theorem enumerator_tiles_default {α : Type} [DecidableEq α] {t : UTrie2} {g : Nat → α} {out : List (Run α)}
    (h : t.enumerator g 0 0x110000 = .ok out) : Tiles out 0 0x110000 ∧ NeighboursDiffer out :=
  enumerator_tiles h (by omega) (by omega) (by omega)

/-- A trie that stores 7 for U+DC00..U+DC3F and 0 for all other code points. -/
def overshoot : UTrie2 where
  index :=
    { size := 70000
      at' := fun i => if i = 0x6E0 ∨ i = 0x6E1 then 16384 else if 65536 ≤ i ∧ i < 65568 then 7 else 0 }
  indexLength := 2624
  index2NullOffset := 0xFFFF
  dataNullOffset := 0
  highStart := 0x10000
  highValueIndex := 3000

/-- `overshoot` is a well-formed trie. -/
theorem overshoot_represents : Represents overshoot (fun c => if 0xDC00 ≤ c ∧ c ≤ 0xDC3F then 7 else 0) 0 := by
  have h0 : ∀ i, i < 65536 → ¬ (i = 0x6E0 ∨ i = 0x6E1) → overshoot.index.get i = .ok 0 := by
    intro i h1 h2
    rw [Arr.get_ok (by show i < 70000; omega)]
    show Except.ok (if i = 0x6E0 ∨ i = 0x6E1 then 16384 else if 65536 ≤ i ∧ i < 65568 then 7 else 0) = _
    rw [if_neg h2, if_neg (by omega)]
  have key : ∀ i c0, i < 65536 → ¬ (i = 0x6E0 ∨ i = 0x6E1) → (∀ j < 32, ¬ (0xDC00 ≤ c0 + j ∧ c0 + j ≤ 0xDC3F)) →
      BlockAt overshoot.index i (fun c => if 0xDC00 ≤ c ∧ c ≤ 0xDC3F then 7 else 0) c0 := by
    intro i c0 h1 h2 h3
    refine ⟨0, h0 i h1 h2, fun j hj => ?_⟩
    rw [h0 _ (by omega) (by omega)]
    simp only [if_neg (h3 j hj)]
  constructor
  · intro b hb hb2
    by_cases h : b = 0x6E0 ∨ b = 0x6E1
    · refine ⟨16384, ?_, fun j hj => ?_⟩
      · rw [Arr.get_ok (by show b < 70000; omega)]
        show Except.ok (if b = 0x6E0 ∨ b = 0x6E1 then 16384 else if 65536 ≤ b ∧ b < 65568 then 7 else 0) = _
        rw [if_pos h]
      · rw [Arr.get_ok (by show 4 * 16384 + j < 70000; omega)]
        show Except.ok (if 4 * 16384 + j = 0x6E0 ∨ 4 * 16384 + j = 0x6E1 then 16384 else
          if 65536 ≤ 4 * 16384 + j ∧ 4 * 16384 + j < 65568 then 7 else 0) = _
        rw [if_neg (by omega), if_pos (by omega)]
        simp only
        rw [if_pos (by omega)]
    · exact key _ _ (by omega) h (fun j hj => by omega)
  · intro k hk
    exact key _ _ (by omega) (by omega) (fun j hj => by omega)
  · intro g h1 h2 h3
    have : 2048 * g < 0x10000 := h3
    omega
  · intro c h1 h2 h3
    show overshoot.index.get 3000 = _
    rw [h0 _ (by omega) (by omega), if_neg (by omega)]
  · exact h0 _ (by decide) (by decide)
  · decide

/-- C27 is violated in general: for `overshoot` the window [0xDFE0, 0xE000) yields a range that goes past the limit
(and reports U+DFE0 with the value of U+DC00). -/
theorem enumerator_tiles_refuted :
    overshoot.enumerator id 0xDFE0 0xE000 = .ok [⟨0xDFE0, 0xE020, 7⟩] := by decide +kernel

/-- The enumerator always stops: for every trie, window and value function it ends normally or with `IndexError`. -/
theorem enumerator_terminates {α : Type} [DecidableEq α] (t : UTrie2) (g : Nat → α) (start limit : Nat) :
    (∃ out, t.enumerator g start limit = .ok out) ∨ t.enumerator g start limit = .error .indexError := by
  cases e : t.enumerator g start limit with
  | ok out => exact .inl ⟨out, rfl⟩
  | error x => exact .inr (by rw [enumerator_err e])

/-- On the shipped tries it never raises, whatever the window and the value function. -/
theorem shipped_enumerator_total {α : Type} [DecidableEq α] (g : Nat → α) (start limit : Nat) :
    (∃ out, Bidi.bidiPropsTrie.enumerator g start limit = .ok out) ∧
    (∃ out, Case.casePropsTrie.enumerator g start limit = .ok out) ∧
    (∃ out, Char.propsTrie.enumerator g start limit = .ok out) ∧
    (∃ out, Char.propsVectorTrie.enumerator g start limit = .ok out) :=
  ⟨enumerator_ok Bidi.enum_ok g start limit, enumerator_ok Case.enum_ok g start limit,
    enumerator_ok Char.enum_ok g start limit, enumerator_ok Char.venum_ok g start limit⟩

example : Case.casePropsTrie.enumerator (fun v => v &&& 3) 0x40 0x60 =
    .ok [⟨0x40, 0x41, 0⟩, ⟨0x41, 0x5B, 2⟩, ⟨0x5B, 0x60, 0⟩] := by decide +kernel

end Verif.UTrie2.Props

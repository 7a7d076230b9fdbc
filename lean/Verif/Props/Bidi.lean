import Verif.Lemmas.BidiData
import Verif.Data.Names
/-! # Properties of `BidiProps` with the shipped data (C31-C33) -/
namespace Verif.Bidi.Props
open Verif.Data
set_option maxRecDepth 100000

/-- C31. `getMirror` returns a code point for every code point and is an involution. -/
theorem mirror_involution (c : Nat) (hc : c ≤ 0x10FFFF) :
    ∃ m : Nat, getMirror c = .ok (m : Int) ∧ m ≤ 0x10FFFF ∧ getMirror m = .ok (c : Int) := by
  obtain ⟨m, h1, h2, h3, _⟩ := mirror_facts c hc
  exact ⟨m, h1, h2, h3⟩

/-- C31. A code point whose mirror is another one is reported mirrored, and so is its mirror. -/
theorem mirror_is_mirrored (c m : Nat) (hc : c ≤ 0x10FFFF) (hm : getMirror c = .ok (m : Int)) (hne : m ≠ c) :
    isMirrored c = .ok true ∧ isMirrored m = .ok true := by
  have key : ∀ c m : Nat, c ≤ 0x10FFFF → getMirror c = .ok (m : Int) → m ≠ c → isMirrored c = .ok true := by
    intro c m hc hm hne
    obtain ⟨m', h1, h2, h3, h4, _⟩ := mirror_facts c hc
    rw [hm] at h1
    simp only [Except.ok.injEq] at h1
    have : m = m' := by omega
    subst this
    unfold isMirrored
    rw [get_eq]
    exact congrArg Except.ok (h4 hne)
  obtain ⟨m', h1, h2, h3, _⟩ := mirror_facts c hc
  rw [hm] at h1
  simp only [Except.ok.injEq] at h1
  have : m = m' := by omega
  subst this
  exact ⟨key c m hc hm hne, key m c h2 h3 (fun h => hne h.symm)⟩

/-- `(` and `)`, U+2298 (mirrored through a delta), U+2208 U+220B and U+226A. -/
example : getMirror 0x28 = .ok 0x29 ∧ getMirror 0x29 = .ok 0x28 ∧ getMirror 0x2298 = .ok 0x29B8 ∧
    getMirror 0x2208 = .ok 0x220B ∧ getMirror 0x41 = .ok 0x41 := by decide +kernel

/-- The first 21 bits of an entry of the table of mirrored code points: a code point. -/
noncomputable def mirrorCodePoint (i : Nat) : Nat := bidiMirrors.entry i % 2 ^ 21

/-- The other bits: the number of another entry. -/
noncomputable def mirrorPartner (i : Nat) : Nat := bidiMirrors.entry i / 2 ^ 21

/-- C31. Each code point of the table of mirrored code points has as mirror the code point of the entry that its entry refers to,
and that is another one. -/
theorem mirror_table : ∀ i < bidiMirrors.size, mirrorPartner i < bidiMirrors.size ∧
    getMirror (mirrorCodePoint i) = .ok (mirrorCodePoint (mirrorPartner i) : Int) ∧ mirrorCodePoint (mirrorPartner i) ≠ mirrorCodePoint i := by
  decide +kernel

theorem searchMirrors_absent {c : Nat} (h : ∀ i < bidiMirrors.size, mirrorCodePoint i ≠ c) : ∀ n i, n + i = bidiMirrors.size →
    searchMirrors bidiMirrors.arr c n i = .ok (c : Int) := by
  intro n
  induction n with
  | zero => intro i _; rfl
  | succ n ih =>
    intro i hi
    have hg : bidiMirrors.arr.get i = .ok (bidiMirrors.entry i) := Arr.get_ok (a := bidiMirrors.arr) (show i < bidiMirrors.size by omega)
    unfold searchMirrors
    rw [hg]
    have hne : c ≠ getMirrorCodePointFromProps (bidiMirrors.entry i) := by
      intro he
      apply h i (by omega)
      rw [he]
      unfold mirrorCodePoint getMirrorCodePointFromProps
      exact (Nat.and_two_pow_sub_one_eq_mod _ 21).symm
    simp only [bind, Except.bind, hne, if_false]
    split
    · rfl
    · exact ih (i + 1) (by omega)

/-- C31. The mirror of every other code point: the top three bits of its properties are a difference between -3 and 3; -4 refers to
the table. -/
theorem mirror_delta (c : Nat) : ∃ p, bidiPropsTrie.get c = .ok p ∧ p < 65536 ∧
    (p / 8192 < 4 → getMirror c = .ok (c + (p / 8192 : Nat) : Int)) ∧
    (4 < p / 8192 → getMirror c = .ok (c + (p / 8192 : Nat) - 8 : Int)) ∧
    (p / 8192 = 4 → (∀ i < bidiMirrors.size, mirrorCodePoint i ≠ c) → getMirror c = .ok (c : Int)) := by
  refine ⟨_, get_eq c, getv_lt c, ?_⟩
  have hv := getv_lt c
  rw [getMirror_eq]
  generalize bidiPropsTrie.getv c = v at *
  have hd : getMirrorDeltaFromProps v = .ok (if v / 8192 < 4 then ((v / 8192 : Nat) : Int) else ((v / 8192 : Nat) : Int) - 8) := by
    unfold getMirrorDeltaFromProps MIRROR_DELTA_BITS
    rw [Utilities.Props.arithmeticShift_signed (by decide) (by decide) (by omega)
      (by have : (2 : Int) ^ 16 = 65536 := by decide
          omega)]
    have e1 : (2 : Int) ^ (16 - (16 - 13)) = 8192 := by decide
    have e2 : (2 : Int) ^ (16 - 13) = 8 := by decide
    have e3 : (2 : Int) ^ (16 - 13 - 1) = 4 := by decide
    simp only [Utilities.Props.signed, e1, e2, e3]
    congr 1
    by_cases h : v / 8192 < 4
    · rw [if_pos h, if_pos (by omega)]; omega
    · rw [if_neg h, if_neg (by omega)]; omega
  unfold getMirrorFromProps
  rw [hd]
  simp only [bind, Except.bind, pure, Except.pure]
  refine ⟨fun h => ?_, fun h => ?_, fun h hn => ?_⟩
  · rw [if_pos h] at *
    rw [if_pos (by omega)]
  · rw [if_neg (c := v / 8192 < 4) (by omega)]
    rw [if_pos (by omega)]
    congr 1
    omega
  · rw [if_neg (c := v / 8192 < 4) (by omega), h]
    exact searchMirrors_absent hn _ 0 rfl

example : bidiPropsTrie.get 0x28 = .ok 0x310A ∧ mirrorCodePoint 0 = 0xAB ∧ mirrorCodePoint (mirrorPartner 0) = 0xBB := by decide +kernel

/-- C32. `getPairedBracket` is an involution on code points. -/
theorem pairedBracket_involution (c : Nat) (hc : c ≤ 0x10FFFF) :
    ∃ m : Nat, getPairedBracket c = .ok (m : Int) ∧ m ≤ 0x10FFFF ∧ getPairedBracket m = .ok (c : Int) := by
  by_cases h : bidiPropsTrie.getv c &&& 0x300 = 0
  · have e : getPairedBracket c = .ok (c : Int) := by
      unfold getPairedBracket
      rw [get_eq]
      simp [bind, Except.bind, h, pure, Except.pure]
    exact ⟨c, e, hc, e⟩
  · obtain ⟨m, h1, h2, h3, _, h5⟩ := mirror_facts c hc
    obtain ⟨h6, h7, h8⟩ := h5 h
    have e : ∀ c, bidiPropsTrie.getv c &&& 0x300 ≠ 0 → getPairedBracket c = getMirror c := by
      intro c h
      unfold getPairedBracket getMirror
      rw [get_eq]
      simp [bind, Except.bind, h]
    refine ⟨m, by rw [e c h, h1], h2, ?_⟩
    rw [e m ?_, h3]
    intro h0
    rw [h0] at h6
    omega

/-- C32. The bracket type is 0 (none), 1 (open) or 2 (close); a bracket of type 1 or 2 has as partner another
code point of the opposite type, and a code point of type 0 is its own partner. -/
theorem pairedBracket_types (c : Nat) (hc : c ≤ 0x10FFFF) :
    (getPairedBracketType c = .ok 0 ∧ getPairedBracket c = .ok (c : Int)) ∨
    ∃ m : Nat, getPairedBracket c = .ok (m : Int) ∧ m ≠ c ∧
      ((getPairedBracketType c = .ok 1 ∧ getPairedBracketType m = .ok 2) ∨
       (getPairedBracketType c = .ok 2 ∧ getPairedBracketType m = .ok 1)) := by
  have et : ∀ c, getPairedBracketType c = .ok ((bidiPropsTrie.getv c &&& 0x300) >>> 8) := by
    intro c; unfold getPairedBracketType; rw [get_eq]; rfl
  by_cases h : bidiPropsTrie.getv c &&& 0x300 = 0
  · left
    refine ⟨by rw [et, h]; rfl, ?_⟩
    unfold getPairedBracket
    rw [get_eq]
    simp [bind, Except.bind, h, pure, Except.pure]
  · right
    obtain ⟨m, h1, h2, h3, _, h5⟩ := mirror_facts c hc
    obtain ⟨h6, h7, h8⟩ := h5 h
    refine ⟨m, ?_, h8, ?_⟩
    · unfold getPairedBracket
      rw [get_eq]
      simp only [bind, Except.bind, h, if_false]
      rw [← getMirror_eq, h1]
    · rw [et, et, h6]
      have hf := and_field (bidiPropsTrie.getv c) 2 8
      simp only [Nat.reducePow, Nat.reduceSub, Nat.reduceMul] at hf
      rw [hf] at h h7 ⊢
      rw [Nat.shiftRight_eq_div_pow] at h7 ⊢
      simp only [Nat.reducePow] at h7 ⊢
      generalize bidiPropsTrie.getv c / 256 % 4 = k at *
      have : k * 256 / 256 = k := by omega
      rw [this] at h7 ⊢
      have : k = 1 ∨ k = 2 := by omega
      rcases this with rfl | rfl
      · exact .inl ⟨rfl, rfl⟩
      · exact .inr ⟨rfl, rfl⟩

example : getPairedBracketType 0x5B = .ok 1 ∧ getPairedBracket 0x5B = .ok 0x5D ∧ getPairedBracketType 0x5D = .ok 2 ∧
    getPairedBracketType 0x3C = .ok 0 ∧ getPairedBracket 0x3C = .ok 0x3C ∧ getMirror 0x3C = .ok 0x3E := by
  decide +kernel

theorem classNames : ∀ v < 23, (bidiClassNames.lookup v).isSome = true := by decide +kernel
theorem typeNames : ∀ v < 6, (joiningTypeNames.lookup v).isSome = true := by decide +kernel
theorem groupNames : ∀ v < 102, (joiningGroupNames.lookup v).isSome = true := by decide +kernel
theorem jg1_scan : ∀ i < 680, bidiJg1.entry i < 102 := by decide +kernel
theorem jg2_scan : ∀ i < 612, bidiJg2.entry i < 102 := by decide +kernel

theorem jg1_get {i : Nat} (h : i < 680) : ∃ v, bidiJg1.arr.get i = .ok v ∧ v < 102 :=
  ⟨_, Arr.get_ok (a := bidiJg1.arr) h, jg1_scan _ h⟩
theorem jg2_get {i : Nat} (h : i < 612) : ∃ v, bidiJg2.arr.get i = .ok v ∧ v < 102 :=
  ⟨_, Arr.get_ok (a := bidiJg2.arr) h, jg2_scan _ h⟩

/-- C33. `getCharDirection` never raises and its result has a name in `bidiClassNames`. -/
theorem direction_total_named (c : Nat) :
    ∃ v name, getCharDirection c = .ok v ∧ bidiClassNames.lookup v = some name := by
  have h := classNames _ (getv_good c).1
  obtain ⟨name, hn⟩ := Option.isSome_iff_exists.1 h
  exact ⟨_, name, by unfold getCharDirection; rw [get_eq]; rfl, hn⟩

/-- C33. `getJoiningType` never raises and its result has a name in `joiningTypeNames`. -/
theorem joiningType_total_named (c : Nat) :
    ∃ v name, getJoiningType c = .ok v ∧ joiningTypeNames.lookup v = some name := by
  have h := typeNames _ (getv_good c).2
  obtain ⟨name, hn⟩ := Option.isSome_iff_exists.1 h
  exact ⟨_, name, by unfold getJoiningType; rw [get_eq]; rfl, hn⟩

theorem joiningGroup_eq (c : Nat) : getJoiningGroup c =
    if 0x620 ≤ c ∧ c < 0x8c8 then bidiJg1.arr.get (c - 0x620)
    else if 0x10ac0 ≤ c ∧ c < 0x10d24 then bidiJg2.arr.get (c - 0x10ac0) else .ok 0 := by
  unfold getJoiningGroup
  rw [show bidiIndexes.arr.get 4 = .ok 0x620 by decide +kernel, show bidiIndexes.arr.get 5 = .ok 0x8c8 by decide +kernel,
    show bidiIndexes.arr.get 6 = .ok 0x10ac0 by decide +kernel, show bidiIndexes.arr.get 7 = .ok 0x10d24 by decide +kernel]
  rfl

/-- C33. `getJoiningGroup` never raises and its result has a name in `joiningGroupNames`. -/
theorem joiningGroup_total_named (c : Nat) :
    ∃ v name, getJoiningGroup c = .ok v ∧ joiningGroupNames.lookup v = some name := by
  have key : ∃ v, getJoiningGroup c = .ok v ∧ v < 102 := by
    rw [joiningGroup_eq]
    by_cases h1 : 0x620 ≤ c ∧ c < 0x8c8
    · rw [if_pos h1]
      have hlt : c - 0x620 < 680 := by omega
      exact jg1_get hlt
    · rw [if_neg h1]
      by_cases h2 : 0x10ac0 ≤ c ∧ c < 0x10d24
      · rw [if_pos h2]
        have hlt : c - 0x10ac0 < 612 := by omega
        exact jg2_get hlt
      · rw [if_neg h2]; exact ⟨0, rfl, by decide⟩
  obtain ⟨v, hv, hlt⟩ := key
  obtain ⟨name, hn⟩ := Option.isSome_iff_exists.1 (groupNames v hlt)
  exact ⟨v, name, hv, hn⟩

/-- The Arabic letter beh: right-to-left Arabic, dual joining, group Beh; U+8C7 is the last entry of the first
array and U+10D23 that of the second. -/
example : getCharDirection 0x628 = .ok 13 ∧ getJoiningType 0x628 = .ok 2 ∧ getJoiningGroup 0x628 = .ok 4 ∧
    joiningGroupNames.lookup 4 = some "Beh" ∧ getJoiningGroup 0x8C7 = .ok 22 ∧ getJoiningGroup 0x10D23 = .ok 100 := by
  decide +kernel

end Verif.Bidi.Props

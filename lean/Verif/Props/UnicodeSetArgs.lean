import Verif.Model.UnicodeSetArgs
import Verif.Props.UnicodeSet
/-!
# Arguments by type (C90, C91)
-/
namespace Verif.USet.Props
open Verif.USet Verif.Spec

/-- `c` is an element of Python's `range(start, stop, step)`. -/
def InRange (start stop step c : Int) : Prop :=
  ∃ k : Nat, c = start + k * step ∧ (0 < step → c < stop) ∧ (step < 0 → stop < c)

theorem inRange_one {a b c : Int} : InRange a b 1 c ↔ a ≤ c ∧ c < b := by
  constructor
  · rintro ⟨k, rfl, h, -⟩
    have := h (by decide)
    omega
  · rintro ⟨h1, h2⟩
    exact ⟨(c - a).toNat, by omega, fun _ => h2, fun h => absurd h (by decide)⟩

/-- The call `x in s` or `s.contains(x)` is `True`. -/
def HasArg (l : List Int) (x : PyArg) : Prop := containsArg l x = .ok true

instance (l : List Int) (x : PyArg) : Decidable (HasArg l x) := inferInstanceAs (Decidable (_ = _))

/-- C90. The set made from nothing is empty, from a set it has the members of the set, from a code point it has that one member,
and from a range it has exactly the elements of the range, for every range of code points with step 1. Missing: ranges with
other steps, and ranges whose start is behind their stop; see the refutation. -/
theorem newArg_partial :
    (∃ r, newArg .none = .ok r ∧ Canonical r ∧ ∀ c, IsCodePoint c → ¬ HasArg r (.int c)) ∧
    (∀ l, ∃ r, newArg (.set l) = .ok r ∧ ∀ c, HasArg r (.int c) ↔ HasArg l (.int c)) ∧
    (∀ n, IsCodePoint n → ∃ r, newArg (.int n) = .ok r ∧ WellFormed r ∧ ∀ c, IsCodePoint c → (HasArg r (.int c) ↔ c = n)) ∧
    (∀ a b, 0 ≤ a → a ≤ b → b ≤ 0x110000 → ∃ r, newArg (.range a b 1) = .ok r ∧ WellFormed r ∧
      ∀ c, IsCodePoint c → (HasArg r (.int c) ↔ InRange a b 1 c)) := by
  have hr : ∀ a b : Int, 0 ≤ a → a ≤ b → b ≤ 0x110000 → WellFormed [a, b, HIGH] ∧
      ∀ c, IsCodePoint c → (Has [a, b, HIGH] c ↔ a ≤ c ∧ c < b) := by
    intro a b h1 h2 h3
    have hw := wf_range h1 h2 h3
    refine ⟨hw, fun c hc => ?_⟩
    rw [has_iff hw hc, mem_range h2 (cp_high hc).2]
    simp
  refine ⟨⟨_, rfl, by decide, fun c hc => ?_⟩, fun l => ⟨l, rfl, fun c => Iff.rfl⟩, fun n hn => ?_, fun a b h1 h2 h3 => ?_⟩
  · show ¬ Has new c
    rw [has_iff (by decide) hc]
    unfold new HIGH
    have := hc.2
    rw [mem_cons_gt (by omega)]
    simp
  · obtain ⟨hw, hm⟩ := hr n (n + 1) hn.1 (by omega) (by have := hn.2; omega)
    refine ⟨_, rfl, hw, fun c hc => ?_⟩
    have := hm c hc
    show Has [n, n + 1, HIGH] c ↔ _
    rw [this]
    omega
  · obtain ⟨hw, hm⟩ := hr a b h1 h2 h3
    refine ⟨_, rfl, hw, fun c hc => ?_⟩
    rw [inRange_one]
    exact hm c hc

example : newArg (.range 0x41 0x5B 1) = .ok [0x41, 0x5B, 0x110000] ∧ InRange 0x41 0x5B 1 0x5A := by
  refine ⟨rfl, 25, by decide, by decide, by decide⟩

/-- C90, queries. For every canonical set and every range of code points that is not empty: `range in set` is `True` only if
every element of the range is a member, whatever the positive step, and for step 1 exactly then. -/
theorem containsArg_partial {l : List Int} (hl : Canonical l) {a b : Int} (ha : 0 ≤ a) (hab : a < b) (hb : b ≤ 0x110000) :
    (∀ step, 0 < step → HasArg l (.range a b step) → ∀ c, InRange a b step c → HasArg l (.int c)) ∧
    (HasArg l (.range a b 1) ↔ ∀ c, InRange a b 1 c → HasArg l (.int c)) := by
  obtain ⟨v, hv, hv'⟩ := containsRange_iff_partial hl ha hab hb
  have key : containsRange l a b = .ok true ↔ ∀ c, a ≤ c → c < b → Has l c := by
    rw [hv, ← hv']
    exact ⟨fun h => by cases h; rfl, fun h => by rw [h]⟩
  refine ⟨fun step hs h c hc => ?_, ?_⟩
  · obtain ⟨k, rfl, h1, -⟩ := hc
    have h2 := h1 hs
    have : 0 ≤ (k : Int) * step := Int.mul_nonneg (by omega) (by omega)
    exact key.mp h _ (by omega) h2
  · constructor
    · intro h c hc
      rw [inRange_one] at hc
      exact key.mp h c hc.1 hc.2
    · intro h
      exact key.mpr fun c h1 h2 => h c (inRange_one.mpr ⟨h1, h2⟩)

example : HasArg [3, 9, 0x110000] (.range 4 9 1) ∧ ¬ HasArg [3, 9, 0x110000] (.range 4 10 1) := by decide

/-- C90, `complement`. For every well-formed set and every range of at least two code points with step 1, the call changes the
membership of exactly the elements of the range. Missing: other steps, and ranges of one element (finding C08). -/
theorem complementArg_partial {l : List Int} (hl : WellFormed l) {a b : Int} (ha : 0 ≤ a) (hab : a + 1 < b) (hb : b ≤ 0x110000) :
    ∃ r, complementArg l (.range a b 1) = .ok r ∧ WellFormed r ∧
      ∀ c, IsCodePoint c → (HasArg r (.int c) ↔ ¬ (HasArg l (.int c) ↔ InRange a b 1 c)) := by
  obtain ⟨-, -, r, h1, h2, h3⟩ := range_calls_partial hl (s := a) (e := b - 1) ⟨ha, by omega⟩ ⟨by omega, by omega⟩ (by omega)
  refine ⟨r, h1, h2, fun c hc => ?_⟩
  have := h3 c hc
  show Has r c ↔ ¬ (Has l c ↔ _)
  rw [this, inRange_one]
  have : (a ≤ c ∧ c ≤ b - 1) ↔ (a ≤ c ∧ c < b) := by omega
  rw [this]

example : complementArg [3, 9, 0x110000] (.range 5 12 1) = .ok [3, 5, 9, 12, 0x110000] := by decide

/-- C90, `complement` without an argument changes the membership of every code point; with an integer it should change that of one
code point, but changes nothing (finding C08). -/
theorem complementArg_none_int {l : List Int} (hl : WellFormed l) :
    (∃ r, complementArg l .none = .ok r ∧ WellFormed r ∧ ∀ c, IsCodePoint c → (HasArg r (.int c) ↔ ¬ HasArg l (.int c))) ∧
    (∀ n, complementArg l (.int n) = .ok l) :=
  ⟨complement_pointwise hl, fun n => (single_calls_are_noops l n).2.2⟩

example : WellFormed [3, 9, 0x110000] ∧ complementArg [3, 9, 0x110000] .none = .ok [0, 3, 9, 0x110000] := by decide

/-- C90. Arguments of other types raise `TypeError` and the set is not changed; `True` and `False` are such arguments, although
they are integers. -/
theorem other_types_raise (l m : List Int) (b : Bool) :
    (∀ x ∈ [PyArg.bool b, .other], newArg x = .error .typeError) ∧
    (∀ x ∈ [PyArg.bool b, .other, .none, .set m], containsArg l x = .error .typeError) ∧
    (∀ x ∈ [PyArg.bool b, .other, .set m], complementArg l x = .error .typeError) := by
  refine ⟨?_, ?_, ?_⟩ <;> intro x hx <;> simp only [List.mem_cons, List.not_mem_nil, or_false] at hx
  · rcases hx with rfl | rfl <;> rfl
  · rcases hx with rfl | rfl | rfl | rfl <;> rfl
  · rcases hx with rfl | rfl | rfl <;> rfl

/-- C90 fails. The step of a range is ignored: `UnicodeSet(range(0, 10, 2))` contains 1, `range(0, 10, 2) in s` is `False`
although all five elements are members, and `complement(range(0, 10, 2))` changes 1 as well. A range that runs down, or is empty
with its start behind its stop, makes a list whose boundaries are not in order: `UnicodeSet(range(9, 3))` has the size -6,
although `range(9, 3)` has no elements. The empty range `range(5, 5)` is not contained in a set without 5. -/
theorem args_refuted :
    (newArg (.range 0 10 2) = .ok [0, 10, 0x110000] ∧ HasArg [0, 10, 0x110000] (.int 1) ∧ ¬ InRange 0 10 2 1) ∧
    ((∀ c, InRange 0 10 2 c → HasArg [0, 1, 2, 3, 4, 5, 6, 7, 8, 9, 0x110000] (.int c)) ∧
      ¬ HasArg [0, 1, 2, 3, 4, 5, 6, 7, 8, 9, 0x110000] (.range 0 10 2)) ∧
    (complementArg [0x110000] (.range 0 10 2) = .ok [0, 10, 0x110000]) ∧
    (newArg (.range 9 3 1) = .ok [9, 3, 0x110000] ∧ ¬ WellFormed [9, 3, 0x110000] ∧ size [9, 3, 0x110000] = .ok (-6) ∧ (∀ c, ¬ InRange 9 3 1 c)) ∧
    ((∀ c, ¬ InRange 5 5 1 c) ∧ ¬ HasArg [0x110000] (.range 5 5 1)) := by
  refine ⟨⟨rfl, by decide, ?_⟩, ⟨?_, by decide⟩, by decide, ⟨rfl, by decide, by decide, ?_⟩, ?_, by decide⟩
  · rintro ⟨k, h, -⟩
    omega
  · rintro c ⟨k, rfl, h, -⟩
    have := h (by decide)
    have hk : k < 5 := by omega
    match k, hk with
    | 0, _ | 1, _ | 2, _ | 3, _ | 4, _ => decide
  · intro c h
    rw [inRange_one] at h
    omega
  · intro c h
    rw [inRange_one] at h
    omega

/-! ## Comparison with other objects (C91) -/

/-- C91, the part that holds: comparing with a set never raises, and `!=` is the opposite of `==`. Missing: objects that are
not sets. -/
theorem eqArg_partial (l m : List Int) : ∃ r, eqArg l (.set m) = .ok r ∧ neArg l (.set m) = .ok (!r) ∧ (r = true → ∀ c, Has l c ↔ Has m c) :=
  ⟨_, rfl, rfl, fun h => eq_same_members h⟩

example : eqArg [3, 9, 0x110000] (.set [3, 9, 0x110000]) = .ok true ∧ neArg [3, 9, 0x110000] (.set [3, 8, 0x110000]) = .ok true := by decide

/-- C91 fails. Comparing a set with anything that is not a set raises `AttributeError`, for `==` as well as `!=`, instead of being
false. -/
theorem eqArg_refuted (l : List Int) (n : Int) (b : Bool) :
    ∀ x ∈ [PyArg.none, .int n, .range n n 1, .bool b, .other], eqArg l x = .error .attributeError ∧ neArg l x = .error .attributeError := by
  intro x hx
  simp only [List.mem_cons, List.not_mem_nil, or_false] at hx
  rcases hx with rfl | rfl | rfl | rfl | rfl <;> exact ⟨rfl, rfl⟩

end Verif.USet.Props

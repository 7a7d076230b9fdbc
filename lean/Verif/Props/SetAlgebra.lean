import Verif.Props.UnicodeSet
import Verif.Spec.SetAlgebra
/-!
# The laws of set algebra hold for the operators (C83)
-/
namespace Verif.USet.Props
open Verif.USet Verif.Spec

/-- The value Python computes for an expression, the sets being `s 0, s 1, …`; the complement is `UnicodeSet(a).complement()`
(UnicodeSet.py:609-647, 656-670, 547-570). -/
def eval (s : Nat → List Int) : SetExpr → Py (List Int)
  | .var n => .ok (s n)
  | .or a b => do union (← eval s a) (← eval s b)
  | .and a b => do intersection (← eval s a) (← eval s b)
  | .sub a b => do difference (← eval s a) (← eval s b)
  | .xor a b => do symmetricDifference (← eval s a) (← eval s b)
  | .not a => do complement (newCopy (← eval s a))

/-- Every expression has a value, whose members are those the expression says. -/
theorem eval_members {s : Nat → List Int} (hs : ∀ n, WellFormed (s n)) (e : SetExpr) :
    ∃ r, eval s e = .ok r ∧ WellFormed r ∧ ∀ c, IsCodePoint c → (Has r c ↔ e.holds (fun n => has (s n) c) = true) := by
  induction e with
  | var n => exact ⟨s n, rfl, hs n, fun c _ => by simp [SetExpr.holds, has]⟩
  | or a b iha ihb =>
    obtain ⟨x, hx, wx, mx⟩ := iha
    obtain ⟨y, hy, wy, my⟩ := ihb
    obtain ⟨r, h1, -, h2, h3⟩ := union_pointwise wx wy
    refine ⟨r, by simp only [eval, hx, hy, bind, Except.bind, h1], h2, fun c hc => ?_⟩
    rw [h3 c hc, mx c hc, my c hc]; simp [SetExpr.holds]
  | and a b iha ihb =>
    obtain ⟨x, hx, wx, mx⟩ := iha
    obtain ⟨y, hy, wy, my⟩ := ihb
    obtain ⟨r, h1, -, h2, h3⟩ := intersection_pointwise wx wy
    refine ⟨r, by simp only [eval, hx, hy, bind, Except.bind, h1], h2, fun c hc => ?_⟩
    rw [h3 c hc, mx c hc, my c hc]; simp [SetExpr.holds]
  | sub a b iha ihb =>
    obtain ⟨x, hx, wx, mx⟩ := iha
    obtain ⟨y, hy, wy, my⟩ := ihb
    obtain ⟨r, h1, -, h2, h3⟩ := difference_pointwise wx wy
    refine ⟨r, by simp only [eval, hx, hy, bind, Except.bind, h1], h2, fun c hc => ?_⟩
    rw [h3 c hc, mx c hc, my c hc]; simp [SetExpr.holds]
  | xor a b iha ihb =>
    obtain ⟨x, hx, wx, mx⟩ := iha
    obtain ⟨y, hy, wy, my⟩ := ihb
    obtain ⟨r, h1, -, h2, h3⟩ := symmetricDifference_pointwise wx wy
    refine ⟨r, by simp only [eval, hx, hy, bind, Except.bind, h1], h2, fun c hc => ?_⟩
    rw [h3 c hc, mx c hc, my c hc]
    simp only [SetExpr.holds]
    cases a.holds _ <;> cases b.holds _ <;> simp
  | not a iha =>
    obtain ⟨x, hx, wx, mx⟩ := iha
    obtain ⟨r, h1, h2, h3⟩ := complement_pointwise wx
    refine ⟨r, by simp only [eval, hx, bind, Except.bind, newCopy, h1], h2, fun c hc => ?_⟩
    rw [h3 c hc, mx c hc]; simp [SetExpr.holds]

/-- Without `|` the value of an expression of canonical sets is canonical. -/
theorem eval_canonical {s : Nat → List Int} (hs : ∀ n, Canonical (s n)) :
    ∀ {e : SetExpr} {r : List Int}, e.NoOr → eval s e = .ok r → Canonical r := by
  intro e
  have hw : ∀ n, WellFormed (s n) := fun n => (hs n).1
  induction e with
  | var n => intro r _ h; cases h; exact hs n
  | or a b => intro r h; exact h.elim
  | and a b iha ihb =>
    intro r hn h
    obtain ⟨x, hx, -, -⟩ := eval_members hw a
    obtain ⟨y, hy, -, -⟩ := eval_members hw b
    have cx := iha hn.1 hx
    have cy := ihb hn.2 hy
    simp only [eval, hx, hy, bind, Except.bind] at h
    obtain ⟨r', h1, -, h2, -⟩ := intersection_pointwise cx.1 cy.1
    rw [h1] at h; cases h
    exact ⟨h2, retainList_strict cx.1 cy.1 (strictBelow_of_strict cx.2) (strictBelow_of_strict cy.2) h1⟩
  | sub a b iha ihb =>
    intro r hn h
    obtain ⟨x, hx, -, -⟩ := eval_members hw a
    obtain ⟨y, hy, -, -⟩ := eval_members hw b
    have cx := iha hn.1 hx
    have cy := ihb hn.2 hy
    simp only [eval, hx, hy, bind, Except.bind] at h
    obtain ⟨r', h1, -, h2, -⟩ := difference_pointwise cx.1 cy.1
    rw [h1] at h; cases h
    exact ⟨h2, retainList_strict cx.1 cy.1 (strictBelow_of_strict cx.2) (strictBelow_of_strict cy.2) h1⟩
  | xor a b iha ihb =>
    intro r hn h
    obtain ⟨x, hx, -, -⟩ := eval_members hw a
    obtain ⟨y, hy, -, -⟩ := eval_members hw b
    have cx := iha hn.1 hx
    have cy := ihb hn.2 hy
    simp only [eval, hx, hy, bind, Except.bind] at h
    obtain ⟨r', h1, -, h2, -⟩ := symmetricDifference_pointwise cx.1 cy.1
    rw [h1] at h; cases h
    exact ⟨h2, exclusiveOrList_strict cx.1 cy.1 (strictBelow_of_strict cx.2) (strictBelow_of_strict cy.2) h1⟩
  | not a iha =>
    intro r hn h
    obtain ⟨x, hx, -, -⟩ := eval_members hw a
    have cx := iha hn hx
    obtain ⟨r', h1, h2, _, h4⟩ := complement_ok cx.1
    simp only [eval, hx, bind, Except.bind, newCopy, h1] at h
    cases h
    exact ⟨h2, h4 cx.2⟩

/-- C83, membership. Every law of set algebra holds element by element: the two sides have values with the same members. -/
theorem laws_members {s : Nat → List Int} (hs : ∀ n, WellFormed (s n)) {a b : SetExpr} (h : a.Law b) :
    ∃ x y, eval s a = .ok x ∧ eval s b = .ok y ∧ ∀ c, IsCodePoint c → (Has x c ↔ Has y c) := by
  obtain ⟨x, hx, -, mx⟩ := eval_members hs a
  obtain ⟨y, hy, -, my⟩ := eval_members hs b
  exact ⟨x, y, hx, hy, fun c hc => by rw [mx c hc, my c hc, h]⟩

/-- C83, equality. Every law of set algebra without `|` holds for `==` on canonical sets: commutativity, associativity and
idempotence of `&`, `a - b == a & ~b`, `(a ^ b) ^ b == a` and all others. Missing: laws with `|`, see `laws_refuted`. -/
theorem laws_eq_partial {s : Nat → List Int} (hs : ∀ n, Canonical (s n)) {a b : SetExpr} (h : a.Law b) (ha : a.NoOr) (hb : b.NoOr) :
    ∃ x y, eval s a = .ok x ∧ eval s b = .ok y ∧ eq x y = true ∧ ne x y = false := by
  obtain ⟨x, y, hx, hy, hm⟩ := laws_members (fun n => (hs n).1) h
  have := (eq_extensional_partial (eval_canonical hs ha hx) (eval_canonical hs hb hy)).1.mpr hm
  exact ⟨x, y, hx, hy, this, by simp [ne, this]⟩

/-- `(a ^ b) ^ b == a`, and `a - (a - b) == a & b`. -/
example : SetExpr.Law (.xor (.xor (.var 0) (.var 1)) (.var 1)) (.var 0) ∧
    SetExpr.Law (.sub (.var 0) (.sub (.var 0) (.var 1))) (.and (.var 0) (.var 1)) := by
  constructor <;> intro P <;> simp only [SetExpr.holds] <;> cases P 0 <;> cases P 1 <;> rfl

/-- Both sides of a law with `|` and De Morgan. -/
example : SetExpr.Law (.not (.or (.var 0) (.var 1))) (.and (.not (.var 0)) (.not (.var 1))) := by
  intro P; simp only [SetExpr.holds]; cases P 0 <;> cases P 1 <;> rfl

/-- C83 fails for `|` and `==`: `a | b == b | a` is false for `a = {0..9}` and `b = {0..4, 10..19}`, two canonical sets. -/
theorem laws_refuted :
    ¬ ∀ (s : Nat → List Int), (∀ n, Canonical (s n)) → ∀ a b : SetExpr, a.Law b →
      ∃ x y, eval s a = .ok x ∧ eval s b = .ok y ∧ eq x y = true := by
  intro h
  obtain ⟨x, y, hx, hy, he⟩ := h (fun n => if n = 0 then [0, 10, 0x110000] else [0, 5, 10, 20, 0x110000])
    (fun n => by by_cases h : n = 0 <;> simp only [h, if_true, if_false] <;> decide)
    (.or (.var 0) (.var 1)) (.or (.var 1) (.var 0)) (fun P => Bool.or_comm _ _)
  have ex : eval (fun n => if n = 0 then [0, 10, 0x110000] else [0, 5, 10, 20, 0x110000]) (.or (.var 0) (.var 1)) =
    .ok [0, 10, 10, 20, 0x110000] := by decide
  have ey : eval (fun n => if n = 0 then [0, 10, 0x110000] else [0, 5, 10, 20, 0x110000]) (.or (.var 1) (.var 0)) =
    .ok [0, 20, 0x110000] := by decide
  rw [ex] at hx; rw [ey] at hy
  cases hx; cases hy
  exact absurd he (by decide)

end Verif.USet.Props

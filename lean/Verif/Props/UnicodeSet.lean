import Verif.Lemmas.USetHistory
/-!
# Properties C01–C19: `UnicodeSet`

`Has s c` is what a user observes: the Python expression `c in s` evaluates to `True`.
`WellFormed` (`Spec/CodePointSet.lean`) is a hypothesis on list values; `reachable_wellFormed` below shows
every set the API can produce meets it.
-/
namespace Verif.USet.Props
open Verif.Spec Verif.USet

/-- `c in s` returns `True`. -/
def Has (s : List Int) (c : Int) : Prop := contains s c = .ok true

instance (s : List Int) (c : Int) : Decidable (Has s c) := inferInstanceAs (Decidable (_ = _))

theorem has_iff {l : List Int} (h : WellFormed l) {c : Int} (hc : IsCodePoint c) : Has l c ↔ mem l c = true := by
  unfold Has
  rw [contains_eq h (cp_high hc).2]
  constructor
  · intro h; injection h
  · intro h; rw [h]

/-- `c in s` never raises on a well-formed set: it is `True` or `False`. -/
theorem contains_total {l : List Int} (h : WellFormed l) {c : Int} (hc : IsCodePoint c) :
    ∃ b, contains l c = .ok b := ⟨_, contains_eq h (cp_high hc).2⟩

/-! ## C01–C04: the four binary operations -/

/-- C01. `a.union(b)` and `a.addAll(b)` return, and contain exactly what is in `a` or in `b`. -/
theorem union_pointwise {a b : List Int} (ha : WellFormed a) (hb : WellFormed b) :
    ∃ r, union a b = .ok r ∧ addAll a b = .ok r ∧ WellFormed r ∧
      ∀ c, IsCodePoint c → (Has r c ↔ Has a c ∨ Has b c) := by
  obtain ⟨r, h1, h2, h3⟩ := addList_ok ha hb
  refine ⟨r, h1, h1, h2, fun c hc => ?_⟩
  rw [has_iff h2 hc, has_iff ha hc, has_iff hb hc, h3 c (cp_high hc).2]
  simp

example : WellFormed [3, 10, 20, 30, 0x110000] ∧ WellFormed [5, 12, 0x110000] ∧
    union [3, 10, 20, 30, 0x110000] [5, 12, 0x110000] = .ok [3, 12, 20, 30, 0x110000] := by decide

/-- C02. `a.intersection(b)` and `a.retainAll(b)`. -/
theorem intersection_pointwise {a b : List Int} (ha : WellFormed a) (hb : WellFormed b) :
    ∃ r, intersection a b = .ok r ∧ retainAll a b = .ok r ∧ WellFormed r ∧
      ∀ c, IsCodePoint c → (Has r c ↔ Has a c ∧ Has b c) := by
  obtain ⟨r, h1, h2, h3⟩ := retainList_ok ha hb false false
  refine ⟨r, h1, h1, h2, fun c hc => ?_⟩
  rw [has_iff h2 hc, has_iff ha hc, has_iff hb hc, h3 c (cp_high hc).2]
  simp

example : intersection [3, 10, 20, 30, 0x110000] [5, 25, 0x110000] = .ok [5, 10, 20, 25, 0x110000] := by decide

/-- C03. `a.difference(b)` and `a.removeAll(b)`. -/
theorem difference_pointwise {a b : List Int} (ha : WellFormed a) (hb : WellFormed b) :
    ∃ r, difference a b = .ok r ∧ removeAll a b = .ok r ∧ WellFormed r ∧
      ∀ c, IsCodePoint c → (Has r c ↔ Has a c ∧ ¬ Has b c) := by
  obtain ⟨r, h1, h2, h3⟩ := retainList_ok ha hb false true
  refine ⟨r, h1, h1, h2, fun c hc => ?_⟩
  rw [has_iff h2 hc, has_iff ha hc, has_iff hb hc, h3 c (cp_high hc).2]
  simp

example : difference [3, 10, 20, 30, 0x110000] [5, 25, 0x110000] = .ok [3, 5, 25, 30, 0x110000] := by decide

/-- C04. `a.symmetric_difference(b)` and `a.complementAll(b)`. -/
theorem symmetricDifference_pointwise {a b : List Int} (ha : WellFormed a) (hb : WellFormed b) :
    ∃ r, symmetricDifference a b = .ok r ∧ complementAll a b = .ok r ∧ WellFormed r ∧
      ∀ c, IsCodePoint c → (Has r c ↔ (Has a c ∧ ¬ Has b c) ∨ (¬ Has a c ∧ Has b c)) := by
  obtain ⟨r, h1, h2, h3⟩ := exclusiveOrList_ok ha hb
  refine ⟨r, h1, h1, h2, fun c hc => ?_⟩
  rw [has_iff h2 hc, has_iff ha hc, has_iff hb hc, h3 c (cp_high hc).2]
  cases mem a c <;> cases mem b c <;> simp

example : symmetricDifference [3, 10, 0x110000] [5, 25, 0x110000] = .ok [3, 5, 10, 25, 0x110000] := by decide

/-! ## C05: complement -/

/-- C05, membership: complement flips every code point, so twice restores the membership. -/
theorem complement_pointwise {a : List Int} (ha : WellFormed a) :
    ∃ r, complement a = .ok r ∧ WellFormed r ∧ ∀ c, IsCodePoint c → (Has r c ↔ ¬ Has a c) := by
  obtain ⟨r, h1, h2, h3, _⟩ := complement_ok ha
  refine ⟨r, h1, h2, fun c hc => ?_⟩
  rw [has_iff h2 hc, has_iff ha hc, h3 c hc.1]
  cases mem a c <;> simp

/-- C05, twice: the very same list, for canonical sets. -/
theorem complement_involutive_partial {a : List Int} (ha : Canonical a) :
    ∃ r, complement a = .ok r ∧ complement r = .ok a := by
  obtain ⟨x, xs, rfl⟩ := wf_cases ha.1
  have hc : ∀ y ys, complement (y :: ys) = if y = 0 then .ok ys else .ok (0 :: y :: ys) := by
    intro y ys
    unfold complement
    rw [pyGet_zero]
    rfl
  by_cases h : x = 0
  · subst h
    obtain ⟨y, ys, rfl, hw, _, _⟩ := wf_pop ha.1 (by simp [HIGH])
    have hy : (0 : Int) < y := (List.pairwise_cons.mp ha.2).1 y (by simp)
    exact ⟨y :: ys, by rw [hc, if_pos rfl], by rw [hc, if_neg (by omega)]⟩
  · exact ⟨0 :: x :: xs, by rw [hc, if_neg h], by rw [hc, if_pos rfl]⟩

/-- C05, the full claim fails: `UnicodeSet(range(0, 0))` complemented twice has a different state
(missing in `complement_involutive_partial`: sets that are well-formed but not canonical). -/
theorem complement_involutive_refuted :
    ¬ ∀ a, WellFormed a → ∃ r, complement a = .ok r ∧ complement r = .ok a := by
  intro h
  obtain ⟨r, h1, h2⟩ := h (newRange 0 0) (by decide)
  have : complement (newRange 0 0) = .ok [0, 0x110000] := by decide
  rw [this] at h1; cases h1
  exact absurd h2 (by decide)

example : Canonical [0, 5, 9, 0x110000] ∧ complement [0, 5, 9, 0x110000] = .ok [5, 9, 0x110000] := by decide

/-! ## C06, C16, C17: histories of calls on any number of sets -/

/-- Legal example history: three sets, in-place and copying operations. -/
def demoHistory : List Op :=
  [.newRange 0x41 0x5B, .newInt 0x61, .addRange 1 0x62 0x7A, .union 0 1, .removeRange 2 0x50 0x69,
   .newCopy 2, .complement 3, .add 3 0x41, .retainAll 3 2]

example : LegalHistory 0 demoHistory ∧ (∀ op ∈ demoHistory, op.Supported) := by decide

/-- C17. Every legal history, starting without any set, runs to the end without an exception and without
running out of loop fuel, and afterwards all sets are well-formed. -/
theorem history_terminates {ops : List Op} (hl : LegalHistory 0 ops) :
    ∃ h, run Heap.empty ops = .ok h ∧
      ∀ x, x < h.objs.length → ∃ l, h.read x = .ok l ∧ WellFormed l := by
  obtain ⟨h, h1, h2⟩ := run_ok ops heapOk_empty hl
  exact ⟨h, h1, h2.2⟩

/-- C17, queries: on a well-formed set every query with legal arguments returns. -/
theorem queries_terminate {l : List Int} (h : WellFormed l) :
    (∀ c, IsCodePoint c → ∃ b, contains l c = .ok b) ∧
    (∀ a b, a < b → b ≤ 0x110000 → ∃ v, containsRange l a b = .ok v) ∧
    (∃ n, size l = .ok n) ∧
    (∀ i : Nat, i < getRangeCount l → (∃ s, getRangeStart l i = .ok s) ∧ (∃ e, getRangeEnd l i = .ok e)) := by
  refine ⟨fun c hc => contains_total h hc, fun a b hab hb => containsRange_total h hab hb, ⟨_, size_ok h.1⟩, ?_⟩
  intro i hi
  unfold getRangeCount at hi
  constructor
  · unfold getRangeStart
    have : ((i : Int) * 2) = ((i * 2 : Nat) : Int) := by omega
    rw [this, pyGet_nat (by omega)]
    exact ⟨_, rfl⟩
  · unfold getRangeEnd
    have : ((i : Int) * 2 + 1) = ((i * 2 + 1 : Nat) : Int) := by omega
    rw [this, pyGet_nat (by omega)]
    exact ⟨_, rfl⟩

/-- A list value some legal history gives to some set object. -/
def Reachable (l : List Int) : Prop :=
  ∃ ops h x, LegalHistory 0 ops ∧ run Heap.empty ops = .ok h ∧ h.read x = .ok l

/-- Every set produced by the API is well-formed. -/
theorem reachable_wellFormed {l : List Int} (h : Reachable l) : WellFormed l := by
  obtain ⟨ops, hp, x, h1, h2, h3⟩ := h
  obtain ⟨hp', h4, h5⟩ := history_terminates h1
  rw [h2] at h4; cases h4
  obtain ⟨l', h6, h7⟩ := h5 x (read_lt h3)
  rw [h3] at h6; cases h6
  exact h7

/-- C06. After any legal history of supported calls, `c in s` answers for every set what the
reference set subjected to the same calls answers. Missing from the full property: the calls that are no-ops
in the code although documented otherwise (`Op.Supported`); see `history_refines_refuted`. -/
theorem history_refines_partial {ops : List Op} (hl : LegalHistory 0 ops) (hs : ∀ op ∈ ops, op.Supported) :
    ∃ h, run Heap.empty ops = .ok h ∧ h.objs.length = (refRun [] ops).length ∧
      ∀ x, x < h.objs.length → ∀ c, IsCodePoint c →
        ∃ b, h.contains x c = .ok b ∧ (b = true ↔ refGet (refRun [] ops) x c) := by
  obtain ⟨h, h1, h2, h3⟩ := sim_run ops (S := []) heapOk_empty hl hs ⟨rfl, by simp [Heap.empty]⟩
  refine ⟨h, h1, h3.1.symm, fun x hx c hc => ?_⟩
  obtain ⟨l, hl, hw⟩ := h2.2 x hx
  refine ⟨mem l c, ?_, h3.2 x hx l hl c hc⟩
  simp only [Heap.contains, hl, bind, Except.bind]
  exact contains_eq hw (cp_high hc).2

/-- C06, the full claim fails: after `s = UnicodeSet(0x41); s.remove(0x41)` the set still contains 0x41. -/
theorem history_refines_refuted :
    ¬ ∀ ops, LegalHistory 0 ops → ∃ h, run Heap.empty ops = .ok h ∧
      ∀ x, x < h.objs.length → ∀ c, IsCodePoint c →
        ∃ b, h.contains x c = .ok b ∧ (b = true ↔ refGet (refRun [] ops) x c) := by
  intro h
  obtain ⟨hp, h1, h2⟩ := h [.newInt 0x41, .remove 0 0x41] (by decide)
  have hr : run Heap.empty [.newInt 0x41, .remove 0 0x41] = .ok ⟨[0], [[0x41, 0x42, 0x110000]]⟩ := rfl
  rw [hr] at h1; cases h1
  obtain ⟨b, h3, h4⟩ := h2 0 (by decide) 0x41 (by decide)
  have h5 : (Heap.mk [0] [[0x41, 0x42, 0x110000]]).contains 0 0x41 = .ok true := by decide
  rw [h5] at h3; cases h3
  have h6 := h4.mp rfl
  exact h6.2 rfl

/-- C16. Operations touch only their receiver: along any legal history, however long, the list of
a set that is never the receiver of a mutator stays the same. In particular copies stay independent
and operands of the copying operators do not change. -/
theorem no_aliasing {ops1 ops2 : List Op} (hl : LegalHistory 0 (ops1 ++ ops2)) :
    ∃ h1 h2, run Heap.empty ops1 = .ok h1 ∧ run h1 ops2 = .ok h2 ∧
      ∀ y, y < h1.objs.length → (∀ op ∈ ops2, op.receiver ≠ some y) → h2.read y = h1.read y := by
  have hsplit : ∀ (ops1 : List Op) (n : Nat), LegalHistory n (ops1 ++ ops2) →
      LegalHistory n ops1 ∧ LegalHistory (ops1.foldl (fun n op => op.count n) n) ops2 := by
    intro ops1
    induction ops1 with
    | nil => intro n h; exact ⟨trivial, h⟩
    | cons op ops ih => intro n h; exact ⟨⟨h.1, (ih _ h.2).1⟩, (ih _ h.2).2⟩
  have hlen : ∀ (ops : List Op) {h h' : Heap}, HeapOk h → LegalHistory h.objs.length ops → run h ops = .ok h' →
      h'.objs.length = ops.foldl (fun n op => op.count n) h.objs.length := by
    intro ops
    induction ops with
    | nil => intro h h' _ _ hr; simp [run] at hr; rw [hr]; rfl
    | cons op ops ih =>
      intro h h' hh hl hr
      obtain ⟨v, g, ret, hs, hok, _⟩ := step_ok hh hl.1
      simp only [run, hs.1, bind, Except.bind] at hr
      rw [ih hok (by rw [hs.2.2.1]; exact hl.2) hr, hs.2.2.1]; rfl
  obtain ⟨l1, l2⟩ := hsplit ops1 0 hl
  obtain ⟨h1, r1, ok1⟩ := run_ok ops1 heapOk_empty l1
  have e1 := hlen ops1 heapOk_empty l1 r1
  obtain ⟨h2, r2, ok2⟩ := run_ok ops2 ok1 (by rw [e1]; exact l2)
  exact ⟨h1, h2, r1, r2, fun y hy hne => run_frame ops2 ok1 (by rw [e1]; exact l2) r2 y hy hne⟩

example : LegalHistory 0 ([.newRange 1 5, .newCopy 0] ++ [.complement 1, .addRange 1 7 9, .union 0 1]) ∧
    ∀ op ∈ [Op.complement 1, .addRange 1 7 9, .union 0 1], op.receiver ≠ some 0 := by decide

/-! ## C07: add, addRange -/

/-- C07. `add(cp)` adds exactly `cp`. -/
theorem add_pointwise {a : List Int} (ha : WellFormed a) {cp : Int} (hcp : IsCodePoint cp) :
    ∃ r, add a cp = .ok r ∧ WellFormed r ∧ ∀ c, IsCodePoint c → (Has r c ↔ Has a c ∨ c = cp) := by
  obtain ⟨r, h1, h2, h3, _⟩ := add_ok ha hcp
  refine ⟨r, h1, h2, fun c hc => ?_⟩
  rw [has_iff h2 hc, has_iff ha hc, h3 c (cp_high hc).2]; simp

/-- C07. `addRange(s, e)` adds exactly `s..e`. -/
theorem addRange_pointwise {a : List Int} (ha : WellFormed a) {s e : Int} (hs : IsCodePoint s) (he : IsCodePoint e)
    (hse : s ≤ e) :
    ∃ r, addRange a s e = .ok r ∧ WellFormed r ∧
      ∀ c, IsCodePoint c → (Has r c ↔ Has a c ∨ (s ≤ c ∧ c ≤ e)) := by
  obtain ⟨r, h1, h2, h3⟩ := addRange_ok ha hs he hse
  refine ⟨r, h1, h2, fun c hc => ?_⟩
  rw [has_iff h2 hc, has_iff ha hc, h3 c (cp_high hc).2]; simp

example : add [3, 5, 0x110000] 5 = .ok [3, 6, 0x110000] ∧ addRange [3, 5, 9, 12, 0x110000] 4 9 = .ok [3, 12, 0x110000] := by
  decide

/-! ## C08: single code point remove, retain, complement -/

/-- C08, what the code does: the three calls leave every set unchanged. -/
theorem single_calls_are_noops (a : List Int) (cp : Int) :
    remove a cp = .ok a ∧ retain a cp = .ok a ∧ complementInt a cp = .ok a := by
  refine ⟨?_, ?_, ?_⟩
  · unfold remove removeRange; rw [if_neg (Int.lt_irrefl _)]
  · unfold retain retainRange; rw [if_neg (Int.lt_irrefl _)]
  · unfold complementInt complementRange; rw [if_neg (Int.lt_irrefl _)]

/-- C08, the documented effect of the three calls. -/
def SingleCallsWork : Prop :=
  ∀ a cp, WellFormed a → IsCodePoint cp →
    (∃ r, remove a cp = .ok r ∧ ∀ c, IsCodePoint c → (Has r c ↔ Has a c ∧ c ≠ cp)) ∧
    (∃ r, retain a cp = .ok r ∧ ∀ c, IsCodePoint c → (Has r c ↔ Has a c ∧ c = cp)) ∧
    (∃ r, complementInt a cp = .ok r ∧ ∀ c, IsCodePoint c → (Has r c ↔ ¬ (Has a c ↔ c = cp)))

/-- C08 fails. -/
theorem single_calls_refuted : ¬ SingleCallsWork := by
  intro h
  obtain ⟨⟨r, h1, h2⟩, _⟩ := h [0x41, 0x42, 0x110000] 0x41 (by decide) (by decide)
  rw [(single_calls_are_noops _ _).1] at h1
  cases h1
  have := (h2 0x41 (by decide)).mp (by decide)
  exact this.2 rfl

/-- C08, the cases in which the documented effect happens to hold: when it would change nothing. Missing:
all cases where `remove`/`retain` would have to remove something, and every `complement(cp)`. -/
theorem single_calls_partial {a : List Int} (cp : Int) :
    (¬ Has a cp → ∃ r, remove a cp = .ok r ∧ ∀ c, IsCodePoint c → (Has r c ↔ Has a c ∧ c ≠ cp)) ∧
    ((∀ c, Has a c → c = cp) → ∃ r, retain a cp = .ok r ∧ ∀ c, IsCodePoint c → (Has r c ↔ Has a c ∧ c = cp)) := by
  obtain ⟨h1, h2, _⟩ := single_calls_are_noops a cp
  refine ⟨fun hn => ⟨a, h1, fun c _ => ⟨fun h => ⟨h, fun e => hn (e ▸ h)⟩, fun h => h.1⟩⟩,
    fun hn => ⟨a, h2, fun c _ => ⟨fun h => ⟨h, hn c h⟩, fun h => h.1⟩⟩⟩

example : ¬ Has [0x41, 0x42, 0x110000] 0x43 := by decide

/-! ## C09: range remove, retain, complement -/

/-- C09 for ranges of at least two code points (`s < e`). Missing: `s = e`, see `range_calls_refuted`. -/
theorem range_calls_partial {a : List Int} (ha : WellFormed a) {s e : Int} (hs : IsCodePoint s) (he : IsCodePoint e)
    (hse : s < e) :
    (∃ r, removeRange a s e = .ok r ∧ WellFormed r ∧ ∀ c, IsCodePoint c → (Has r c ↔ Has a c ∧ ¬ (s ≤ c ∧ c ≤ e))) ∧
    (∃ r, retainRange a s e = .ok r ∧ WellFormed r ∧ ∀ c, IsCodePoint c → (Has r c ↔ Has a c ∧ (s ≤ c ∧ c ≤ e))) ∧
    (∃ r, complementRange a s e = .ok r ∧ WellFormed r ∧
      ∀ c, IsCodePoint c → (Has r c ↔ ¬ (Has a c ↔ (s ≤ c ∧ c ≤ e)))) := by
  refine ⟨?_, ?_, ?_⟩
  · obtain ⟨v, h1, h2, h3, _⟩ := retainRange_aux ha hs he true
    refine ⟨v, h1, h2, fun c hc => ?_⟩
    rw [has_iff h2 hc, has_iff ha hc, h3 hse c (cp_high hc).2]
    by_cases hin : s ≤ c ∧ c ≤ e <;> cases mem a c <;> simp [hin]
  · obtain ⟨v, h1, h2, h3, _⟩ := retainRange_aux ha hs he false
    refine ⟨v, h1, h2, fun c hc => ?_⟩
    rw [has_iff h2 hc, has_iff ha hc, h3 hse c (cp_high hc).2]
    by_cases hin : s ≤ c ∧ c ≤ e <;> cases mem a c <;> simp [hin]
  · obtain ⟨v, h1, h2, h3, _⟩ := xorRange_aux ha hs he
    refine ⟨v, h1, h2, fun c hc => ?_⟩
    rw [has_iff h2 hc, has_iff ha hc, h3 hse c (cp_high hc).2]
    by_cases hin : s ≤ c ∧ c ≤ e <;> cases mem a c <;> simp [hin]

example : removeRange [3, 30, 0x110000] 5 9 = .ok [3, 5, 10, 30, 0x110000] := by decide

/-- C09 fails for a range of one code point: `removeRange(5, 5)` removes nothing. -/
theorem range_calls_refuted :
    ¬ ∀ a s e, WellFormed a → IsCodePoint s → IsCodePoint e → s ≤ e →
      ∃ r, removeRange a s e = .ok r ∧ ∀ c, IsCodePoint c → (Has r c ↔ Has a c ∧ ¬ (s ≤ c ∧ c ≤ e)) := by
  intro h
  obtain ⟨r, h1, h2⟩ := h [3, 30, 0x110000] 5 5 (by decide) (by decide) (by decide) (by decide)
  have : removeRange [3, 30, 0x110000] 5 5 = .ok [3, 30, 0x110000] := by decide
  rw [this] at h1; cases h1
  exact ((h2 5 (by decide)).mp (by decide)).2 (by decide)

/-! ## C10: equality -/

/-- C10, one direction on all sets: equal sets have the same members. -/
theorem eq_same_members {a b : List Int} (h : eq a b = true) : ∀ c, (Has a c ↔ Has b c) := by
  unfold eq at h
  simp at h
  subst h
  exact fun _ => Iff.rfl

/-- C10 for canonical sets. Missing: sets that are not canonical, see `eq_extensional_refuted`; the
operations that keep sets canonical are listed in `canonical_history_partial`. -/
theorem eq_extensional_partial {a b : List Int} (ha : Canonical a) (hb : Canonical b) :
    (eq a b = true ↔ ∀ c, IsCodePoint c → (Has a c ↔ Has b c)) ∧
    (ne a b = true ↔ ∃ c, IsCodePoint c ∧ ¬ (Has a c ↔ Has b c)) := by
  have key : eq a b = true ↔ ∀ c, IsCodePoint c → (Has a c ↔ Has b c) := by
    constructor
    · intro h c _; exact eq_same_members h c
    · intro h
      have : a = b := by
        apply canonical_ext ha hb
        intro c hc
        have := h c hc
        rw [has_iff ha.1 hc, has_iff hb.1 hc] at this
        cases h1 : mem a c <;> cases h2 : mem b c <;> simp_all
      simp [eq, this]
  refine ⟨key, ?_⟩
  unfold ne
  rw [Bool.not_eq_true', ← Bool.not_eq_true, key]
  constructor
  · intro h
    apply Classical.byContradiction
    intro hn
    apply h
    intro c hc
    apply Classical.byContradiction
    intro hx
    exact hn ⟨c, hc, hx⟩
  · rintro ⟨c, hc, hx⟩ h
    exact hx (h c hc)

example : Canonical [3, 5, 9, 0x110000] := by decide

/-- C10 fails in general: `UnicodeSet(range(0, 10)) | {0..4, 10..19}` and `UnicodeSet(range(0, 20))` have
the same members but are not equal. -/
theorem eq_extensional_refuted :
    ¬ ∀ a b, Reachable a → Reachable b → ((∀ c, IsCodePoint c → (Has a c ↔ Has b c)) → eq a b = true) := by
  intro h
  have ra : Reachable [0, 10, 10, 20, 0x110000] := by
    refine ⟨[.newRange 0 10, .newRange 0 5, .addRange 1 10 19, .union 0 1], _, 2, by decide, rfl, rfl⟩
  have rb : Reachable [0, 20, 0x110000] := ⟨[.newRange 0 20], _, 0, by decide, rfl, rfl⟩
  have := h _ _ ra rb ?_
  · exact absurd this (by decide)
  · intro c hc
    rw [has_iff (reachable_wellFormed ra) hc, has_iff (reachable_wellFormed rb) hc]
    simp only [mem_cons, mem_nil]
    grind

/-! ## C11: canonical form -/

/-- The calls that keep all sets canonical. Excluded: `addAll`/`union` (finding: `_addList` does not merge
a range starting exactly where the last one ended) and the constructors for an empty range or one reaching
0x10FFFF. -/
def KeepsCanonical : Op → Prop
  | .newInt cp => cp ≠ 0x10FFFF
  | .newRange s e => s < e ∧ e < 0x110000
  | .addAll _ _ | .union _ _ => False
  | _ => True

instance (op : Op) : Decidable (KeepsCanonical op) := by
  cases op <;> unfold KeepsCanonical <;> infer_instance

theorem val_canonical {rd : Nat → Py (List Int)} {n : Nat} (hrd : ∀ x, x < n → ∃ l, rd x = .ok l ∧ Canonical l)
    {op : Op} (hop : op.Legal n) (hk : KeepsCanonical op) {v : List Int} (hv : val rd op = .ok v) :
    v.Pairwise (· < ·) := by
  have one : ∀ {s e : Int}, 0 ≤ s → s < e → e ≤ HIGH → WellFormed [s, e, HIGH] ∧ StrictBelow [s, e, HIGH] :=
    fun h1 h2 h3 => ⟨wf_range h1 (by omega) h3, strictBelow_range h2⟩
  have ret : ∀ {l s e pb v}, Canonical l → IsCodePoint s → IsCodePoint e →
      (if pinCodePoint s < pinCodePoint e then retainList l [s, e + 1, HIGH] false pb else .ok l) = .ok v → v.Pairwise (· < ·) := by
    intro l s e pb v hl hs he h
    have hs' := cp_high hs
    have he' := cp_high he
    simp only [pin_lt hs he] at h
    split at h
    · obtain ⟨w1, w2⟩ := one hs'.1 (by omega : s < e + 1) (by omega)
      exact retainList_strict hl.1 w1 (strictBelow_of_strict hl.2) w2 h
    · cases h; exact hl.2
  have xor : ∀ {l s e v}, Canonical l → IsCodePoint s → IsCodePoint e →
      complementRange l s e = .ok v → v.Pairwise (· < ·) := by
    intro l s e v hl hs he h
    have hs' := cp_high hs
    have he' := cp_high he
    unfold complementRange at h
    simp only [pin_lt hs he] at h
    split at h
    · obtain ⟨w1, w2⟩ := one hs'.1 (by omega : s < e + 1) (by omega)
      exact exclusiveOrList_strict hl.1 w1 (strictBelow_of_strict hl.2) w2 h
    · cases h; exact hl.2
  cases op with
  | new => cases hv; simp [new]
  | newCopy x =>
    obtain ⟨l, hl, hc⟩ := hrd x hop
    simp only [val, hl, bind, Except.bind] at hv; cases hv; exact hc.2
  | newInt cp =>
    have h1 : IsCodePoint cp := hop
    have h2 : cp ≠ 0x10FFFF := hk
    cases hv
    unfold IsCodePoint at h1
    simp [newInt, HIGH]; omega
  | newRange s e =>
    have h1 : 0 ≤ s ∧ s ≤ e ∧ e ≤ 0x110000 := hop
    have h2 : s < e ∧ e < 0x110000 := hk
    cases hv
    simp [newRange, HIGH]; omega
  | add x cp =>
    obtain ⟨hx, hcp⟩ := hop
    obtain ⟨l, hl, hc⟩ := hrd x hx
    obtain ⟨r, h1, _, _, h4⟩ := add_ok hc.1 hcp
    simp only [val, hl, bind, Except.bind, h1] at hv; cases hv
    exact h4 hc.2
  | addRange x s e =>
    obtain ⟨hx, hs, he⟩ := hop
    obtain ⟨l, hl, hc⟩ := hrd x hx
    simp only [val, hl, bind, Except.bind, addRange] at hv
    by_cases hse : s ≤ e
    · cases hr : addRangeRet l s e with
      | error _ => rw [hr] at hv; cases hv
      | ok p =>
        rw [hr] at hv; cases hv
        exact addRangeRet_strict hc.1 hc.2 hs he hse (b := p.2) hr
    · unfold addRangeRet at hv
      simp only [pin_lt hs he] at hv
      rw [if_neg (by omega), if_neg (by omega)] at hv
      cases hv; exact hc.2
  | addAll x y => exact hk.elim
  | union x y => exact hk.elim
  | remove x cp =>
    obtain ⟨hx, hcp⟩ := hop
    obtain ⟨l, hl, hc⟩ := hrd x hx
    simp only [val, hl, bind, Except.bind] at hv
    exact ret hc hcp hcp hv
  | retain x cp =>
    obtain ⟨hx, hcp⟩ := hop
    obtain ⟨l, hl, hc⟩ := hrd x hx
    simp only [val, hl, bind, Except.bind] at hv
    exact ret hc hcp hcp hv
  | complementInt x cp =>
    obtain ⟨hx, hcp⟩ := hop
    obtain ⟨l, hl, hc⟩ := hrd x hx
    simp only [val, hl, bind, Except.bind] at hv
    exact xor hc hcp hcp hv
  | removeRange x s e =>
    obtain ⟨hx, hs, he⟩ := hop
    obtain ⟨l, hl, hc⟩ := hrd x hx
    simp only [val, hl, bind, Except.bind] at hv
    exact ret hc hs he hv
  | retainRange x s e =>
    obtain ⟨hx, hs, he, _⟩ := hop
    obtain ⟨l, hl, hc⟩ := hrd x hx
    simp only [val, hl, bind, Except.bind] at hv
    exact ret hc hs he hv
  | complementRange x s e =>
    obtain ⟨hx, hs, he⟩ := hop
    obtain ⟨l, hl, hc⟩ := hrd x hx
    simp only [val, hl, bind, Except.bind] at hv
    exact xor hc hs he hv
  | complementPyRange x s e =>
    obtain ⟨hx, h0, hse, heH, hsH⟩ := hop
    obtain ⟨l, hl, hc⟩ := hrd x hx
    simp only [val, hl, bind, Except.bind] at hv
    by_cases he0 : e = 0
    · have hs0 : s = 0 := by omega
      subst hs0; subst he0
      simp only [complementPyRange, complementRange] at hv
      rw [if_neg (by decide)] at hv
      cases hv; exact hc.2
    · exact xor (s := s) (e := e - 1) hc ⟨h0, hsH⟩ ⟨by omega, by omega⟩ hv
  | removeAll x y =>
    obtain ⟨hx, hy⟩ := hop
    obtain ⟨l, hl, hc⟩ := hrd x hx
    obtain ⟨m, hm, hc'⟩ := hrd y hy
    simp only [val, hl, hm, bind, Except.bind] at hv
    exact retainList_strict hc.1 hc'.1 (strictBelow_of_strict hc.2) (strictBelow_of_strict hc'.2) hv
  | difference x y =>
    obtain ⟨hx, hy⟩ := hop
    obtain ⟨l, hl, hc⟩ := hrd x hx
    obtain ⟨m, hm, hc'⟩ := hrd y hy
    simp only [val, hl, hm, bind, Except.bind] at hv
    exact retainList_strict hc.1 hc'.1 (strictBelow_of_strict hc.2) (strictBelow_of_strict hc'.2) hv
  | retainAll x y =>
    obtain ⟨hx, hy⟩ := hop
    obtain ⟨l, hl, hc⟩ := hrd x hx
    obtain ⟨m, hm, hc'⟩ := hrd y hy
    simp only [val, hl, hm, bind, Except.bind] at hv
    exact retainList_strict hc.1 hc'.1 (strictBelow_of_strict hc.2) (strictBelow_of_strict hc'.2) hv
  | intersection x y =>
    obtain ⟨hx, hy⟩ := hop
    obtain ⟨l, hl, hc⟩ := hrd x hx
    obtain ⟨m, hm, hc'⟩ := hrd y hy
    simp only [val, hl, hm, bind, Except.bind] at hv
    exact retainList_strict hc.1 hc'.1 (strictBelow_of_strict hc.2) (strictBelow_of_strict hc'.2) hv
  | complementAll x y =>
    obtain ⟨hx, hy⟩ := hop
    obtain ⟨l, hl, hc⟩ := hrd x hx
    obtain ⟨m, hm, hc'⟩ := hrd y hy
    simp only [val, hl, hm, bind, Except.bind] at hv
    exact exclusiveOrList_strict hc.1 hc'.1 (strictBelow_of_strict hc.2) (strictBelow_of_strict hc'.2) hv
  | symmetricDifference x y =>
    obtain ⟨hx, hy⟩ := hop
    obtain ⟨l, hl, hc⟩ := hrd x hx
    obtain ⟨m, hm, hc'⟩ := hrd y hy
    simp only [val, hl, hm, bind, Except.bind] at hv
    exact exclusiveOrList_strict hc.1 hc'.1 (strictBelow_of_strict hc.2) (strictBelow_of_strict hc'.2) hv
  | complement x =>
    obtain ⟨l, hl, hc⟩ := hrd x hop
    obtain ⟨r, h1, _, _, h4⟩ := complement_ok hc.1
    simp only [val, hl, bind, Except.bind, h1] at hv; cases hv
    exact h4 hc.2
  | clear x =>
    obtain ⟨l, hl, hc⟩ := hrd x hop
    simp only [val, hl, bind, Except.bind] at hv; cases hv; simp [clear]

/-- Every set of the heap is canonical. -/
def AllCanonical (h : Heap) : Prop := ∀ x, x < h.objs.length → ∃ l, h.read x = .ok l ∧ Canonical l

/-- C11. Any legal history of calls from `KeepsCanonical` leaves all sets canonical: sorted, disjoint,
non-empty, non-adjacent ranges. Missing: `addAll`/`union` and two constructor cases, see
`canonical_history_refuted`. -/
theorem canonical_history_partial {ops : List Op} (hl : LegalHistory 0 ops) (hk : ∀ op ∈ ops, KeepsCanonical op) :
    ∃ h, run Heap.empty ops = .ok h ∧ AllCanonical h := by
  have gen : ∀ (ops : List Op) {h : Heap}, HeapOk h → AllCanonical h → LegalHistory h.objs.length ops →
      (∀ op ∈ ops, KeepsCanonical op) → ∃ h', run h ops = .ok h' ∧ AllCanonical h' := by
    intro ops
    induction ops with
    | nil => intro h _ hc _ _; exact ⟨h, rfl, hc⟩
    | cons op ops ih =>
      intro h hh hc hl hk
      obtain ⟨v, h1, ret, hs, hok, hval, hv⟩ := step_ok hh hl.1
      have hcv : Canonical v := ⟨hval.1, val_canonical hc hl.1 (hk op (by simp)) hv⟩
      have hc1 : AllCanonical h1 := by
        intro x hx
        obtain ⟨_, _, hcnt, htgt, hfr, _⟩ := hs
        by_cases hxt : x = op.target h.objs.length
        · exact ⟨v, hxt ▸ htgt, hcv⟩
        · have hxn : x < h.objs.length ∧ op.receiver ≠ some x := by
            unfold Op.target at hxt
            unfold Op.count at hcnt
            cases hr : op.receiver with
            | none => rw [hr] at hxt hcnt; simp at hxt hcnt; exact ⟨by omega, by simp⟩
            | some z => rw [hr] at hxt hcnt; simp at hxt hcnt; exact ⟨by omega, by simp; exact fun h => hxt h.symm⟩
          rw [hfr x hxn.1 hxn.2]
          exact hc x hxn.1
      obtain ⟨h2, hr, hc2⟩ := ih hok hc1 (by rw [hs.2.2.1]; exact hl.2) (fun o ho => hk o (by simp [ho]))
      exact ⟨h2, by simp only [run, hs.1, bind, Except.bind]; exact hr, hc2⟩
  exact gen ops heapOk_empty (by intro x hx; simp [Heap.empty] at hx) hl hk

example : LegalHistory 0 [.newRange 1 5, .newInt 5, .newCopy 0, .symmetricDifference 0 1, .add 2 0x10FFFF, .complement 2] ∧
    ∀ op ∈ [Op.newRange 1 5, .newInt 5, .newCopy 0, .symmetricDifference 0 1, .add 2 0x10FFFF, .complement 2],
      KeepsCanonical op := by decide

/-- C11 fails in general: `_addList` leaves adjacent ranges unmerged, and `UnicodeSet(0x10FFFF)` has a
duplicate boundary. -/
theorem canonical_history_refuted :
    Reachable [0, 10, 10, 20, 0x110000] ∧ ¬ Canonical [0, 10, 10, 20, 0x110000] ∧
    Reachable [0x10FFFF, 0x110000, 0x110000] ∧ ¬ Canonical [0x10FFFF, 0x110000, 0x110000] :=
  ⟨⟨[.newRange 0 10, .newRange 0 5, .addRange 1 10 19, .union 0 1], _, 2, by decide, rfl, rfl⟩, by decide,
    ⟨[.newInt 0x10FFFF], _, 0, by decide, rfl, rfl⟩, by decide⟩

/-! ## C12–C14: size, iteration, indexing -/

/-- The characteristic function of a set, as observed through `in`. -/
def has (l : List Int) (c : Int) : Bool := decide (Has l c)

theorem membersOf_has {l : List Int} (hl : WellFormed l) : membersOf (has l) = membersOf (mem l) := by
  unfold membersOf
  apply List.filter_congr
  intro c hc
  have := has_iff hl (mem_codePoints.mp hc)
  unfold has
  cases h : mem l c <;> simp_all

/-- C12. `size()` (and `len(s)`) is the number of code points `c` with `c in s`. -/
theorem size_counts_members {l : List Int} (hl : WellFormed l) :
    size l = .ok ((membersOf (has l)).length : Int) := by
  rw [size_ok hl.1, iter_eq_membersOf hl, membersOf_has hl]

example : size [3, 10, 20, 30, 0x110000] = .ok 17 := by decide

/-- C13. Iteration yields exactly the members, ascending and without repetition. -/
theorem iter_yields_members {l : List Int} (hl : WellFormed l) : iter l = membersOf (has l) := by
  rw [iter_eq_membersOf hl, membersOf_has hl]

/-- C13. The ranges of `getRanges()`, expanded in order, are the members ascending. -/
theorem getRanges_expand {l : List Int} (hl : WellFormed l) :
    (getRanges l).flatMap (fun r => pyRange r.1 r.2) = membersOf (has l) := by
  rw [getRanges_flatMap, iter_yields_members hl]

theorem getRanges_boundaries : ∀ (l : List Int) (i : Nat) (r : Int × Int), (getRanges l)[i]? = some r →
    l[2 * i]? = some r.1 ∧ l[2 * i + 1]? = some r.2
  | s :: e :: t, 0, r, h => by simp [getRanges] at h; subst h; simp
  | s :: e :: t, i + 1, r, h => by
    simp only [getRanges, List.getElem?_cons_succ] at h
    have := getRanges_boundaries t i r h
    simpa [Nat.mul_add] using this
  | [], i, r, h => by simp [getRanges] at h
  | [_], i, r, h => by simp [getRanges] at h

/-- C13, for canonical sets: every range is non-empty and consecutive ranges are separated by a gap, so
`getRanges()` lists the maximal runs. -/
theorem getRanges_maximal {l : List Int} (hl : Canonical l) {i : Nat} {r : Int × Int} (hr : (getRanges l)[i]? = some r) :
    r.1 < r.2 ∧ ∀ r', (getRanges l)[i + 1]? = some r' → r.2 < r'.1 := by
  obtain ⟨h1, h2⟩ := getRanges_boundaries l i r hr
  have lt : ∀ {a b : Nat} {x y : Int}, a < b → l[a]? = some x → l[b]? = some y → x < y := by
    intro a b x y hab ha hb
    rw [List.getElem?_eq_some_iff] at ha hb
    obtain ⟨ha, rfl⟩ := ha
    obtain ⟨hb, rfl⟩ := hb
    exact List.pairwise_iff_getElem.mp hl.2 a b ha hb hab
  refine ⟨lt (by omega) h1 h2, fun r' hr' => ?_⟩
  obtain ⟨h3, _⟩ := getRanges_boundaries l (i + 1) r' hr'
  exact lt (by omega) h2 h3

example : getRanges [3, 10, 20, 30, 0x110000] = [(3, 10), (20, 30)] := by decide

/-- C14. `charAt(i)` is the i-th member, `None` when there is none or `i < 0`. -/
theorem charAt_member {l : List Int} (hl : WellFormed l) (i : Int) :
    charAt l i = if 0 ≤ i then (membersOf (has l))[i.toNat]? else none := by
  unfold charAt
  by_cases h : 0 ≤ i
  · rw [if_pos h, if_pos h, charAtLoop_ok hl.1 h, iter_yields_members hl]
  · rw [if_neg h, if_neg h]

/-- C14. `indexOf(c) = i` exactly when `c` is the i-th member. -/
theorem indexOf_member {l : List Int} (hl : WellFormed l) {c i : Int} :
    indexOf l c = some i ↔ 0 ≤ i ∧ (membersOf (has l))[i.toNat]? = some c := by
  rw [indexOf_iff hl, iter_yields_members hl]

/-- C14. The two are inverse to each other. -/
theorem charAt_indexOf_inverse {l : List Int} (hl : WellFormed l) (c i : Int) :
    indexOf l c = some i ↔ charAt l i = some c := by
  rw [indexOf_member hl, charAt_member hl]
  by_cases h : 0 ≤ i <;> simp [h]

/-- C14. `indexOf(c)` is `None` exactly for non-members. -/
theorem indexOf_none_iff {l : List Int} (hl : WellFormed l) {c : Int} (hc : IsCodePoint c) :
    indexOf l c = none ↔ ¬ Has l c := by
  have hm : c ∈ membersOf (has l) ↔ Has l c := by
    unfold membersOf has
    rw [List.mem_filter, mem_codePoints]
    simp [hc]
  constructor
  · intro h hh
    obtain ⟨i, hi⟩ := List.mem_iff_getElem?.mp (hm.mpr hh)
    have := (indexOf_member hl (c := c) (i := (i : Int))).mpr ⟨by omega, by simpa using hi⟩
    rw [h] at this; cases this
  · intro h
    cases hx : indexOf l c with
    | none => rfl
    | some i =>
      have := ((indexOf_member hl).mp hx).2
      exact absurd (hm.mp (List.mem_iff_getElem?.mpr ⟨_, this⟩)) h

example : indexOf [3, 10, 20, 30, 0x110000] 21 = some 8 ∧ charAt [3, 10, 20, 30, 0x110000] 8 = some 21 := by decide

/-! ## C15: range containment -/

/-- C15, all sets: `range(a, b) in s` being `True` means every element is a member. -/
theorem containsRange_members {l : List Int} (hl : WellFormed l) {a b : Int} (ha : 0 ≤ a) (hab : a < b) (hb : b ≤ 0x110000)
    (h : containsRange l a b = .ok true) : ∀ c, a ≤ c → c < b → Has l c := by
  intro c h1 h2
  exact (has_iff hl ⟨by omega, by omega⟩).mpr (containsRange_sound hl hab hb h h1 h2)

/-- C15 for canonical sets, both directions. Missing: sets that are not canonical. -/
theorem containsRange_iff_partial {l : List Int} (hl : Canonical l) {a b : Int} (ha : 0 ≤ a) (hab : a < b) (hb : b ≤ 0x110000) :
    ∃ v, containsRange l a b = .ok v ∧ (v = true ↔ ∀ c, a ≤ c → c < b → Has l c) := by
  obtain ⟨v, hv⟩ := containsRange_total hl.1 hab hb
  refine ⟨v, hv, fun h => containsRange_members hl.1 ha hab hb (h ▸ hv), fun h => ?_⟩
  have := containsRange_complete hl.1 hl.2 hab hb
    (fun c h1 h2 => (has_iff hl.1 ⟨by omega, by omega⟩).mp (h c h1 h2))
  rw [hv] at this; cases this; rfl

/-- C15 fails on the reachable set `[0,10) ∪ [10,20)`. -/
theorem containsRange_iff_refuted :
    ¬ ∀ l a b, Reachable l → 0 ≤ a → a < b → b ≤ 0x110000 →
      ∃ v, containsRange l a b = .ok v ∧ (v = true ↔ ∀ c, a ≤ c → c < b → Has l c) := by
  intro h
  obtain ⟨v, h1, h2⟩ := h [0, 10, 10, 20, 0x110000] 8 12 canonical_history_refuted.1 (by decide) (by decide) (by decide)
  have : containsRange [0, 10, 10, 20, 0x110000] 8 12 = .ok false := by decide
  rw [this] at h1; cases h1
  apply absurd (h2.mpr ?_) (by decide)
  intro c hc1 hc2
  have : c = 8 ∨ c = 9 ∨ c = 10 ∨ c = 11 := by omega
  rcases this with rfl | rfl | rfl | rfl <;> decide

example : containsRange [3, 10, 20, 30, 0x110000] 22 30 = .ok true ∧ containsRange [3, 10, 20, 30, 0x110000] 5 22 = .ok false := by
  decide

/-! ## C18: chaining -/

/-- C18. Every mutator but `addRange` returns its receiver. Missing: `addRange`, see below. -/
theorem mutators_return_receiver_partial {ops : List Op} (hl : LegalHistory 0 ops) {h : Heap} (hr : run Heap.empty ops = .ok h)
    {op : Op} (hop : op.Legal h.objs.length) (hna : ∀ x s e, op ≠ .addRange x s e) {x : Nat} (hx : op.receiver = some x) :
    ∃ h', step h op = .ok (h', some x) := by
  obtain ⟨hp, h1, h2⟩ := run_ok ops heapOk_empty hl
  rw [hr] at h1; cases h1
  obtain ⟨v, h', ret, hs, _⟩ := step_ok h2 hop
  refine ⟨h', ?_⟩
  have ht : op.target h.objs.length = x := by unfold Op.target; rw [hx]; rfl
  rcases hs.2.2.2.2.2 with hret | ⟨_, x, s, e, he⟩
  · rw [hs.1, hret, ht]
  · exact absurd he (hna x s e)

example : LegalHistory 0 [.newRange 1 5, .newInt 7] ∧ (Op.addAll 0 1).receiver = some 0 ∧ (Op.addAll 0 1).Legal 2 := by decide

/-- C18 fails for `addRange`: `UnicodeSet().addRange(1, 5)` returns `None`. -/
theorem mutators_return_receiver_refuted :
    ∃ h h', run Heap.empty [.new] = .ok h ∧ (Op.addRange 0 1 5).Legal h.objs.length ∧
      step h (.addRange 0 1 5) = .ok (h', none) := ⟨_, _, rfl, by decide, rfl⟩

/-! ## C19: values outside the code space -/

/-- C19: negative values are never members; values from 0x110000 on are members exactly when 0x10FFFF is,
for canonical sets. Missing: the full claim (never members), which fails. -/
theorem outside_values_partial {l : List Int} (hl : Canonical l) (c : Int) :
    (c < 0 → contains l c = .ok false) ∧
    (0x110000 ≤ c → (Has l c ↔ Has l 0x10FFFF)) := by
  refine ⟨fun h => contains_neg hl.1 h, fun h => ?_⟩
  have h2 := contains_high hl.1 (c := c) (by unfold HIGH; omega)
  have hmem : mem l 0x10FFFF = decide (l.length % 2 = 0) := by
    have hpos : 0 < l.length := by
      rcases wf_cases hl.1 with ⟨a, xs, rfl⟩; simp
    · obtain ⟨p, z, rfl⟩ := list_snoc l hpos
      have hz : z = 0x110000 := by simpa using hl.1.2.2
      subst hz
      rw [mem_append, mem_of_all_le (l := p)]
      · rw [mem_cons_gt (by decide)]
        simp only [List.length_append, List.length_cons, List.length_nil]
        simp
        have : (p.length % 2 = 1) ↔ ((p.length + 1) % 2 = 0) := by omega
        simp [this]
      · intro x hx
        have := (List.pairwise_append.mp hl.2).2.2 x hx 0x110000 (by simp)
        omega
  rw [has_iff hl.1 (by decide : IsCodePoint 0x10FFFF), hmem]
  unfold Has
  rw [h2]
  simp

/-- C19 fails: the full set (complement of the empty set) contains 0x110000. -/
theorem outside_values_refuted : Reachable [0, 0x110000] ∧ Has [0, 0x110000] 0x110000 :=
  ⟨⟨[.new, .complement 0], _, 0, by decide, rfl, rfl⟩, by decide⟩

example : Canonical [0, 0x110000] ∧ Canonical [5, 0x110000] ∧ Has [5, 0x110000] 0x10FFFF := by decide

end Verif.USet.Props

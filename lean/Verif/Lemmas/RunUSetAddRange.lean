import Verif.Lemmas.RunUSetRange
/-! # What the text of UnicodeSet.py does: `addRange` and `complement` -/
namespace Verif.PyHeap
open Verif.PySyntax Verif.Data
open Verif.PyRun (R Err lift bound)
set_option Elab.async false

theorem Mutated.trans {σ σ1 σ2 : Heap} {r : Nat} {l1 l2 : List Int} (h1 : Mutated σ σ1 r l1) (h2 : Mutated σ1 σ2 r l2) : Mutated σ σ2 r l2 where
  next := Nat.le_trans h1.next h2.next
  same b hb hr := by rw [h2.same b (Nat.lt_of_lt_of_le hb h1.next) hr, h1.same b hb hr]
  cell := h2.cell

theorem position_last {n : Nat} (h : 1 ≤ n) : position n (-1) = .ok (n - 1) := by
  rw [position, if_neg (by omega), if_pos (by omega)]; congr 1; omega

theorem position_last2 {n : Nat} (h : 2 ≤ n) : position n (-2) = .ok (n - 2) := by
  rw [position, if_neg (by omega), if_pos (by omega)]; congr 1; omega

theorem position_last2_error {n : Nat} (h : n < 2) : position n (-2) = .error .indexError := by
  rw [position, if_neg (by omega), if_neg (by omega)]

theorem one_cast (n : Nat) : ((n : Int) = 1) = (n = 1) := by apply propext; omega

theorem vals_getLast {l : List Int} (h : 0 < l.length) : ∃ a, (vals l).getLast? = some (.int a) := by
  refine ⟨l.getLast (by intro h'; simp [h'] at h), ?_⟩
  rw [vals, List.getLast?_map, List.getLast?_eq_some_getLast (by intro h'; simp [h'] at h)]; rfl

theorem vals_dropLast (l : List Int) : (vals l).dropLast = vals l.dropLast := by simp [vals, List.map_dropLast]

section
variable {w : Scope} (H : Imported w) {n : Nat} {σ : Heap} {x r o : Nat} {l m : List Int}
include H

theorem addRange_method (S : IsSet σ x r l) (s e : Int) (hn : l.length + 6 ≤ n) :
    Outcome (method w (run w n) (n% "UnicodeSet") (n% "addRange") [.ref x, .int s, .int e] σ) (USet.addRangeRet l s e)
      (fun p v σ' => v = (if p.2 then .ref x else .none) ∧
        if p.2 ∧ USet.pinCodePoint s < USet.pinCodePoint e then Rebound σ σ' x p.1 else Mutated σ σ' r p.1) := by
  obtain ⟨n, rfl⟩ : ∃ m, n = m + 1 := ⟨n - 1, by omega⟩
  rw [method_doc H.addRange rfl]
  have hp1 := pin_run' H (n := n) (by omega) s σ
  have hp2 := pin_run' H (n := n) (by omega) e σ
  have hr := eq_false S.ne
  have hx := eq_false (Nat.ne_of_lt S.obj_lt)
  have hr' := eq_false (Nat.ne_of_lt S.cell_lt)
  have hrr := eq_false (Nat.ne_of_gt S.cell_lt)
  unfold USet.addRangeRet
  cases hg : decide (USet.pinCodePoint s < USet.pinCodePoint e) with
  | false =>
    have hg' := of_decide_eq_false hg
    simp only [hg', and_false, if_false]
    cases he : decide (s = e) with
    | false =>
      rw [if_neg (of_decide_eq_false he)]
      refine ⟨.ref x, σ, ?_, rfl, mutated_self S⟩
      py_heap [hp1, hp2, hg, he]
    | true =>
      rw [if_pos (of_decide_eq_true he)]
      have ha := add_method H S s (n := n) (by omega)
      cases em : USet.add l s with
      | error err =>
        rw [em, Outcome] at ha
        simp only [Bind.bind, Except.bind, Outcome]
        py_heap [hp1, hp2, hg, he, S.obj, ha]
      | ok l' =>
        rw [em, Outcome] at ha
        obtain ⟨v, σ', ha, hv, hm⟩ := ha
        refine ⟨.ref x, σ', ?_, rfl, hm⟩
        py_heap [hp1, hp2, hg, he, S.obj, ha]
  | true =>
    have hg' := of_decide_eq_true hg
    rw [if_pos hg']
    refine Outcome.imp (Q := fun p v σ' => v = (if p.2 then .ref x else .none) ∧ if p.2 then Rebound σ σ' x p.1 else Mutated σ σ' r p.1) ?_
      (fun p v σ' h => by simpa only [hg', and_true] using h)
    have hc := add_run' H (S.push (.list [.int s, .int (e + 1), .int 0x110000])) (range_cell s e) (Nat.lt_succ_self _) (n := n)
      (by simp only [List.length_cons, List.length_nil]; omega)
    have slow : ∀ (res : R (Val × Heap)),
        res = (match rebind (σ.push (.list [.int s, .int (e + 1), .int 0x110000])) x (USet.addList l [s, e + 1, USet.HIGH]) with
          | .ok p => .ok (.ref x, p.2)
          | .error e => .error e) →
        Outcome res (USet.addList l [s, e + 1, USet.HIGH] >>= fun l' => pure (l', true))
          (fun p v σ' => v = (if p.2 then .ref x else .none) ∧ if p.2 then Rebound σ σ' x p.1 else Mutated σ σ' r p.1) := by
      intro res hres
      rw [hres]
      cases USet.addList l [s, e + 1, USet.HIGH] with
      | ok l' => exact ⟨_, _, rfl, rfl, (rebound_rebound l' (S.push _).obj_lt).of_push⟩
      | error e => exact rfl
    cases hl : decide (l.length % 2 = 0) with
    | true =>
      rw [if_neg (fun h => h (of_decide_eq_true hl))]
      refine slow _ ?_
      generalize USet.addList l [s, e + 1, USet.HIGH] = y at hc ⊢
      cases y <;> py_heap [hp1, hp2, hg, S.obj, S.cell, hx, H.len, and_one, Int.natCast_eq_zero, hl, H.high, hc, rebind]
    | false =>
      have hl' := of_decide_eq_false hl
      rw [if_pos hl']
      cases h1 : decide (l.length = 1) with
      | true =>
        have h1' := of_decide_eq_true h1
        rw [if_pos h1']
        simp only [Bind.bind, Except.bind, Pure.pure, Except.pure]
        cases h2 : decide ((-2 : Int) ≤ s) with
        | false =>
          rw [if_neg (of_decide_eq_false h2)]
          refine slow _ ?_
          generalize USet.addList l [s, e + 1, USet.HIGH] = y at hc ⊢
          cases y <;> py_heap [hp1, hp2, hg, S.obj, S.cell, hx, hr, hr', H.len, and_one, Int.natCast_eq_zero, hl, H.high, one_cast, h1, h2, hc, rebind]
        | true =>
          rw [if_pos (of_decide_eq_true h2)]
          cases h3 : decide ((-2 : Int) = s) with
          | true =>
            rw [if_pos (of_decide_eq_true h3)]
            rw [if_pos (show l.length < 2 by omega)]
            have hpos := position_last2_error (n := l.length) (by omega)
            simp only [Outcome]
            py_heap [hp1, hp2, hg, S.obj, S.cell, hx, hr, hr', H.len, and_one, Int.natCast_eq_zero, hl, H.high, one_cast, h1, h2, h3, hpos]
            rfl
          | false =>
            rw [if_neg (of_decide_eq_false h3)]
            have hpos := position_last (n := l.length) (by omega)
            cases h4 : decide (e + 1 < 0x110000) with
            | true =>
              rw [show (if e + 1 < USet.HIGH then l.set (l.length - 1) s ++ [e + 1, USet.HIGH] else l.set (l.length - 1) s ++ [USet.HIGH])
                = l.set (l.length - 1) s ++ [e + 1, 0x110000] from if_pos (of_decide_eq_true h4)]
              refine ⟨.none, ((σ.set r (.list (vals (l.set (l.length - 1) s)))).push (.list [.int (e + 1), .int 0x110000])).set r
                (.list (vals (l.set (l.length - 1) s ++ [e + 1, 0x110000]))), ?_, rfl, (mutated_set σ r _).trans (mutated_push _ r _ _)⟩
              py_heap [hp1, hp2, hg, S.obj, S.cell, hx, hr, hr', H.len, and_one, Int.natCast_eq_zero, hl, H.high, one_cast, h1, h2, h3, hpos, h4, vals_set, vals_append2, H.none']
            | false =>
              rw [show (if e + 1 < USet.HIGH then l.set (l.length - 1) s ++ [e + 1, USet.HIGH] else l.set (l.length - 1) s ++ [USet.HIGH])
                = l.set (l.length - 1) s ++ [0x110000] from if_neg (of_decide_eq_false h4)]
              refine ⟨.none, σ.set r (.list (vals (l.set (l.length - 1) s ++ [0x110000]))), ?_, rfl, mutated_set ..⟩
              py_heap [hp1, hp2, hg, S.obj, S.cell, hx, hr, hr', H.len, and_one, Int.natCast_eq_zero, hl, H.high, one_cast, h1, h2, h3, hpos, h4, vals_set, vals_append, set_set, H.none']
      | false =>
        have h1' := of_decide_eq_false h1
        rw [if_neg h1']
        cases eg : pyGet l (-2) with
        | error err =>
          have hgl := get_error eg
          simp only [Bind.bind, Except.bind, Outcome]
          py_heap [hp1, hp2, hg, S.obj, S.cell, hx, hr, hr', H.len, and_one, Int.natCast_eq_zero, hl, H.high, one_cast, h1, hgl]
        | ok last =>
          have hgl := get_ok eg
          simp only [Bind.bind, Except.bind, Pure.pure, Except.pure]
          cases h2 : decide (last ≤ s) with
          | false =>
            rw [if_neg (of_decide_eq_false h2)]
            refine slow _ ?_
            generalize USet.addList l [s, e + 1, USet.HIGH] = y at hc ⊢
            cases y <;> py_heap [hp1, hp2, hg, S.obj, S.cell, hx, hr, hr', H.len, and_one, Int.natCast_eq_zero, hl, H.high, one_cast, h1, hgl, h2, hc, rebind]
          | true =>
            rw [if_pos (of_decide_eq_true h2)]
            cases h3 : decide (last = s) with
            | true =>
              rw [if_pos (of_decide_eq_true h3)]
              rw [if_neg (show ¬ l.length < 2 by omega)]
              have hpos := position_last2 (n := l.length) (by omega)
              cases h4 : decide (e + 1 = 0x110000) with
              | true =>
                rw [show (if e + 1 = USet.HIGH then (l.set (l.length - 2) (e + 1)).dropLast else l.set (l.length - 2) (e + 1))
                  = (l.set (l.length - 2) (e + 1)).dropLast from if_pos (of_decide_eq_true h4)]
                obtain ⟨la, hla⟩ := vals_getLast (l := l.set (l.length - 2) (e + 1)) (by rw [List.length_set]; omega)
                refine ⟨.none, σ.set r (.list (vals (l.set (l.length - 2) (e + 1)).dropLast)), ?_, rfl, mutated_set ..⟩
                py_heap [hp1, hp2, hg, S.obj, S.cell, hx, hr, hr', H.len, and_one, Int.natCast_eq_zero, hl, H.high, one_cast, h1, hgl, h2, h3, hpos, h4, vals_set, hla, vals_dropLast, set_set, H.none']
              | false =>
                rw [show (if e + 1 = USet.HIGH then (l.set (l.length - 2) (e + 1)).dropLast else l.set (l.length - 2) (e + 1))
                  = l.set (l.length - 2) (e + 1) from if_neg (of_decide_eq_false h4)]
                refine ⟨.none, σ.set r (.list (vals (l.set (l.length - 2) (e + 1)))), ?_, rfl, mutated_set ..⟩
                py_heap [hp1, hp2, hg, S.obj, S.cell, hx, hr, hr', H.len, and_one, Int.natCast_eq_zero, hl, H.high, one_cast, h1, hgl, h2, h3, hpos, h4, vals_set, H.none']
            | false =>
              rw [if_neg (of_decide_eq_false h3)]
              have hpos := position_last (n := l.length) (by omega)
              cases h4 : decide (e + 1 < 0x110000) with
              | true =>
                rw [show (if e + 1 < USet.HIGH then l.set (l.length - 1) s ++ [e + 1, USet.HIGH] else l.set (l.length - 1) s ++ [USet.HIGH])
                  = l.set (l.length - 1) s ++ [e + 1, 0x110000] from if_pos (of_decide_eq_true h4)]
                refine ⟨.none, ((σ.set r (.list (vals (l.set (l.length - 1) s)))).push (.list [.int (e + 1), .int 0x110000])).set r
                  (.list (vals (l.set (l.length - 1) s ++ [e + 1, 0x110000]))), ?_, rfl, (mutated_set σ r _).trans (mutated_push _ r _ _)⟩
                py_heap [hp1, hp2, hg, S.obj, S.cell, hx, hr, hr', H.len, and_one, Int.natCast_eq_zero, hl, H.high, one_cast, h1, hgl, h2, h3, hpos, h4, vals_set, vals_append2, H.none']
              | false =>
                rw [show (if e + 1 < USet.HIGH then l.set (l.length - 1) s ++ [e + 1, USet.HIGH] else l.set (l.length - 1) s ++ [USet.HIGH])
                  = l.set (l.length - 1) s ++ [0x110000] from if_neg (of_decide_eq_false h4)]
                refine ⟨.none, σ.set r (.list (vals (l.set (l.length - 1) s ++ [0x110000]))), ?_, rfl, mutated_set ..⟩
                py_heap [hp1, hp2, hg, S.obj, S.cell, hx, hr, hr', H.len, and_one, Int.natCast_eq_zero, hl, H.high, one_cast, h1, hgl, h2, h3, hpos, h4, vals_set, vals_append, set_set, H.none']

end

end Verif.PyHeap

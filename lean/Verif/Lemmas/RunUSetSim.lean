import Verif.Lemmas.RunUSetHeap
/-! # Every call of a program does what the model does -/
namespace Verif.PyHeap
open Verif.PySyntax Verif.Data
open Verif.PyRun (R Err lift bound)
set_option Elab.async false

section
variable {w : Scope} (H : Imported w) {n : Nat} {h : USet.Heap} {vars lists : List Nat} {σ : Heap}

theorem step_copyThen {x a r b y c q d : Nat} {l m : List Int} {op : USet.Op} {res : R (Val × Heap)} (P : Rep h vars lists σ)
    (A : At h vars lists σ x a r b l) (B : At h vars lists σ y c q d m) {f : List Int → List Int → Py (List Int)}
    (hs : USet.step h op = h.copyThen x y f) (hk : makes op = true) (hc : callOp w n vars op σ = res)
    (ho : Outcome res (f l m) (fun l' v σ' => v = .ref σ.next ∧ Rebound (newHeap σ l) σ' σ.next l')) : StepOk w n h vars σ op := by
  rw [USet.Heap.copyThen, A.read, B.read] at hs
  simp only [Bind.bind, Except.bind, USet.Heap.assign, Pure.pure, Except.pure] at hs
  rw [StepOk, hc]
  cases e : f l m with
  | error e' =>
    rw [e] at hs ho
    rw [hs]; exact ho
  | ok l' =>
    rw [e] at hs ho
    rw [hs]
    obtain ⟨v, σ', h1, h2, h3⟩ := ho
    obtain ⟨lists1, P1⟩ := P.alloc (newHeap_created σ l)
    have hlast : (vars ++ [σ.next])[h.objs.length]? = some σ.next := by rw [← P.objs]; simp
    rcases P1.at h.objs.length with ⟨hn, _⟩ | ⟨a1, r1, b1, l1, A1⟩
    · rw [hlast] at hn; simp at hn
    · have : a1 = σ.next := by have := A1.var; rw [hlast] at this; exact (Option.some.inj this).symm
      subst this
      obtain ⟨lists2, P2⟩ := P1.rebind A1 h3
      exact ⟨v, σ', vars ++ [σ.next], lists2, h1, by simp [keep, hk, h2], P2, σ.next, hlast, h2⟩

include H

/-- Every call does what the model does; `n` bounds the nesting of calls and the number of iterations of a loop. -/
theorem step_sim (P : Rep h vars lists σ) (op : USet.Op) (hn : 2 * (h.cells.map List.length).sum + 10 ≤ n) : StepOk w n h vars σ op := by
  cases op with
  | new => exact step_alloc P rfl rfl (new_run H (by omega)) (newHeap_created ..)
  | newInt cp => exact step_alloc P rfl rfl (newInt_run H cp (by omega)) (newHeap_created ..)
  | newRange s e => exact step_alloc P rfl rfl (newRange_run H s e 1 (by omega)) (newHeap_created ..)
  | newCopy x =>
    rcases P.at x with ⟨hv, hr⟩ | ⟨a, r, b, l, A⟩
    · exact step_missing (by rw [USet.step, hr]; rfl) (by rw [callOp, variable', hv]; rfl)
    · exact step_alloc P (by rw [USet.step, A.read]; rfl) rfl (by rw [callOp, A.variable]; exact newCopy_run H A.isSet (by omega)) (newHeap_created ..)
  | add x cp =>
    rcases P.at x with ⟨hv, hr⟩ | ⟨a, r, b, l, A⟩
    · exact step_missing (by rw [USet.step, hr]; rfl) (missing_ints hv _ _)
    · have hl := A.le
      have ho := add_method H A.isSet cp (n := n) (by omega)
      have hc : callOp w n vars (.add x cp) σ = _ := A.ints (n% "add") [cp]
      cases e : USet.add l cp with
      | error e' =>
        rw [e] at ho
        exact step_missing (by rw [USet.step, A.read]; simp only [Bind.bind, Except.bind, e]) (hc.trans ho)
      | ok l' =>
        rw [e] at ho
        obtain ⟨v, σ', h1, h2, h3⟩ := ho
        exact step_mutate P A (u := some x) (by rw [USet.step, A.read]; simp only [Bind.bind, Except.bind, e]; rfl) rfl (hc.trans h1) h3 ⟨a, A.var, h2⟩
  | addRange x s e =>
    rcases P.at x with ⟨hv, hr⟩ | ⟨a, r, b, l, A⟩
    · exact step_missing (by rw [USet.step, hr]; rfl) (missing_ints hv _ _)
    · have hl := A.le
      have ho := addRange_method H A.isSet s e (n := n) (by omega)
      have hc : callOp w n vars (.addRange x s e) σ = _ := A.ints (n% "addRange") [s, e]
      cases em : USet.addRangeRet l s e with
      | error e' =>
        rw [em] at ho
        exact step_missing (by rw [USet.step, A.read]; simp only [Bind.bind, Except.bind, em]) (hc.trans ho)
      | ok p =>
        obtain ⟨l', self⟩ := p
        rw [em] at ho
        obtain ⟨v, σ', h1, h2, h3⟩ := ho
        cases self with
        | false =>
          simp only [Bool.false_eq_true, false_and, if_false] at h2 h3
          exact step_mutate P A (u := none) (by rw [USet.step, A.read]; simp only [Bind.bind, Except.bind, em]; rfl) rfl (hc.trans h1) h3 h2
        | true =>
          simp only [true_and, if_true] at h2 h3
          by_cases hg : USet.pinCodePoint s < USet.pinCodePoint e
          · rw [if_pos hg] at h3
            exact step_rebind P A (y := .ok l') (by rw [USet.step, A.read]; simp only [Bind.bind, Except.bind, em, if_true, if_pos hg]; rfl) rfl hc
              ⟨v, σ', h1, h2, h3⟩
          · rw [if_neg hg] at h3
            exact step_mutate P A (u := some x) (by rw [USet.step, A.read]; simp only [Bind.bind, Except.bind, em, if_true, if_neg hg]; rfl) rfl
              (hc.trans h1) h3 ⟨a, A.var, h2⟩
  | removeRange x s e =>
    rcases P.at x with ⟨hv, hr⟩ | ⟨a, r, b, l, A⟩
    · exact step_missing (by rw [USet.step, hr]; rfl) (missing_ints hv _ _)
    · have hl := A.le
      exact step_guarded P A (by rw [USet.step, A.read]; rfl) rfl (A.ints (n% "removeRange") [s, e]) (removeRange_method H A.isSet s e (by omega))
  | retainRange x s e =>
    rcases P.at x with ⟨hv, hr⟩ | ⟨a, r, b, l, A⟩
    · exact step_missing (by rw [USet.step, hr]; rfl) (missing_ints hv _ _)
    · have hl := A.le
      exact step_guarded P A (by rw [USet.step, A.read]; rfl) rfl (A.ints (n% "retainRange") [s, e]) (retainRange_method H A.isSet s e (by omega))
  | complementRange x s e =>
    rcases P.at x with ⟨hv, hr⟩ | ⟨a, r, b, l, A⟩
    · exact step_missing (by rw [USet.step, hr]; rfl) (missing_ints hv _ _)
    · have hl := A.le
      exact step_guarded P A (by rw [USet.step, A.read]; rfl) rfl (A.ints (n% "complementRange") [s, e]) (complementRange_method H A.isSet s e (by omega))
  | remove x cp =>
    rcases P.at x with ⟨hv, hr⟩ | ⟨a, r, b, l, A⟩
    · exact step_missing (by rw [USet.step, hr]; rfl) (missing_ints hv _ _)
    · have hl := A.le
      exact step_guarded P A (by rw [USet.step, A.read]; rfl) rfl (A.ints (n% "remove") [cp]) (remove_method H A.isSet cp (by omega))
  | retain x cp =>
    rcases P.at x with ⟨hv, hr⟩ | ⟨a, r, b, l, A⟩
    · exact step_missing (by rw [USet.step, hr]; rfl) (missing_ints hv _ _)
    · have hl := A.le
      exact step_guarded P A (by rw [USet.step, A.read]; rfl) rfl (A.ints (n% "retain") [cp]) (retain_method H A.isSet cp (by omega))
  | complementInt x cp =>
    rcases P.at x with ⟨hv, hr⟩ | ⟨a, r, b, l, A⟩
    · exact step_missing (by rw [USet.step, hr]; rfl) (missing_ints hv _ _)
    · have hl := A.le
      exact step_guarded P A (by rw [USet.step, A.read]; rfl) rfl (A.ints (n% "complement") [cp]) (complementInt_method H A.isSet cp (by omega))
  | complementPyRange x s e =>
    rcases P.at x with ⟨hv, hr⟩ | ⟨a, r, b, l, A⟩
    · exact step_missing (by rw [USet.step, hr]; rfl) (by rw [callOp, variable', hv]; rfl)
    · have hl := A.le
      refine step_guarded P A (by rw [USet.step, A.read]; rfl) rfl ?_ (complementPyRange_method H A.isSet s e 1 (n := n) (by omega))
      rw [callOp, A.variable]
      simp only [PyRun.bind_match, callMethod, A.isSet.obj]
  | complement x =>
    rcases P.at x with ⟨hv, hr⟩ | ⟨a, r, b, l, A⟩
    · exact step_missing (by rw [USet.step, hr]; rfl) (missing_ints hv _ _)
    · have hl := A.le
      have ho := complement_method H A.isSet (n := n) (by omega)
      have hc : callOp w n vars (.complement x) σ = _ := A.ints (n% "complement") []
      cases e : pyGet l 0 with
      | error e' =>
        rw [e] at ho
        exact step_missing (by rw [USet.step, A.read]; simp only [Bind.bind, Except.bind, e]) (hc.trans ho)
      | ok l0 =>
        rw [e] at ho
        obtain ⟨v, σ', h1, h2, h3⟩ := ho
        by_cases h0 : l0 = 0
        · rw [if_pos h0] at h3
          refine step_rebind P A (y := .ok (l.drop 1)) ?_ rfl hc ⟨v, σ', h1, h2, h3⟩
          rw [USet.step, A.read]; simp only [Bind.bind, Except.bind, e]; rw [if_pos (show l0 = USet.LOW from h0)]; rfl
        · rw [if_neg h0] at h3
          refine step_mutate P A (l' := 0 :: l) (u := some x) ?_ rfl (hc.trans h1) h3 ⟨a, A.var, h2⟩
          rw [USet.step, A.read]; simp only [Bind.bind, Except.bind, e]; rw [if_neg (show ¬ l0 = USet.LOW from h0)]; rfl
  | clear x =>
    rcases P.at x with ⟨hv, hr⟩ | ⟨a, r, b, l, A⟩
    · exact step_missing (by rw [USet.step, hr]; rfl) (missing_ints hv _ _)
    · have hl := A.le
      exact step_rebind P A (y := .ok [USet.HIGH]) (by rw [USet.step, A.read]; rfl) rfl (A.ints (n% "clear") [])
        (by rw [show Val.ref a :: List.map Val.int [] = [Val.ref a] from rfl, clear_method H A.isSet (by omega)]; exact rebind_outcome A.isSet.obj_lt _)
  | addAll x y =>
    rcases P.at x with ⟨hv, hr⟩ | ⟨a, r, b, l, A⟩
    · exact step_missing (by rw [USet.step, hr]; rfl) (missing_set hv _ _)
    · rcases P.at y with ⟨hv, hr⟩ | ⟨c, q, d, m, B⟩
      · exact step_missing (by rw [USet.step, A.read, hr]; rfl) (missing_set' A hv _)
      · have hl := A.le
        have hm := B.le
        exact step_rebind P A (by rw [USet.step, A.read, B.read]; rfl) rfl (A.set B (n% "addAll"))
          (by rw [addAll_method H A.isSet B.isSet (by omega)]; exact rebind_outcome A.isSet.obj_lt _)
  | removeAll x y =>
    rcases P.at x with ⟨hv, hr⟩ | ⟨a, r, b, l, A⟩
    · exact step_missing (by rw [USet.step, hr]; rfl) (missing_set hv _ _)
    · rcases P.at y with ⟨hv, hr⟩ | ⟨c, q, d, m, B⟩
      · exact step_missing (by rw [USet.step, A.read, hr]; rfl) (missing_set' A hv _)
      · have hl := A.le
        have hm := B.le
        exact step_rebind P A (by rw [USet.step, A.read, B.read]; rfl) rfl (A.set B (n% "removeAll"))
          (by rw [removeAll_method H A.isSet B.isSet (by omega)]; exact rebind_outcome A.isSet.obj_lt _)
  | retainAll x y =>
    rcases P.at x with ⟨hv, hr⟩ | ⟨a, r, b, l, A⟩
    · exact step_missing (by rw [USet.step, hr]; rfl) (missing_set hv _ _)
    · rcases P.at y with ⟨hv, hr⟩ | ⟨c, q, d, m, B⟩
      · exact step_missing (by rw [USet.step, A.read, hr]; rfl) (missing_set' A hv _)
      · have hl := A.le
        have hm := B.le
        exact step_rebind P A (by rw [USet.step, A.read, B.read]; rfl) rfl (A.set B (n% "retainAll"))
          (by rw [retainAll_method H A.isSet B.isSet (by omega)]; exact rebind_outcome A.isSet.obj_lt _)
  | complementAll x y =>
    rcases P.at x with ⟨hv, hr⟩ | ⟨a, r, b, l, A⟩
    · exact step_missing (by rw [USet.step, hr]; rfl) (missing_set hv _ _)
    · rcases P.at y with ⟨hv, hr⟩ | ⟨c, q, d, m, B⟩
      · exact step_missing (by rw [USet.step, A.read, hr]; rfl) (missing_set' A hv _)
      · have hl := A.le
        have hm := B.le
        exact step_rebind P A (by rw [USet.step, A.read, B.read]; rfl) rfl (A.set B (n% "complementAll"))
          (by rw [complementAll_method H A.isSet B.isSet (by omega)]; exact rebind_outcome A.isSet.obj_lt _)
  | union x y =>
    rcases P.at x with ⟨hv, hr⟩ | ⟨a, r, b, l, A⟩
    · exact step_missing (by rw [USet.step, USet.Heap.copyThen, hr]; rfl) (missing_set hv _ _)
    · rcases P.at y with ⟨hv, hr⟩ | ⟨c, q, d, m, B⟩
      · exact step_missing (by rw [USet.step, USet.Heap.copyThen, A.read, hr]; rfl) (missing_set' A hv _)
      · have hl := A.le
        have hm := B.le
        exact step_copyThen P A B rfl rfl (A.set B (n% "union")) (union_method H A.isSet B.isSet (by omega))
  | intersection x y =>
    rcases P.at x with ⟨hv, hr⟩ | ⟨a, r, b, l, A⟩
    · exact step_missing (by rw [USet.step, USet.Heap.copyThen, hr]; rfl) (missing_set hv _ _)
    · rcases P.at y with ⟨hv, hr⟩ | ⟨c, q, d, m, B⟩
      · exact step_missing (by rw [USet.step, USet.Heap.copyThen, A.read, hr]; rfl) (missing_set' A hv _)
      · have hl := A.le
        have hm := B.le
        exact step_copyThen P A B rfl rfl (A.set B (n% "intersection")) (intersection_method H A.isSet B.isSet (by omega))
  | difference x y =>
    rcases P.at x with ⟨hv, hr⟩ | ⟨a, r, b, l, A⟩
    · exact step_missing (by rw [USet.step, USet.Heap.copyThen, hr]; rfl) (missing_set hv _ _)
    · rcases P.at y with ⟨hv, hr⟩ | ⟨c, q, d, m, B⟩
      · exact step_missing (by rw [USet.step, USet.Heap.copyThen, A.read, hr]; rfl) (missing_set' A hv _)
      · have hl := A.le
        have hm := B.le
        exact step_copyThen P A B rfl rfl (A.set B (n% "difference")) (difference_method H A.isSet B.isSet (by omega))
  | symmetricDifference x y =>
    rcases P.at x with ⟨hv, hr⟩ | ⟨a, r, b, l, A⟩
    · exact step_missing (by rw [USet.step, USet.Heap.copyThen, hr]; rfl) (missing_set hv _ _)
    · rcases P.at y with ⟨hv, hr⟩ | ⟨c, q, d, m, B⟩
      · exact step_missing (by rw [USet.step, USet.Heap.copyThen, A.read, hr]; rfl) (missing_set' A hv _)
      · have hl := A.le
        have hm := B.le
        exact step_copyThen P A B rfl rfl (A.set B (n% "symmetric_difference")) (symmetric_difference_method H A.isSet B.isSet (by omega))

end

/-- The values that the calls returned are those of the model. -/
def Returned (vars : List Nat) : List USet.Ret → List Val → Prop
  | [], [] => True
  | u :: us, v :: vs => Corr vars u v ∧ Returned vars us vs
  | _, _ => False

theorem keep_prefix {vars vars' : List Nat} {op : USet.Op} {v : Val} (h : keep vars op v = .ok vars') : ∃ ys, vars' = vars ++ ys := by
  by_cases hm : makes op = true
  · cases v <;> simp [keep, hm] at h
    exact ⟨_, h.symm⟩
  · simp [keep, hm] at h
    exact ⟨[], by simp [h]⟩

theorem Corr.append {vars : List Nat} {u : USet.Ret} {v : Val} (h : Corr vars u v) (ys : List Nat) : Corr (vars ++ ys) u v := by
  cases u with
  | none => exact h
  | some x =>
    obtain ⟨a, h1, h2⟩ := h
    exact ⟨a, by rw [List.getElem?_append_left (List.getElem?_eq_some_iff.1 h1).1, h1], h2⟩

/-- Every program does what the model does. -/
theorem ops_sim {w : Scope} (H : Imported w) (ops : List USet.Op) : ∀ (h : USet.Heap), ∃ N, ∀ n, N ≤ n → ∀ vars lists σ, Rep h vars lists σ →
    match modelOps h ops with
    | .ok (h', us) => ∃ vars' lists' σ' vs, runOps w n ops vars σ = .ok (vars', σ', vs) ∧ Rep h' vars' lists' σ' ∧ Returned vars' us vs ∧
        ∃ ys, vars' = vars ++ ys
    | .error e => runOps w n ops vars σ = .error (.raised e) := by
  induction ops with
  | nil => exact fun h => ⟨0, fun n _ vars lists σ P => ⟨vars, lists, σ, [], rfl, P, trivial, [], by simp⟩⟩
  | cons op ops ih =>
    intro h
    cases e : USet.step h op with
    | error e' =>
      refine ⟨2 * (h.cells.map List.length).sum + 10, fun n hn vars lists σ P => ?_⟩
      have hs := step_sim H P op hn
      rw [StepOk, e] at hs
      simp only [modelOps, e, Bind.bind, Except.bind, runOps, hs]
    | ok p =>
      obtain ⟨h', u⟩ := p
      obtain ⟨N, hN⟩ := ih h'
      refine ⟨max N (2 * (h.cells.map List.length).sum + 10), fun n hn vars lists σ P => ?_⟩
      have hs := step_sim H P op (Nat.le_trans (Nat.le_max_right ..) hn)
      rw [StepOk, e] at hs
      obtain ⟨v, σ', vars', lists', h1, h2, h3, h4⟩ := hs
      have hr := hN n (Nat.le_trans (Nat.le_max_left ..) hn) vars' lists' σ' h3
      simp only [modelOps, e, Bind.bind, Except.bind, runOps, h1, h2]
      cases em : modelOps h' ops with
      | error e' =>
        rw [em] at hr
        simp only [hr]
      | ok p =>
        obtain ⟨h'', us⟩ := p
        rw [em] at hr
        obtain ⟨vars'', lists'', σ'', vs, r1, r2, r3, ys, r4⟩ := hr
        obtain ⟨zs, r5⟩ := keep_prefix h2
        exact ⟨vars'', lists'', σ'', v :: vs, by simp only [r1], r2, ⟨r4 ▸ h4.append ys, r3⟩, zs ++ ys, by rw [r4, r5, List.append_assoc]⟩

end Verif.PyHeap

import Verif.Spec.Build
import Verif.Props.UCDReader
/-! # Programs that write one file after the other -/
namespace Verif.Build
open Verif.Build.Spec

/-- Files to write, one after the other, with what goes wrong before. -/
abbrev Plan := List (Path × Except Fault Str)

def runPlan : Plan → List Op × Except Fault Unit
  | [] => ([], .ok ())
  | (_, .error e) :: _ => ([], .error e)
  | (p, .ok s) :: r => (.create p :: .append p s :: (runPlan r).1, (runPlan r).2)

/-- The program writes according to the plan, on every disk that agrees with `d` except for files named in `W` in `out`. -/
def Follows (out : Path) (W : List Str) (d : Disk) (m : Prog Unit) (plan : Plan) : Prop :=
  ∀ d' : Disk, (∀ p, (∀ n ∈ W, p ≠ out ++ [n]) → d' p = d p) → m d' = runPlan plan

theorem bind_error {α β : Type} {m : Prog α} {f : α → Prog β} {d : Disk} {ops : List Op} {e : Fault} (h : m d = (ops, .error e)) :
    (m >>= f) d = (ops, .error e) := by
  show Prog.bind m f d = _
  unfold Prog.bind
  rw [h]

theorem bind_ok {α β : Type} {m : Prog α} {f : α → Prog β} {d : Disk} {ops : List Op} {a : α} (h : m d = (ops, .ok a)) :
    (m >>= f) d = (ops ++ (f a (after d ops)).1, (f a (after d ops)).2) := by
  show Prog.bind m f d = _
  unfold Prog.bind
  rw [h]

theorem after_other {d : Disk} {p : Path} {s : Str} {q : Path} (h : q ≠ p) : after d [.create p, .append p s] q = d q := by
  simp [after, Op.apply, put, h]

theorem after_same {d : Disk} {p : Path} {s : Str} : after d [.create p, .append p s] p = some s := by
  simp [after, Op.apply, put]

variable {out : Path} {W : List Str} {d : Disk}

theorem other_name {out base : Path} {W : List Str} {m : Str} (h : m ∉ W) : ∀ n ∈ W, base ++ [m] ≠ out ++ [n] := by
  intro n hn e
  have := (List.append_inj' e rfl).2
  cases this
  exact h hn

/-- The rest of a program after a file has been written. -/
theorem follows_cons {m : Prog Unit} {rest : Prog Unit} {plan : Plan} {n : Str} {c : Except Fault Str}
    (hm : ∀ d' : Disk, (∀ p, (∀ n ∈ W, p ≠ out ++ [n]) → d' p = d p) → m d' = match c with
      | .ok s => ([.create (out ++ [n]), .append (out ++ [n]) s], .ok ())
      | .error e => ([], .error e))
    (hr : Follows out (n :: W) d rest plan) : Follows out W d (m >>= fun _ => rest) ((out ++ [n], c) :: plan) := by
  intro d' hd
  have := hm d' hd
  cases c with
  | error e => rw [bind_error this]; rfl
  | ok s =>
    rw [bind_ok this, runPlan, hr _ (fun q h => ?_)]
    · rfl
    · rw [after_other (h n (by simp)), hd q (fun x hx => h x (by simp [hx]))]

theorem makeModule_eq {src tgt : Path} {f : Str → Py Str} (d' : Disk) (hd : d' src = d src) :
    makeModule src tgt f d' = match (do made (f (← file d src)) : Except Fault Str) with
      | .ok s => ([.create tgt, .append tgt s], .ok ())
      | .error e => ([], .error e) := by
  unfold makeModule file
  rw [← hd]
  cases h : d' src with
  | none => rw [bind_error (show read src d' = ([], .error (.missing src)) by unfold read; rw [h])]; rfl
  | some s =>
    rw [bind_ok (show read src d' = ([], .ok s) by unfold read; rw [h])]
    change _ = match made (f s) with
      | .ok s => (([.create tgt, .append tgt s], .ok ()) : List Op × Except Fault Unit)
      | .error e => ([], .error e)
    cases f s with
    | error e =>
      rw [bind_error (show lift (.error e : Py Str) _ = ([], .error (.raised e)) from rfl)]
      rfl
    | ok t =>
      rw [bind_ok (show lift (.ok t : Py Str) _ = ([], .ok t) from rfl)]
      rfl

theorem follows_make {base : Path} {m n : Str} {f : Str → Py Str} {rest : Prog Unit} {plan : Plan} (hs : m ∉ W)
    (hr : Follows out (n :: W) d rest plan) :
    Follows out W d (makeModule (base ++ [m]) (out ++ [n]) f >>= fun _ => rest) ((out ++ [n], do made (f (← file d (base ++ [m])))) :: plan) :=
  follows_cons (fun d' hd => makeModule_eq d' (hd _ (other_name hs))) hr

theorem copy_eq {src tgt : Path} (d' : Disk) (hd : d' src = d src) :
    copy src tgt d' = match (do let s ← file d src; if src = tgt then .error (.sameFile src) else .ok s : Except Fault Str) with
      | .ok s => ([.create tgt, .append tgt s], .ok ())
      | .error e => ([], .error e) := by
  unfold copy file
  rw [hd]
  cases d src with
  | none => rfl
  | some s => by_cases e : src = tgt <;> simp [e, bind, Except.bind]

theorem follows_copy {base : Path} {m n : Str} {rest : Prog Unit} {plan : Plan} (hs : m ∉ W) (hr : Follows out (n :: W) d rest plan) :
    Follows out W d (copy (base ++ [m]) (out ++ [n]) >>= fun _ => rest)
      ((out ++ [n], do let s ← file d (base ++ [m]); if base ++ [m] = out ++ [n] then .error (.sameFile (base ++ [m])) else .ok s) :: plan) :=
  follows_cons (fun d' hd => copy_eq d' (hd _ (other_name hs))) hr

/-! ## What a plan does -/

def paths (plan : Plan) : List Path := plan.map (·.1)

theorem runPlan_result : ∀ plan : Plan, (runPlan plan).2 = firstFault (plan.map fun o => ([], o.2)) := by
  intro plan
  induction plan with
  | nil => rfl
  | cons o plan ih =>
    obtain ⟨p, c⟩ := o
    cases c with
    | error e => rfl
    | ok s => exact ih

/-- Before the end, some files are complete, at most one is in the making, and the others are as before. -/
theorem during_plan : ∀ (plan : Plan) (d d' : Disk), (paths plan).Nodup → During d (runPlan plan).1 d' →
    (∀ p, p ∉ paths plan → d' p = d p) ∧ ∃ k : Nat, ∀ (i : Nat) (o : Path × Except Fault Str), plan[i]? = some o →
      (i < k → ∃ s, o.2 = .ok s ∧ d' o.1 = some s) ∧ (k < i → d' o.1 = d o.1) ∧
      (i = k → d' o.1 = d o.1 ∨ ∃ s t, o.2 = .ok s ∧ t <+: s ∧ d' o.1 = some t) := by
  intro plan
  induction plan with
  | nil =>
    rintro d d' _ ⟨done, rest, h, hd⟩
    simp only [runPlan] at h
    have := List.append_eq_nil_iff.1 h.symm
    obtain ⟨rfl, rfl⟩ := this
    rcases hd with rfl | ⟨p, s, t, more, hr, _⟩
    · exact ⟨fun _ _ => rfl, 0, fun i o h => by simp at h⟩
    · cases hr
  | cons o plan ih =>
    obtain ⟨p, c⟩ := o
    intro d d' hn hdur
    obtain ⟨hp, hn'⟩ := List.nodup_cons.1 hn
    have hne : ∀ (i : Nat) (o : Path × Except Fault Str), plan[i]? = some o → o.1 ≠ p := by
      intro i o h e
      exact hp (e ▸ List.mem_map.2 ⟨o, List.mem_of_getElem? h, rfl⟩)
    -- the disk has not changed
    have same : d' = d → (∀ q, q ∉ paths ((p, c) :: plan) → d' q = d q) ∧ ∃ k : Nat, ∀ (i : Nat) (o : Path × Except Fault Str), ((p, c) :: plan)[i]? = some o →
        (i < k → ∃ s, o.2 = .ok s ∧ d' o.1 = some s) ∧ (k < i → d' o.1 = d o.1) ∧
        (i = k → d' o.1 = d o.1 ∨ ∃ s t, o.2 = .ok s ∧ t <+: s ∧ d' o.1 = some t) := by
      rintro rfl
      exact ⟨fun _ _ => rfl, 0, fun i o _ => ⟨fun h => absurd h (by omega), fun _ => rfl, fun _ => .inl rfl⟩⟩
    obtain ⟨done, rest, h, hd⟩ := hdur
    cases c with
    | error e =>
      simp only [runPlan] at h
      obtain ⟨rfl, rfl⟩ := List.append_eq_nil_iff.1 h.symm
      rcases hd with rfl | ⟨p, s, t, more, hr, _⟩
      · exact same rfl
      · cases hr
    | ok s =>
      -- the first file is in the making
      have making : ∀ t, t <+: s → d' = put d p t → (∀ q, q ∉ paths ((p, .ok s) :: plan) → d' q = d q) ∧
          ∃ k : Nat, ∀ (i : Nat) (o : Path × Except Fault Str), ((p, .ok s) :: plan)[i]? = some o →
          (i < k → ∃ s, o.2 = .ok s ∧ d' o.1 = some s) ∧ (k < i → d' o.1 = d o.1) ∧
          (i = k → d' o.1 = d o.1 ∨ ∃ s t, o.2 = .ok s ∧ t <+: s ∧ d' o.1 = some t) := by
        rintro t ht rfl
        refine ⟨fun q hq => ?_, 0, fun i o ho => ⟨fun h => absurd h (by omega), fun h => ?_, fun h => ?_⟩⟩
        · have : q ≠ p := fun e => hq (by simp [paths, e])
          simp [put, this]
        · cases i with
          | zero => omega
          | succ i =>
            rw [List.getElem?_cons_succ] at ho
            simp [put, hne i o ho]
        · subst h
          rw [List.getElem?_cons_zero] at ho
          cases ho
          exact .inr ⟨s, t, rfl, ht, by simp [put]⟩
      rw [runPlan] at h
      cases done with
      | nil =>
        rcases hd with rfl | ⟨q, s', t, more, hr, _⟩
        · exact same rfl
        · rw [hr] at h; cases h
      | cons o1 done =>
        cases done with
        | nil =>
          simp only [List.cons_append, List.nil_append, List.cons.injEq] at h
          obtain ⟨rfl, h⟩ := h
          rcases hd with rfl | ⟨q, s', t, more, hr, ht, rfl⟩
          · exact making [] (List.nil_prefix) (by simp [after, Op.apply])
          · rw [hr] at h
            simp only [List.cons.injEq, Op.append.injEq] at h
            obtain ⟨⟨rfl, rfl⟩, _⟩ := h
            refine making t ht ?_
            funext q
            simp only [after, List.cons_append, List.nil_append, List.foldl_cons, List.foldl_nil, Op.apply, put]
            by_cases e : q = p <;> simp [e]
        | cons o2 done =>
          simp only [List.cons_append, List.cons.injEq] at h
          obtain ⟨rfl, rfl, h⟩ := h
          have hd1 : During (after d [.create p, .append p s]) (runPlan plan).1 d' := by
            refine ⟨done, rest, h, ?_⟩
            rcases hd with rfl | ⟨q, s', t, more, hr, ht, rfl⟩
            · left; simp [after]
            · right; exact ⟨q, s', t, more, hr, ht, by simp [after]⟩
          obtain ⟨h1, k, hk⟩ := ih _ _ hn' hd1
          refine ⟨fun q hq => ?_, k + 1, fun i o ho => ?_⟩
          · simp only [paths, List.map_cons, List.mem_cons, not_or] at hq
            rw [h1 q hq.2, after_other hq.1]
          · cases i with
            | zero =>
              rw [List.getElem?_cons_zero] at ho
              cases ho
              refine ⟨fun _ => ⟨s, rfl, ?_⟩, fun h => absurd h (by omega), fun h => absurd h (by omega)⟩
              rw [h1 p hp, after_same]
            | succ i =>
              rw [List.getElem?_cons_succ] at ho
              obtain ⟨a, b, c⟩ := hk i o ho
              rw [after_other (hne i o ho)] at b c
              exact ⟨fun h => a (by omega), fun h => b (by omega), fun h => c (by omega)⟩

/-- After the end, the files before the first fault are complete and the others are as before. -/
theorem after_plan : ∀ (plan : Plan) (d : Disk), (paths plan).Nodup →
    (∀ p, p ∉ paths plan → after d (runPlan plan).1 p = d p) ∧ ∀ (i : Nat) (o : Path × Except Fault Str), plan[i]? = some o →
      (firstFault ((plan.take (i + 1)).map fun o => ([], o.2)) = .ok () → ∃ s, o.2 = .ok s ∧ after d (runPlan plan).1 o.1 = some s) ∧
      (firstFault ((plan.take (i + 1)).map fun o => ([], o.2)) ≠ .ok () → after d (runPlan plan).1 o.1 = d o.1) := by
  intro plan
  induction plan with
  | nil => intro d _; exact ⟨fun _ _ => rfl, fun i o h => by simp at h⟩
  | cons o plan ih =>
    obtain ⟨p, c⟩ := o
    intro d hn
    obtain ⟨hp, hn'⟩ := List.nodup_cons.1 hn
    have hne : ∀ (i : Nat) (o : Path × Except Fault Str), plan[i]? = some o → o.1 ≠ p := by
      intro i o h e
      exact hp (e ▸ List.mem_map.2 ⟨o, List.mem_of_getElem? h, rfl⟩)
    cases c with
    | error e =>
      refine ⟨fun _ _ => rfl, fun i o ho => ⟨fun h => ?_, fun _ => rfl⟩⟩
      rw [List.take_succ_cons, List.map_cons, firstFault] at h
      cases h
    | ok s =>
      obtain ⟨h1, h2⟩ := ih (after d [.create p, .append p s]) hn'
      have e : ∀ q, after d (runPlan ((p, .ok s) :: plan)).1 q = after (after d [.create p, .append p s]) (runPlan plan).1 q := by
        intro q; rw [runPlan]; rfl
      refine ⟨fun q hq => ?_, fun i o ho => ?_⟩
      · simp only [paths, List.map_cons, List.mem_cons, not_or] at hq
        rw [e, h1 q hq.2, after_other hq.1]
      · rw [List.take_succ_cons, List.map_cons, firstFault]
        cases i with
        | zero =>
          rw [List.getElem?_cons_zero] at ho
          cases ho
          refine ⟨fun _ => ⟨s, rfl, by rw [e, h1 p hp, after_same]⟩, fun h => absurd rfl h⟩
        | succ i =>
          rw [List.getElem?_cons_succ] at ho
          obtain ⟨a, b⟩ := h2 i o ho
          rw [after_other (hne i o ho)] at b
          rw [e]
          exact ⟨a, b⟩

end Verif.Build

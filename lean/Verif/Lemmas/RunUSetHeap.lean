import Verif.Lemmas.RunUSetNew
import Verif.Model.USetProgram
/-! # Programs that use `UnicodeSet` objects do what the model of the objects does -/
namespace Verif.PyHeap
open Verif.PySyntax Verif.Data
open Verif.PyRun (R Err lift bound)
set_option Elab.async false

/-- The heap `σ` has the objects and lists of the heap `h` of the model; `vars` and `lists` are the addresses of the objects and of the lists. -/
structure Rep (h : USet.Heap) (vars lists : List Nat) (σ : Heap) : Prop where
  objs : vars.length = h.objs.length
  cells : lists.length = h.cells.length
  obj : ∀ (x a : Nat), vars[x]? = some a → ∃ (r b : Nat), h.objs[x]? = some r ∧ lists[r]? = some b ∧
    σ.cell a = some (.obj (n% "UnicodeSet") [(n% "list", .ref b)]) ∧ a < σ.next
  list : ∀ (r b : Nat) (l : List Int), lists[r]? = some b → h.cells[r]? = some l → σ.cell b = some (.list (vals l)) ∧ b < σ.next
  objInj : ∀ (x y a : Nat), vars[x]? = some a → vars[y]? = some a → x = y
  listInj : ∀ (x y a : Nat), lists[x]? = some a → lists[y]? = some a → x = y

theorem rep_empty (σ : Heap) : Rep USet.Heap.empty [] [] σ := by
  refine ⟨rfl, rfl, ?_, ?_, ?_, ?_⟩ <;> simp

/-- Variable `x` has object `a` with its list in cell `b`. -/
structure At (h : USet.Heap) (vars lists : List Nat) (σ : Heap) (x a r b : Nat) (l : List Int) : Prop where
  var : vars[x]? = some a
  obj : h.objs[x]? = some r
  cell : h.cells[r]? = some l
  list : lists[r]? = some b
  isSet : IsSet σ a b l

theorem At.read {h : USet.Heap} {vars lists : List Nat} {σ : Heap} {x a r b : Nat} {l : List Int} (A : At h vars lists σ x a r b l) :
    h.read x = .ok l := by simp only [USet.Heap.read, A.obj, A.cell]

theorem At.le {h : USet.Heap} {vars lists : List Nat} {σ : Heap} {x a r b : Nat} {l : List Int} (A : At h vars lists σ x a r b l) :
    l.length ≤ (h.cells.map List.length).sum := by
  have := List.mem_of_getElem? A.cell
  generalize h.cells = cs at this
  induction cs with
  | nil => simp at this
  | cons c cs ih =>
    rcases List.mem_cons.1 this with rfl | h
    · simp
    · have := ih h; simp; omega

theorem Rep.at {h : USet.Heap} {vars lists : List Nat} {σ : Heap} (P : Rep h vars lists σ) (x : Nat) :
    (vars[x]? = none ∧ h.read x = .error .attributeError) ∨ ∃ a r b l, At h vars lists σ x a r b l := by
  cases e : vars[x]? with
  | none =>
    refine .inl ⟨rfl, ?_⟩
    have : h.objs[x]? = none := by rw [List.getElem?_eq_none_iff] at e ⊢; rw [← P.objs]; exact e
    simp only [USet.Heap.read, this]
  | some a =>
    obtain ⟨r, b, h1, h2, h3, h4⟩ := P.obj x a e
    have hr : r < h.cells.length := by rw [← P.cells]; exact (List.getElem?_eq_some_iff.1 h2).1
    have h5 := List.getElem?_eq_getElem hr
    obtain ⟨h6, h7⟩ := P.list r b _ h2 h5
    exact .inr ⟨a, r, b, _, e, h1, h5, h2, h3, h6, h4, h7⟩

theorem get_set {α : Type} {l : List α} {i j : Nat} {a b : α} (h : (l.set i a)[j]? = some b) : (i = j ∧ b = a) ∨ (i ≠ j ∧ l[j]? = some b) := by
  rw [List.getElem?_set] at h
  split at h
  · split at h
    · exact .inl ⟨‹_›, (Option.some.inj h).symm⟩
    · simp at h
  · exact .inr ⟨‹_›, h⟩

theorem get_concat {α : Type} {l : List α} {j : Nat} {a b : α} (h : (l ++ [a])[j]? = some b) : (j = l.length ∧ b = a) ∨ (j < l.length ∧ l[j]? = some b) := by
  rw [List.getElem?_append] at h
  split at h
  · exact .inr ⟨‹_›, h⟩
  · have : j = l.length := by
      have := (List.getElem?_eq_some_iff.1 h).1
      simp at this; omega
    subst this
    simp at h
    exact .inl ⟨rfl, h.symm⟩

variable {h : USet.Heap} {vars lists : List Nat} {σ σ' : Heap} {x a r b : Nat} {l l' : List Int}

theorem Rep.mutate (P : Rep h vars lists σ) (A : At h vars lists σ x a r b l) (M : Mutated σ σ' b l') : Rep (h.mutate x l') vars lists σ' := by
  have hm : h.mutate x l' = { h with cells := h.cells.set r l' } := by simp only [USet.Heap.mutate, A.obj]
  rw [hm]
  refine ⟨P.objs, by simp [P.cells], ?_, ?_, P.objInj, P.listInj⟩
  · intro y c hc
    obtain ⟨q, d, h1, h2, h3, h4⟩ := P.obj y c hc
    refine ⟨q, d, h1, h2, ?_, Nat.lt_of_lt_of_le h4 M.next⟩
    rw [M.same c h4 ?_, h3]
    intro e
    rw [e, A.isSet.cell] at h3
    simp at h3
  · intro q d k hd hk
    rcases get_set hk with ⟨rfl, rfl⟩ | ⟨hne, hk⟩
    · have : d = b := by rw [A.list] at hd; exact (Option.some.inj hd).symm
      subst this
      exact ⟨M.cell, Nat.lt_of_lt_of_le A.isSet.cell_lt M.next⟩
    · obtain ⟨h1, h2⟩ := P.list q d k hd hk
      refine ⟨?_, Nat.lt_of_lt_of_le h2 M.next⟩
      rw [M.same d h2 ?_, h1]
      intro e
      exact hne (P.listInj r q b A.list (e ▸ hd))

theorem Rep.lists_lt (P : Rep h vars lists σ) {q d : Nat} (hd : lists[q]? = some d) : d < σ.next := by
  have hq : q < h.cells.length := by rw [← P.cells]; exact (List.getElem?_eq_some_iff.1 hd).1
  exact (P.list q d _ hd (List.getElem?_eq_getElem hq)).2

theorem Rep.rebind (P : Rep h vars lists σ) (A : At h vars lists σ x a r b l) (M : Rebound σ σ' a l') :
    ∃ lists', Rep (h.rebind x l') vars lists' σ' := by
  obtain ⟨b', hb', hs⟩ := M.isSet
  refine ⟨lists ++ [b'], by simp [USet.Heap.rebind, P.objs], by simp [USet.Heap.rebind, P.cells], ?_, ?_, P.objInj, ?_⟩
  · intro y c hc
    obtain ⟨q, d, h1, h2, h3, h4⟩ := P.obj y c hc
    by_cases hy : x = y
    · subst hy
      have : c = a := by rw [A.var] at hc; exact (Option.some.inj hc).symm
      subst this
      refine ⟨h.cells.length, b', ?_, ?_, hs.obj, hs.obj_lt⟩
      · have hx : x < h.objs.length := (List.getElem?_eq_some_iff.1 A.obj).1
        simp [USet.Heap.rebind, hx]
      · rw [← P.cells]; simp
    · refine ⟨q, d, ?_, ?_, ?_, Nat.lt_of_lt_of_le h4 M.next⟩
      · simp [USet.Heap.rebind, hy, h1]
      · rw [List.getElem?_append_left (List.getElem?_eq_some_iff.1 h2).1, h2]
      · rw [M.same c h4 ?_, h3]
        intro e
        exact hy (P.objInj x y a A.var (e ▸ hc))
  · intro q d k hd hk
    simp only [USet.Heap.rebind] at hk
    rcases get_concat hd with ⟨hq, rfl⟩ | ⟨hq, hd⟩
    · rcases get_concat hk with ⟨_, rfl⟩ | ⟨hq', _⟩
      · exact ⟨hs.cell, hs.cell_lt⟩
      · rw [P.cells] at hq; omega
    · rcases get_concat hk with ⟨hq', _⟩ | ⟨_, hk⟩
      · rw [P.cells] at hq; omega
      · obtain ⟨h1, h2⟩ := P.list q d k hd hk
        refine ⟨?_, Nat.lt_of_lt_of_le h2 M.next⟩
        rw [M.same d h2 ?_, h1]
        intro e
        rw [e, A.isSet.obj] at h1
        simp at h1
  · intro y z c hy hz
    rcases get_concat hy with ⟨hy, rfl⟩ | ⟨hy, hy'⟩ <;> rcases get_concat hz with ⟨hz, e⟩ | ⟨hz, hz'⟩
    · omega
    · have := P.lists_lt hz'; omega
    · have := P.lists_lt hy'; omega
    · exact P.listInj y z c hy' hz'

theorem Rep.alloc (P : Rep h vars lists σ) {y : Nat} (M : Created σ σ' y l') : ∃ lists', Rep (h.alloc l') (vars ++ [y]) lists' σ' := by
  obtain ⟨b', hb', hs⟩ := M.isSet
  refine ⟨lists ++ [b'], by simp [USet.Heap.alloc, P.objs], by simp [USet.Heap.alloc, P.cells], ?_, ?_, ?_, ?_⟩
  · intro z c hc
    rcases get_concat hc with ⟨hz, rfl⟩ | ⟨hz, hc⟩
    · refine ⟨h.cells.length, b', ?_, ?_, hs.obj, hs.obj_lt⟩
      · rw [hz, P.objs]; simp [USet.Heap.alloc]
      · rw [← P.cells]; simp
    · obtain ⟨q, d, h1, h2, h3, h4⟩ := P.obj z c hc
      refine ⟨q, d, ?_, ?_, ?_, Nat.lt_of_lt_of_le h4 M.next⟩
      · rw [P.objs] at hz; simp only [USet.Heap.alloc]; rw [List.getElem?_append_left hz, h1]
      · rw [List.getElem?_append_left (List.getElem?_eq_some_iff.1 h2).1, h2]
      · rw [M.same c h4, h3]
  · intro q d k hd hk
    simp only [USet.Heap.alloc] at hk
    rcases get_concat hd with ⟨hq, rfl⟩ | ⟨hq, hd⟩
    · rcases get_concat hk with ⟨_, rfl⟩ | ⟨hq', _⟩
      · exact ⟨hs.cell, hs.cell_lt⟩
      · rw [P.cells] at hq; omega
    · rcases get_concat hk with ⟨hq', _⟩ | ⟨_, hk⟩
      · rw [P.cells] at hq; omega
      · obtain ⟨h1, h2⟩ := P.list q d k hd hk
        exact ⟨by rw [M.same d h2, h1], Nat.lt_of_lt_of_le h2 M.next⟩
  · intro z u c hz hu
    rcases get_concat hz with ⟨hz, rfl⟩ | ⟨hz, hz'⟩ <;> rcases get_concat hu with ⟨hu, e⟩ | ⟨hu, hu'⟩
    · omega
    · obtain ⟨_, _, _, _, _, h4⟩ := P.obj _ _ hu'; have := M.fresh; omega
    · obtain ⟨_, _, _, _, _, h4⟩ := P.obj _ _ hz'; have := M.fresh; omega
    · exact P.objInj z u c hz' hu'
  · intro z u c hy hz
    rcases get_concat hy with ⟨hy, rfl⟩ | ⟨hy, hy'⟩ <;> rcases get_concat hz with ⟨hz, e⟩ | ⟨hz, hz'⟩
    · omega
    · have := P.lists_lt hz'; omega
    · have := P.lists_lt hy'; omega
    · exact P.listInj z u c hy' hz'

/-- The value that a call returns is the one of the model. -/
def Corr (vars : List Nat) : USet.Ret → Val → Prop
  | none, v => v = .none
  | some x, v => ∃ a, vars[x]? = some a ∧ v = .ref a

/-- A call does what the model does. -/
def StepOk (w : Scope) (n : Nat) (h : USet.Heap) (vars : List Nat) (σ : Heap) (op : USet.Op) : Prop :=
  match USet.step h op with
  | .ok (h', u) => ∃ v σ' vars' lists', callOp w n vars op σ = .ok (v, σ') ∧ keep vars op v = .ok vars' ∧ Rep h' vars' lists' σ' ∧ Corr vars' u v
  | .error e => callOp w n vars op σ = .error (.raised e)

variable {w : Scope} {n : Nat} {op : USet.Op} {res : R (Val × Heap)}

theorem step_missing {e : PyErr} (hs : USet.step h op = .error e) (hc : callOp w n vars op σ = .error (.raised e)) : StepOk w n h vars σ op := by
  rw [StepOk, hs]; exact hc

theorem step_rebind (P : Rep h vars lists σ) (A : At h vars lists σ x a r b l) {y : Py (List Int)} (hs : USet.step h op = h.assign x y)
    (hk : makes op = false) (hc : callOp w n vars op σ = res) (ho : Outcome res y (fun l v σ' => v = .ref a ∧ Rebound σ σ' a l)) :
    StepOk w n h vars σ op := by
  rw [StepOk, hs, hc]
  cases y with
  | error e => exact ho
  | ok l' =>
    obtain ⟨v, σ', h1, h2, h3⟩ := ho
    obtain ⟨lists', h4⟩ := P.rebind A h3
    exact ⟨v, σ', vars, lists', h1, by simp [keep, hk], h4, a, A.var, h2⟩

theorem step_guarded (P : Rep h vars lists σ) (A : At h vars lists σ x a r b l) {y : Py (List Int)} {s e : Int}
    (hs : USet.step h op = h.guarded x s e y) (hk : makes op = false) (hc : callOp w n vars op σ = res)
    (ho : Outcome res (if USet.pinCodePoint s < USet.pinCodePoint e then y else .ok l)
      (fun l v σ' => v = .ref a ∧ if USet.pinCodePoint s < USet.pinCodePoint e then Rebound σ σ' a l else σ' = σ)) : StepOk w n h vars σ op := by
  rw [USet.Heap.guarded] at hs
  by_cases hg : USet.pinCodePoint s < USet.pinCodePoint e
  · simp only [if_pos hg] at hs ho
    exact step_rebind P A hs hk hc ho
  · simp only [if_neg hg] at hs ho
    obtain ⟨v, σ', h1, h2, h3⟩ := ho
    rw [StepOk, hs, hc]
    exact ⟨v, σ', vars, lists, h1, by simp [keep, hk], h3 ▸ P, a, A.var, h2⟩

theorem step_mutate (P : Rep h vars lists σ) (A : At h vars lists σ x a r b l) {v : Val} {u : USet.Ret} (hs : USet.step h op = .ok (h.mutate x l', u))
    (hk : makes op = false) (hc : callOp w n vars op σ = .ok (v, σ')) (hm : Mutated σ σ' b l') (hv : Corr vars u v) : StepOk w n h vars σ op := by
  rw [StepOk, hs]
  exact ⟨v, σ', vars, lists, hc, by simp [keep, hk], P.mutate A hm, hv⟩

theorem step_alloc (P : Rep h vars lists σ) (hs : USet.step h op = .ok (h.alloc l', some h.objs.length))
    (hk : makes op = true) (hc : callOp w n vars op σ = .ok (.ref σ.next, σ')) (hm : Created σ σ' σ.next l') : StepOk w n h vars σ op := by
  rw [StepOk, hs]
  obtain ⟨lists', h4⟩ := P.alloc hm
  exact ⟨_, σ', vars ++ [σ.next], lists', hc, by simp [keep, hk], h4, σ.next, by rw [← P.objs]; simp, rfl⟩

theorem At.variable (A : At h vars lists σ x a r b l) : variable' vars x = .ok (.ref a) := by rw [variable', A.var]

theorem At.ints (A : At h vars lists σ x a r b l) (f : Nat) (args : List Int) :
    callInts w n vars x f args σ = method w (run w n) (n% "UnicodeSet") f (.ref a :: args.map .int) σ := by
  rw [callInts, A.variable]
  simp only [PyRun.bind_match, callMethod, A.isSet.obj]

theorem At.set {y c q d : Nat} {m : List Int} (A : At h vars lists σ x a r b l) (B : At h vars lists σ y c q d m) (f : Nat) :
    callSet w n vars x f y σ = method w (run w n) (n% "UnicodeSet") f [.ref a, .ref c] σ := by
  rw [callSet, A.variable, B.variable]
  simp only [PyRun.bind_match, callMethod, A.isSet.obj]

theorem missing_ints (hx : vars[x]? = none) (f : Nat) (args : List Int) : callInts w n vars x f args σ = .error (.raised .attributeError) := by
  rw [callInts, variable', hx]; rfl

theorem missing_set (hx : vars[x]? = none) (f y : Nat) : callSet w n vars x f y σ = .error (.raised .attributeError) := by
  rw [callSet, variable', hx]; rfl

theorem missing_set' {y : Nat} (A : At h vars lists σ x a r b l) (hy : vars[y]? = none) (f : Nat) :
    callSet w n vars x f y σ = .error (.raised .attributeError) := by
  rw [callSet, A.variable, variable', hy]; rfl

end Verif.PyHeap

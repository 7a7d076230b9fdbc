import Verif.Lemmas.USetRange
import Verif.Spec.SetHistory
/-! The heap model simulates independent values. -/
namespace Verif.USet
open Verif.Spec

/-- Distinct set objects hold distinct, existing list objects. -/
def HeapInv (h : Heap) : Prop := h.objs.Nodup ∧ ∀ r ∈ h.objs, r < h.cells.length

theorem read_eq {h : Heap} (hi : HeapInv h) {x : Nat} (hx : x < h.objs.length) :
    h.read x = .ok (h.cells[h.objs[x]]'(hi.2 _ (List.getElem_mem _))) := by
  unfold Heap.read
  rw [List.getElem?_eq_getElem hx]
  simp only
  rw [List.getElem?_eq_getElem (hi.2 _ (List.getElem_mem _))]

theorem read_lt {h : Heap} {x : Nat} {l : List Int} (hr : h.read x = .ok l) : x < h.objs.length := by
  unfold Heap.read at hr
  apply Nat.lt_of_not_le
  intro hle
  rw [List.getElem?_eq_none hle] at hr
  simp at hr

theorem objs_inj {h : Heap} (hi : HeapInv h) {x y : Nat} (hx : x < h.objs.length) (hy : y < h.objs.length)
    (he : h.objs[x] = h.objs[y]) : x = y := by
  have := hi.1
  exact (List.getElem_inj this).mp he

theorem mutate_spec {h : Heap} (hi : HeapInv h) {x : Nat} (hx : x < h.objs.length) (v : List Int) :
    HeapInv (h.mutate x v) ∧ (h.mutate x v).objs = h.objs ∧ (h.mutate x v).read x = .ok v ∧
      ∀ y, y ≠ x → (h.mutate x v).read y = h.read y := by
  have e : h.mutate x v = { h with cells := h.cells.set h.objs[x] v } := by
    unfold Heap.mutate; rw [List.getElem?_eq_getElem hx]
  have hlt := hi.2 _ (List.getElem_mem hx)
  rw [e]
  refine ⟨⟨hi.1, fun r hr => by simpa using hi.2 r hr⟩, rfl, ?_, ?_⟩
  · unfold Heap.read
    simp only [List.getElem?_eq_getElem hx]
    rw [List.getElem?_set_self hlt]
  · intro y hy
    unfold Heap.read
    simp only
    cases hq : h.objs[y]? with
    | none => rfl
    | some r =>
      simp only
      rw [List.getElem?_eq_some_iff] at hq
      obtain ⟨hy', rfl⟩ := hq
      rw [List.getElem?_set_ne]
      intro heq
      exact hy (objs_inj hi hx hy' heq).symm

theorem rebind_spec {h : Heap} (hi : HeapInv h) {x : Nat} (hx : x < h.objs.length) (v : List Int) :
    HeapInv (h.rebind x v) ∧ (h.rebind x v).objs.length = h.objs.length ∧ (h.rebind x v).read x = .ok v ∧
      ∀ y, y ≠ x → (h.rebind x v).read y = h.read y := by
  unfold Heap.rebind
  refine ⟨⟨?_, ?_⟩, by simp, ?_, ?_⟩
  · rw [List.nodup_iff_pairwise_ne, List.pairwise_iff_getElem]
    intro i j hi' hj' hij
    simp only [List.length_set] at hi' hj'
    simp only [List.getElem_set]
    have h1 := hi.2 _ (List.getElem_mem hi')
    have h2 := hi.2 _ (List.getElem_mem hj')
    have h3 : h.objs[i] ≠ h.objs[j] := fun he => by
      have := objs_inj hi hi' hj' he; omega
    split <;> split <;> omega
  · intro r hr
    simp only [List.length_append, List.length_singleton]
    rcases List.mem_or_eq_of_mem_set hr with hr | rfl
    · have := hi.2 r hr; omega
    · omega
  · unfold Heap.read
    simp only
    rw [List.getElem?_set_self hx]
    simp
  · intro y hy
    unfold Heap.read
    simp only
    rw [List.getElem?_set_ne (fun h => hy h.symm)]
    cases hq : h.objs[y]? with
    | none => rfl
    | some r =>
      simp only
      rw [List.getElem?_append_left (hi.2 r (List.mem_of_getElem? hq))]

theorem alloc_spec {h : Heap} (hi : HeapInv h) (v : List Int) :
    HeapInv (h.alloc v) ∧ (h.alloc v).objs.length = h.objs.length + 1 ∧ (h.alloc v).read h.objs.length = .ok v ∧
      ∀ y, y < h.objs.length → (h.alloc v).read y = h.read y := by
  unfold Heap.alloc
  refine ⟨⟨?_, ?_⟩, by simp, ?_, ?_⟩
  · rw [List.nodup_append]
    refine ⟨hi.1, by simp, ?_⟩
    intro a ha b hb
    simp at hb; subst hb
    have := hi.2 a ha; omega
  · intro r hr
    simp at hr ⊢
    rcases hr with hr | rfl
    · have := hi.2 r hr; omega
    · omega
  · unfold Heap.read; simp
  · intro y hy
    unfold Heap.read
    simp only
    rw [List.getElem?_append_left hy]
    cases hq : h.objs[y]? with
    | none => rfl
    | some r =>
      simp only
      rw [List.getElem?_append_left (hi.2 r (List.mem_of_getElem? hq))]

/-- The list value a call computes, as a function of the values of the lists it reads. -/
def val (rd : Nat → Py (List Int)) : Op → Py (List Int)
  | .new => .ok new
  | .newCopy x => do let l ← rd x; return newCopy l
  | .newInt cp => .ok (newInt cp)
  | .newRange s e => .ok (newRange s e)
  | .add x cp => do let l ← rd x; add l cp
  | .addRange x s e => do let l ← rd x; addRange l s e
  | .addAll x y => do let l ← rd x; let m ← rd y; addAll l m
  | .remove x cp => do let l ← rd x; remove l cp
  | .removeRange x s e => do let l ← rd x; removeRange l s e
  | .removeAll x y => do let l ← rd x; let m ← rd y; removeAll l m
  | .retain x cp => do let l ← rd x; retain l cp
  | .retainRange x s e => do let l ← rd x; retainRange l s e
  | .retainAll x y => do let l ← rd x; let m ← rd y; retainAll l m
  | .complement x => do let l ← rd x; complement l
  | .complementInt x cp => do let l ← rd x; complementInt l cp
  | .complementPyRange x s e => do let l ← rd x; complementPyRange l s e
  | .complementRange x s e => do let l ← rd x; complementRange l s e
  | .complementAll x y => do let l ← rd x; let m ← rd y; complementAll l m
  | .clear x => do let l ← rd x; return clear l
  | .union x y => do let l ← rd x; let m ← rd y; union l m
  | .intersection x y => do let l ← rd x; let m ← rd y; intersection l m
  | .difference x y => do let l ← rd x; let m ← rd y; difference l m
  | .symmetricDifference x y => do let l ← rd x; let m ← rd y; symmetricDifference l m

/-- The object that holds the result of a call. -/
def Op.target (n : Nat) (op : Op) : Nat := op.receiver.getD n

/-- The object returned: the target, except on the fast path of `addRange`. -/
def OneStep (h : Heap) (op : Op) (v : List Int) (h' : Heap) (ret : Ret) : Prop :=
  step h op = .ok (h', ret) ∧ HeapInv h' ∧ h'.objs.length = op.count h.objs.length ∧
  h'.read (op.target h.objs.length) = .ok v ∧
  (∀ y, y < h.objs.length → op.receiver ≠ some y → h'.read y = h.read y) ∧
  (ret = some (op.target h.objs.length) ∨ (ret = none ∧ ∃ x s e, op = .addRange x s e))

theorem bind_ok {α β : Type} {a : Py α} {f : α → Py β} {v : β} (h : (do let x ← a; f x) = Except.ok v) :
    ∃ x, a = .ok x ∧ f x = .ok v := by
  cases a with
  | error e => simp [bind, Except.bind] at h
  | ok x => exact ⟨x, rfl, h⟩

theorem oneStep_assign {h : Heap} (hi : HeapInv h) {op : Op} {x : Nat} (hx : x < h.objs.length) {v : List Int}
    (hop : op.receiver = some x) (hs : step h op = .ok (h.rebind x v, some x)) :
    ∃ h' ret, OneStep h op v h' ret := by
  obtain ⟨a, b, c, d⟩ := rebind_spec hi hx v
  refine ⟨_, _, hs, a, ?_, ?_, ?_, Or.inl ?_⟩
  · rw [b]; simp [Op.count, hop]
  · simpa [Op.target, hop] using c
  · intro y _ hy
    exact d y (fun h => hy (by rw [hop, h]))
  · simp [Op.target, hop]

theorem oneStep_mutate {h : Heap} (hi : HeapInv h) {op : Op} {x : Nat} (hx : x < h.objs.length) {v : List Int} {ret : Ret}
    (hop : op.receiver = some x) (hs : step h op = .ok (h.mutate x v, ret))
    (hret : ret = some x ∨ (ret = none ∧ ∃ x s e, op = .addRange x s e)) :
    ∃ h' ret, OneStep h op v h' ret := by
  obtain ⟨a, b, c, d⟩ := mutate_spec hi hx v
  refine ⟨_, _, hs, a, ?_, ?_, ?_, ?_⟩
  · rw [b]; simp [Op.count, hop]
  · simpa [Op.target, hop] using c
  · intro y _ hy
    exact d y (fun h => hy (by rw [hop, h]))
  · simpa [Op.target, hop] using hret

theorem oneStep_same {h : Heap} (hi : HeapInv h) {op : Op} {x : Nat} {l : List Int} (hx : h.read x = .ok l)
    (hop : op.receiver = some x) (hs : step h op = .ok (h, some x)) :
    ∃ h' ret, OneStep h op l h' ret := by
  refine ⟨_, _, hs, hi, ?_, ?_, fun _ _ _ => rfl, Or.inl ?_⟩
  · simp [Op.count, hop]
  · simpa [Op.target, hop] using hx
  · simp [Op.target, hop]

theorem oneStep_alloc {h : Heap} (hi : HeapInv h) {op : Op} {v : List Int} (hop : op.receiver = none)
    (hs : step h op = .ok (h.alloc v, some h.objs.length)) : ∃ h' ret, OneStep h op v h' ret := by
  obtain ⟨a, b, c, d⟩ := alloc_spec hi v
  refine ⟨_, _, hs, a, ?_, ?_, ?_, Or.inl ?_⟩
  · rw [b]; simp [Op.count, hop]
  · simpa [Op.target, hop] using c
  · intro y hy _; exact d y hy
  · simp [Op.target, hop]

theorem oneStep_guarded {h : Heap} (hi : HeapInv h) {op : Op} {x : Nat} {l v : List Int} {s e : Int} {r : Py (List Int)}
    (hx : h.read x = .ok l) (hop : op.receiver = some x) (hs : step h op = h.guarded x s e r)
    (hv : (if pinCodePoint s < pinCodePoint e then r else .ok l) = .ok v) : ∃ h' ret, OneStep h op v h' ret := by
  unfold Heap.guarded at hs
  split at hs
  · rename_i hlt
    rw [if_pos hlt] at hv
    rw [hv] at hs
    exact oneStep_assign hi (read_lt hx) hop hs
  · rename_i hlt
    rw [if_neg hlt] at hv
    cases hv
    exact oneStep_same hi hx hop hs

theorem oneStep_copyThen {h : Heap} (hi : HeapInv h) {op : Op} {x y : Nat} {l m v : List Int}
    {f : List Int → List Int → Py (List Int)} (hx : h.read x = .ok l) (hy : h.read y = .ok m)
    (hop : op.receiver = none) (hs : step h op = h.copyThen x y f) (hv : f l m = .ok v) :
    ∃ h' ret, OneStep h op v h' ret := by
  obtain ⟨a, b, c, d⟩ := alloc_spec hi l
  obtain ⟨a', b', c', d'⟩ := rebind_spec a (x := h.objs.length) (by omega) v
  have hs' : step h op = .ok ((h.alloc l).rebind h.objs.length v, some h.objs.length) := by
    rw [hs]
    unfold Heap.copyThen
    rw [hx, hy]
    simp only [bind, Except.bind]
    rw [hv]
    rfl
  refine ⟨_, _, hs', a', ?_, ?_, ?_, Or.inl ?_⟩
  · rw [b', b]; simp [Op.count, hop]
  · simpa [Op.target, hop] using c'
  · intro z hz _
    rw [d' z (by omega), d z hz]
  · simp [Op.target, hop]

theorem step_of_val {h : Heap} (hi : HeapInv h) {op : Op} {v : List Int} (hv : val h.read op = .ok v) :
    ∃ h' ret, OneStep h op v h' ret := by
  cases op with
  | new => simp only [val] at hv; cases hv; exact oneStep_alloc hi rfl rfl
  | newInt cp => simp only [val] at hv; cases hv; exact oneStep_alloc hi rfl rfl
  | newRange s e => simp only [val] at hv; cases hv; exact oneStep_alloc hi rfl rfl
  | newCopy x =>
    simp only [val] at hv
    obtain ⟨l, hl, hv⟩ := bind_ok hv
    cases hv
    refine oneStep_alloc hi rfl ?_
    simp [step, hl, bind, Except.bind, pure, Except.pure, newCopy]
  | add x cp =>
    simp only [val] at hv
    obtain ⟨l, hl, hv⟩ := bind_ok hv
    refine oneStep_mutate hi (read_lt hl) rfl (ret := some x) ?_ (Or.inl rfl)
    simp [step, hl, hv, bind, Except.bind, pure, Except.pure]
  | addRange x s e =>
    simp only [val] at hv
    obtain ⟨l, hl, hv⟩ := bind_ok hv
    unfold addRange at hv
    obtain ⟨⟨w, b⟩, hw, hv⟩ := bind_ok hv
    cases hv
    cases b with
    | false =>
      refine oneStep_mutate hi (read_lt hl) rfl (ret := none) ?_ (Or.inr ⟨rfl, x, s, e, rfl⟩)
      simp [step, hl, hw, bind, Except.bind, pure, Except.pure]
    | true =>
      by_cases hlt : pinCodePoint s < pinCodePoint e
      · refine oneStep_assign hi (read_lt hl) rfl ?_
        simp [step, hl, hw, hlt, bind, Except.bind, pure, Except.pure]
      · refine oneStep_mutate hi (read_lt hl) rfl (ret := some x) ?_ (Or.inl rfl)
        simp [step, hl, hw, hlt, bind, Except.bind, pure, Except.pure]
  | addAll x y =>
    simp only [val] at hv
    obtain ⟨l, hl, hv⟩ := bind_ok hv
    obtain ⟨m, hm, hv⟩ := bind_ok hv
    simp only [addAll] at hv
    refine oneStep_assign hi (read_lt hl) rfl ?_
    simp [step, hl, hm, hv, Heap.assign, bind, Except.bind, pure, Except.pure]
  | removeAll x y =>
    simp only [val] at hv
    obtain ⟨l, hl, hv⟩ := bind_ok hv
    obtain ⟨m, hm, hv⟩ := bind_ok hv
    simp only [removeAll] at hv
    refine oneStep_assign hi (read_lt hl) rfl ?_
    simp [step, hl, hm, hv, Heap.assign, bind, Except.bind, pure, Except.pure]
  | retainAll x y =>
    simp only [val] at hv
    obtain ⟨l, hl, hv⟩ := bind_ok hv
    obtain ⟨m, hm, hv⟩ := bind_ok hv
    simp only [retainAll] at hv
    refine oneStep_assign hi (read_lt hl) rfl ?_
    simp [step, hl, hm, hv, Heap.assign, bind, Except.bind, pure, Except.pure]
  | complementAll x y =>
    simp only [val] at hv
    obtain ⟨l, hl, hv⟩ := bind_ok hv
    obtain ⟨m, hm, hv⟩ := bind_ok hv
    simp only [complementAll] at hv
    refine oneStep_assign hi (read_lt hl) rfl ?_
    simp [step, hl, hm, hv, Heap.assign, bind, Except.bind, pure, Except.pure]
  | remove x cp =>
    simp only [val] at hv
    obtain ⟨l, hl, hv⟩ := bind_ok hv
    exact oneStep_guarded hi hl rfl (by simp [step, hl, bind, Except.bind]) hv
  | removeRange x s e =>
    simp only [val] at hv
    obtain ⟨l, hl, hv⟩ := bind_ok hv
    exact oneStep_guarded hi hl rfl (by simp [step, hl, bind, Except.bind]) hv
  | retain x cp =>
    simp only [val] at hv
    obtain ⟨l, hl, hv⟩ := bind_ok hv
    exact oneStep_guarded hi hl rfl (by simp [step, hl, bind, Except.bind]) hv
  | retainRange x s e =>
    simp only [val] at hv
    obtain ⟨l, hl, hv⟩ := bind_ok hv
    exact oneStep_guarded hi hl rfl (by simp [step, hl, bind, Except.bind]) hv
  | complementInt x cp =>
    simp only [val] at hv
    obtain ⟨l, hl, hv⟩ := bind_ok hv
    exact oneStep_guarded hi hl rfl (by simp [step, hl, bind, Except.bind]) hv
  | complementPyRange x s e =>
    simp only [val] at hv
    obtain ⟨l, hl, hv⟩ := bind_ok hv
    exact oneStep_guarded hi hl rfl (by simp only [step, hl, bind, Except.bind]) hv
  | complementRange x s e =>
    simp only [val] at hv
    obtain ⟨l, hl, hv⟩ := bind_ok hv
    exact oneStep_guarded hi hl rfl (by simp [step, hl, bind, Except.bind]) hv
  | complement x =>
    simp only [val] at hv
    obtain ⟨l, hl, hv⟩ := bind_ok hv
    unfold complement at hv
    obtain ⟨l0, hl0, hv⟩ := bind_ok hv
    by_cases h0 : l0 = LOW
    · rw [if_pos h0] at hv; cases hv
      refine oneStep_assign hi (read_lt hl) rfl ?_
      simp [step, hl, hl0, h0, bind, Except.bind, pure, Except.pure]
    · rw [if_neg h0] at hv; cases hv
      refine oneStep_mutate hi (read_lt hl) rfl (ret := some x) ?_ (Or.inl rfl)
      simp [step, hl, hl0, h0, bind, Except.bind, pure, Except.pure]
  | clear x =>
    simp only [val] at hv
    obtain ⟨l, hl, hv⟩ := bind_ok hv
    cases hv
    refine oneStep_assign hi (read_lt hl) rfl ?_
    simp [step, hl, bind, Except.bind, pure, Except.pure, clear]
  | union x y =>
    simp only [val] at hv
    obtain ⟨l, hl, hv⟩ := bind_ok hv
    obtain ⟨m, hm, hv⟩ := bind_ok hv
    exact oneStep_copyThen hi hl hm rfl rfl hv
  | intersection x y =>
    simp only [val] at hv
    obtain ⟨l, hl, hv⟩ := bind_ok hv
    obtain ⟨m, hm, hv⟩ := bind_ok hv
    exact oneStep_copyThen hi hl hm rfl rfl hv
  | difference x y =>
    simp only [val] at hv
    obtain ⟨l, hl, hv⟩ := bind_ok hv
    obtain ⟨m, hm, hv⟩ := bind_ok hv
    exact oneStep_copyThen hi hl hm rfl rfl hv
  | symmetricDifference x y =>
    simp only [val] at hv
    obtain ⟨l, hl, hv⟩ := bind_ok hv
    obtain ⟨m, hm, hv⟩ := bind_ok hv
    exact oneStep_copyThen hi hl hm rfl rfl hv

end Verif.USet

import Verif.Lemmas.USetHistory
import Verif.Lemmas.USetIter
import Verif.Spec.SetIteration
/-! Iterators over sets that change meanwhile. -/
namespace Verif.USet
open Verif.Spec

theorem pyGet_cast {α : Type} (l : List α) (n : Nat) : pyGet l (n : Nat) = match l[n]? with | some x => .ok x | none => .error .indexError := by
  unfold pyGet
  rw [if_pos (by omega), Int.toNat_natCast]
  rfl

theorem pyRange_cons {a b : Int} (h : a < b) : pyRange a b = a :: pyRange (a + 1) b := by
  unfold pyRange
  rw [show (b - a).toNat = (b - (a + 1)).toNat + 1 by omega, List.range_succ_eq_map, List.map_cons, List.map_map]
  simp only [List.cons.injEq]
  refine ⟨by simp, List.map_congr_left fun k _ => ?_⟩
  simp only [Function.comp]
  omega

theorem pyRange_nil {a b : Int} (h : ¬ a < b) : pyRange a b = [] := by
  unfold pyRange
  rw [show (b - a).toNat = 0 by omega]; rfl

/-! ## One iterator -/

theorem next_fresh (h : Heap) (x : Nat) : next h (.fresh x) = (do let l ← h.read x; advance h x 0 (l.length / 2)) := rfl
theorem next_inside (h : Heap) (x m k : Nat) (cur limit : Int) : next h (.inside x m k cur limit) =
    if cur < limit then .ok (.inside x m k (cur + 1) limit, some cur) else advance h x m k := rfl

/-- The set an iterator is for. -/
def Iter.For (x : Nat) : Iter → Prop
  | .fresh y => y = x
  | .inside y _ _ _ _ => y = x
  | .done => True

/-- What an iterator has still to deliver while its set has the list `l`. -/
def Rem (l : List Int) : Iter → List Int → Prop
  | .fresh _, rem => rem = iter l
  | .inside _ m k cur limit, rem => rem = pyRange cur limit ++ iter (l.drop (2 * m)) ∧ k = (l.length - 2 * m) / 2
  | .done, rem => rem = []

theorem drop_two {l : List Int} {i : Nat} (h : i + 1 < l.length) : l.drop i = l[i] :: l[i + 1] :: l.drop (i + 2) := by
  rw [List.drop_eq_getElem_cons (by omega), List.drop_eq_getElem_cons h]

theorem advance_rem {h : Heap} {x : Nat} {l : List Int} (hr : h.read x = .ok l) : ∀ (k m : Nat), k = (l.length - 2 * m) / 2 →
    ∃ it, advance h x m k = .ok (it, (iter (l.drop (2 * m))).head?) ∧ it.For x ∧ Rem l it (iter (l.drop (2 * m))).tail
  | 0, m, hk => by
    have hn : iter (l.drop (2 * m)) = [] := by
      have hl : (l.drop (2 * m)).length < 2 := by rw [List.length_drop]; omega
      match l.drop (2 * m), hl with
      | [], _ => rfl
      | [_], _ => rfl
    rw [hn]
    exact ⟨.done, rfl, trivial, rfl⟩
  | k + 1, m, hk => by
    have hlt : 2 * m + 1 < l.length := by omega
    rw [drop_two hlt]
    unfold advance
    rw [hr]
    simp only [bind, Except.bind, pyGet_cast, List.getElem?_eq_getElem (show 2 * m < l.length by omega), List.getElem?_eq_getElem hlt]
    unfold iter
    by_cases hs : l[2 * m] < l[2 * m + 1]
    · rw [if_pos hs, pyRange_cons hs]
      exact ⟨_, rfl, rfl, rfl, by omega⟩
    · rw [if_neg hs, pyRange_nil hs]
      exact advance_rem hr k (m + 1) (by omega)

theorem next_rem {h : Heap} {x : Nat} {l : List Int} (hr : h.read x = .ok l) {it : Iter} (hx : it.For x) {rem : List Int} (hm : Rem l it rem) :
    ∃ it', next h it = .ok (it', rem.head?) ∧ it'.For x ∧ Rem l it' rem.tail := by
  match it, hx, hm with
  | .fresh y, hx, hm =>
    cases hx; cases hm
    rw [next_fresh, hr]
    exact advance_rem hr _ 0 (by omega)
  | .inside y m k cur limit, hx, hm =>
    cases hx
    obtain ⟨rfl, hk⟩ := hm
    rw [next_inside]
    by_cases hc : cur < limit
    · rw [if_pos hc, pyRange_cons hc]
      exact ⟨_, rfl, rfl, rfl, hk⟩
    · rw [if_neg hc, pyRange_nil hc]
      exact advance_rem hr k m hk
  | .done, _, hm =>
    cases hm
    exact ⟨.done, rfl, trivial, rfl⟩

/-! ## Programs -/

/-- Everything is in order: the sets are well formed, and the iterators are for sets that exist. -/
def WorldOk (w : World) : Prop := HeapOk w.heap ∧ ∀ it ∈ w.iters, ∃ x, x < w.heap.objs.length ∧ it.For x

theorem worldOk_empty : WorldOk World.empty := ⟨heapOk_empty, by simp [World.empty]⟩

theorem For.mono {it : Iter} {n n' : Nat} (h : ∃ x, x < n ∧ it.For x) (hn : n ≤ n') : ∃ x, x < n' ∧ it.For x := by
  obtain ⟨x, h1, h2⟩ := h
  exact ⟨x, by omega, h2⟩

theorem advance_for {h : Heap} {x : Nat} : ∀ {k m : Nat} {it : Iter} {v : Option Int}, advance h x m k = .ok (it, v) → it.For x
  | 0, _, it, v, e => by
    unfold advance at e; cases e; trivial
  | k + 1, m, it, v, e => by
    unfold advance at e
    cases hr : h.read x with
    | error y => rw [hr] at e; cases e
    | ok l =>
      rw [hr] at e
      simp only [bind, Except.bind] at e
      cases h1 : pyGet l (2 * m : Nat) with
      | error y => rw [h1] at e; cases e
      | ok a =>
        rw [h1] at e
        cases h2 : pyGet l (2 * m + 1 : Nat) with
        | error y => simp only [h2] at e; cases e
        | ok b =>
          simp only [h2] at e
          split at e
          · cases e; rfl
          · exact advance_for e

theorem next_for {h : Heap} {x : Nat} {it it' : Iter} {v : Option Int} (hx : it.For x) (e : next h it = .ok (it', v)) : it'.For x := by
  match it, hx with
  | .fresh y, hx =>
    cases hx
    rw [next_fresh] at e
    cases hr : h.read x with
    | error z => rw [hr] at e; cases e
    | ok l => rw [hr] at e; exact advance_for e
  | .inside y m k cur limit, hx =>
    cases hx
    rw [next_inside] at e
    split at e
    · cases e; rfl
    · exact advance_for e
  | .done, _ =>
    unfold next at e; cases e; trivial

/-- Number of iterators after an event. -/
def Event.iters (m : Nat) : Event → Nat
  | .iter _ => m + 1
  | _ => m

/-- Number of sets after an event. -/
def Event.sets (n : Nat) : Event → Nat
  | .call op => op.count n
  | _ => n

theorem legalEvents_cons {n m : Nat} {e : Event} {es : List Event} :
    LegalEvents n m (e :: es) ↔ LegalEvents n m [e] ∧ LegalEvents (e.sets n) (e.iters m) es := by
  cases e <;> simp [LegalEvents, Event.sets, Event.iters]

theorem stepEvent_ok {w : World} (hw : WorldOk w) {e : Event} (hl : LegalEvents w.heap.objs.length w.iters.length [e]) :
    ∃ w' log, stepEvent w e = .ok (w', log) ∧ WorldOk w' ∧ w'.heap.objs.length = e.sets w.heap.objs.length ∧
      w'.iters.length = e.iters w.iters.length := by
  cases e with
  | call op =>
    obtain ⟨v, h', ret, hs, hok, _⟩ := step_ok hw.1 hl.1
    have hc := hs.2.2.1
    refine ⟨{ w with heap := h' }, [], ?_, ⟨hok, fun it hi => ?_⟩, hc, rfl⟩
    · dsimp only [stepEvent]
      rw [hs.1]; rfl
    · exact For.mono (hw.2 it hi) (by show _ ≤ h'.objs.length; rw [hc]; unfold Op.count; split <;> omega)
  | iter x =>
    obtain ⟨l, hr, _⟩ := hw.1.2 x hl.1
    refine ⟨{ w with iters := w.iters ++ [.fresh x] }, [], ?_, ⟨hw.1, fun it hi => ?_⟩, rfl, by simp [Event.iters]⟩
    · dsimp only [stepEvent]
      rw [hr]; rfl
    · rcases List.mem_append.1 hi with hi | hi
      · exact hw.2 it hi
      · rw [List.mem_singleton] at hi
        exact ⟨x, hl.1, by rw [hi]; rfl⟩
  | next j =>
    have hj : j < w.iters.length := hl.1
    dsimp only [stepEvent]
    rw [List.getElem?_eq_getElem hj]
    simp only
    obtain ⟨x, hx, hf⟩ := hw.2 _ (List.getElem_mem hj)
    cases hn : next w.heap w.iters[j] with
    | ok r =>
      obtain ⟨it', v⟩ := r
      refine ⟨_, _, rfl, ⟨hw.1, fun it hi => ?_⟩, rfl, by simp [Event.iters]⟩
      rcases List.mem_or_eq_of_mem_set hi with hi | rfl
      · exact hw.2 it hi
      · exact ⟨x, hx, next_for hf hn⟩
    | error z =>
      refine ⟨_, _, rfl, ⟨hw.1, fun it hi => ?_⟩, rfl, by simp [Event.iters]⟩
      rcases List.mem_or_eq_of_mem_set hi with hi | rfl
      · exact hw.2 it hi
      · exact ⟨x, hx, trivial⟩

theorem runEvents_cons {w w1 : World} {e : Event} {log1 : Log} (h : stepEvent w e = .ok (w1, log1)) (es : List Event) :
    runEvents w (e :: es) = (do let (w2, log2) ← runEvents w1 es; return (w2, log1 ++ log2)) := by
  conv => lhs; unfold runEvents
  rw [h]; rfl

theorem runEvents_ok : ∀ (es : List Event) {w : World}, WorldOk w → LegalEvents w.heap.objs.length w.iters.length es →
    ∃ w' log, runEvents w es = .ok (w', log) ∧ WorldOk w' ∧
      ∀ es', LegalEvents w.heap.objs.length w.iters.length (es ++ es') → LegalEvents w'.heap.objs.length w'.iters.length es'
  | [], w, hw, _ => ⟨w, [], rfl, hw, fun _ h => h⟩
  | e :: es, w, hw, hl => by
    obtain ⟨h1, h2⟩ := legalEvents_cons.1 hl
    obtain ⟨w1, log1, r1, ok1, c1, c2⟩ := stepEvent_ok hw h1
    rw [← c1, ← c2] at h2
    obtain ⟨w2, log2, r2, ok2, hl2⟩ := runEvents_ok es ok1 h2
    refine ⟨w2, log1 ++ log2, by rw [runEvents_cons r1, r2]; rfl, ok2, fun es' h => hl2 es' ?_⟩
    rw [List.cons_append] at h
    rw [c1, c2]
    exact (legalEvents_cons.1 h).2

theorem legalEvents_append {es es' : List Event} : ∀ {n m : Nat}, LegalEvents n m (es ++ es') → LegalEvents n m es := by
  induction es with
  | nil => intro _ _ _; trivial
  | cons e es ih =>
    intro n m h
    rw [List.cons_append] at h
    obtain ⟨h1, h2⟩ := legalEvents_cons.1 h
    exact legalEvents_cons.2 ⟨h1, ih h2⟩

theorem runEvents_append {es es' : List Event} : ∀ {w w1 : World} {log1 : Log}, runEvents w es = .ok (w1, log1) →
    runEvents w (es ++ es') = (do let (w2, log2) ← runEvents w1 es'; return (w2, log1 ++ log2)) := by
  induction es with
  | nil =>
    intro w w1 log1 h
    cases h
    rw [List.nil_append]
    cases runEvents w es' <;> rfl
  | cons e es ih =>
    intro w w1 log1 h
    cases hs : stepEvent w e with
    | error z => unfold runEvents at h; rw [hs] at h; cases h
    | ok r =>
      obtain ⟨w0, log0⟩ := r
      rw [runEvents_cons hs] at h
      rw [List.cons_append, runEvents_cons hs]
      cases h1 : runEvents w0 es with
      | error z => rw [h1] at h; cases h
      | ok r1 =>
        obtain ⟨w1', log1'⟩ := r1
        rw [h1] at h
        cases h
        rw [ih h1]
        simp only [bind, Except.bind]
        cases runEvents w1 es' with
        | error z => rfl
        | ok r2 => simp [pure, Except.pure, List.append_assoc]

/-- An iterator that is not asked stays what it is, and a new one is not begun. -/
theorem iters_kept {j : Nat} : ∀ {es : List Event} {w w' : World} {log : Log}, runEvents w es = .ok (w', log) → .next j ∉ es →
    (∀ it, w.iters[j]? = some it → w'.iters[j]? = some it) ∧
    (∀ x, w.iters.length ≤ j → (iterated es)[j - w.iters.length]? = some x → w'.iters[j]? = some (.fresh x)) := by
  intro es
  induction es with
  | nil =>
    intro w w' log h _
    cases h
    exact ⟨fun it h => h, fun x _ h => by simp [iterated] at h⟩
  | cons e es ih =>
    intro w w' log h hn
    rw [List.mem_cons, not_or] at hn
    cases hs : stepEvent w e with
    | error z => unfold runEvents at h; rw [hs] at h; cases h
    | ok r =>
      obtain ⟨w1, log1⟩ := r
      rw [runEvents_cons hs] at h
      cases h1 : runEvents w1 es with
      | error z => rw [h1] at h; cases h
      | ok r1 =>
        obtain ⟨w2, log2⟩ := r1
        rw [h1] at h
        cases h
        obtain ⟨k1, k2⟩ := ih h1 hn.2
        cases e with
        | call op =>
          have e1 : w1.iters = w.iters := by
            dsimp only [stepEvent] at hs
            cases h2 : step w.heap op with
            | error z => rw [h2] at hs; cases hs
            | ok r => rw [h2] at hs; cases hs; rfl
          rw [e1] at k1 k2
          exact ⟨k1, k2⟩
        | iter y =>
          have e1 : w1.iters = w.iters ++ [.fresh y] := by
            dsimp only [stepEvent] at hs
            cases h2 : w.heap.read y with
            | error z => rw [h2] at hs; cases hs
            | ok r => rw [h2] at hs; cases hs; rfl
          rw [e1] at k1 k2
          refine ⟨fun it hi => k1 it ?_, fun x hx hi => ?_⟩
          · rw [List.getElem?_append_left (List.getElem?_eq_some_iff.1 hi).1, hi]
          · unfold iterated at hi
            by_cases hj : j = w.iters.length
            · subst hj
              rw [Nat.sub_self] at hi
              cases hi
              exact k1 _ (by simp)
            · refine k2 x (by simp; omega) ?_
              rw [show j - w.iters.length = (j - (w.iters ++ [Iter.fresh y]).length) + 1 by simp; omega, List.getElem?_cons_succ] at hi
              exact hi
        | next i =>
          have hij : i ≠ j := fun hc => hn.1 (by rw [hc])
          have e1 : ∃ it, w1.iters = w.iters.set i it := by
            dsimp only [stepEvent] at hs
            cases h2 : w.iters[i]? with
            | none => rw [h2] at hs; cases hs
            | some it0 =>
              rw [h2] at hs
              simp only at hs
              cases h3 : next w.heap it0 with
              | ok r => rw [h3] at hs; cases hs; exact ⟨_, rfl⟩
              | error z => rw [h3] at hs; cases hs; exact ⟨_, rfl⟩
          obtain ⟨it0, e1⟩ := e1
          rw [e1] at k1 k2
          rw [List.length_set] at k2
          rw [List.getElem?_set_ne hij] at k1
          exact ⟨k1, k2⟩

theorem delivered_append (j : Nat) (a b : Log) : delivered j (a ++ b) = delivered j a ++ delivered j b := by
  simp [delivered]

/-- As long as the set is not changed, an iterator delivers what it has still to deliver. -/
theorem undisturbed {j x : Nat} {l : List Int} : ∀ (es : List Event) {w w' : World} {log : Log} {it : Iter} {rem : List Int}, WorldOk w →
    LegalEvents w.heap.objs.length w.iters.length es → runEvents w es = .ok (w', log) → x < w.heap.objs.length → w.heap.read x = .ok l →
    w.iters[j]? = some it → it.For x → Rem l it rem → (∀ op, .call op ∈ es → op.receiver ≠ some x) →
    delivered j log = (List.range (es.count (.next j))).map fun k => .ok rem[k]?
  | [], w, w', log, it, rem, _, _, hr, _, _, _, _, _, _ => by
    cases hr; rfl
  | e :: es, w, w', log, it, rem, hw, hl, hr, hx, hread, hj, hf, hm, hc => by
    obtain ⟨h1, h2⟩ := legalEvents_cons.1 hl
    obtain ⟨w1, log1, r1, ok1, c1, c2⟩ := stepEvent_ok hw h1
    rw [← c1, ← c2] at h2
    rw [runEvents_cons r1] at hr
    obtain ⟨w2, log2, r2, _⟩ := runEvents_ok es ok1 h2
    rw [r2] at hr
    cases hr
    have hc' : ∀ op, .call op ∈ es → op.receiver ≠ some x := fun op ho => hc op (List.mem_cons_of_mem _ ho)
    rw [delivered_append]
    cases e with
    | call op =>
      obtain ⟨v, h', ret, hs, hok, _⟩ := step_ok hw.1 h1.1
      have e1 : w1 = { w with heap := h' } ∧ log1 = [] := by
        dsimp only [stepEvent] at r1; rw [hs.1] at r1; cases r1; exact ⟨rfl, rfl⟩
      obtain ⟨rfl, rfl⟩ := e1
      have hr' : h'.read x = .ok l := by
        rw [hs.2.2.2.2.1 x hx (hc op List.mem_cons_self)]; exact hread
      have hcnt := hs.2.2.1
      have := undisturbed es ok1 h2 r2 (by show x < h'.objs.length; rw [hcnt]; unfold Op.count; split <;> omega) hr' hj hf hm hc'
      rw [this, List.count_cons_of_ne (by simp)]
      rfl
    | iter y =>
      have e1 : w1 = { w with iters := w.iters ++ [.fresh y] } ∧ log1 = [] := by
        dsimp only [stepEvent] at r1
        cases h3 : w.heap.read y with
        | error z => rw [h3] at r1; cases r1
        | ok l => rw [h3] at r1; cases r1; exact ⟨rfl, rfl⟩
      obtain ⟨rfl, rfl⟩ := e1
      have := undisturbed es (it := it) (rem := rem) ok1 h2 r2 hx hread (by
        show (w.iters ++ [.fresh y])[j]? = _
        rw [List.getElem?_append_left (List.getElem?_eq_some_iff.1 hj).1, hj]) hf hm hc'
      rw [this, List.count_cons_of_ne (by simp)]
      rfl
    | next i =>
      by_cases hij : i = j
      · subst hij
        obtain ⟨it', hn, hf', hm'⟩ := next_rem hread hf hm
        have e1 : w1 = { w with iters := w.iters.set i it' } ∧ log1 = [(i, .ok rem.head?)] := by
          dsimp only [stepEvent] at r1
          rw [hj] at r1
          simp only [hn] at r1
          cases r1; exact ⟨rfl, rfl⟩
        obtain ⟨rfl, rfl⟩ := e1
        have := undisturbed es (it := it') (rem := rem.tail) ok1 h2 r2 hx hread (by
          show (w.iters.set i it')[i]? = _
          rw [List.getElem?_set_self (List.getElem?_eq_some_iff.1 hj).1]) hf' hm' hc'
        rw [this, List.count_cons_self, List.range_succ_eq_map, List.map_cons, List.map_map]
        simp only [delivered, List.filter_cons, beq_self_eq_true, if_true, List.filter_nil, List.map_cons, List.map_nil, List.singleton_append,
          List.cons.injEq]
        refine ⟨by rw [List.head?_eq_getElem?], List.map_congr_left fun k _ => ?_⟩
        simp [List.getElem?_tail]
      · have e1 : ∃ it0 r, w1 = { w with iters := w.iters.set i it0 } ∧ log1 = [(i, r)] := by
          dsimp only [stepEvent] at r1
          cases h3 : w.iters[i]? with
          | none => rw [h3] at r1; cases r1
          | some it0 =>
            rw [h3] at r1
            simp only at r1
            cases h4 : next w.heap it0 with
            | ok r => rw [h4] at r1; cases r1; exact ⟨_, _, rfl, rfl⟩
            | error z => rw [h4] at r1; cases r1; exact ⟨_, _, rfl, rfl⟩
        obtain ⟨it0, r, rfl, rfl⟩ := e1
        have := undisturbed es (it := it) (rem := rem) ok1 h2 r2 hx hread (by
          show (w.iters.set i it0)[j]? = _
          rw [List.getElem?_set_ne hij, hj]) hf hm hc'
        rw [this, List.count_cons_of_ne (by simpa using hij)]
        have : delivered j [(i, r)] = [] := by simp [delivered, hij]
        rw [this, List.nil_append]

/-! ## Sets that change -/

theorem mem_iter_pair {c : Int} : ∀ {l : List Int} {m : Nat} (h : 2 * m + 1 < l.length), l[2 * m] ≤ c → c < l[2 * m + 1] → c ∈ iter l
  | a :: b :: t, 0, _, h1, h2 => List.mem_append_left _ (mem_pyRange.2 ⟨h1, h2⟩)
  | a :: b :: t, m + 1, h, h1, h2 => by
    have h' : 2 * m + 1 < t.length := by simp only [List.length_cons] at h; omega
    refine List.mem_append_right _ (mem_iter_pair (m := m) h' ?_ ?_)
    · simpa [show 2 * (m + 1) = 2 * m + 1 + 1 by omega] using h1
    · simpa [show 2 * (m + 1) + 1 = 2 * m + 1 + 1 + 1 by omega] using h2
  | [], m, h, _, _ => by simp at h
  | [_], m, h, _, _ => by simp only [List.length_singleton] at h; omega

/-- A step of the outer loop delivers the first value of a range of members, or fails with `IndexError`. -/
theorem advance_members {h : Heap} {x : Nat} {l : List Int} (hr : h.read x = .ok l) : ∀ (k m : Nat),
    advance h x m k = .ok (.done, none) ∨ advance h x m k = .error .indexError ∨
    ∃ m' k' s limit, advance h x m k = .ok (.inside x m' k' (s + 1) limit, some s) ∧ k' < k ∧ s < limit ∧ s ∈ l ∧ limit ∈ l ∧
      ∀ c, s ≤ c → c < limit → c ∈ iter l
  | 0, m => .inl rfl
  | k + 1, m => by
    unfold advance
    rw [hr]
    simp only [bind, Except.bind, pyGet_cast]
    by_cases h1 : 2 * m + 1 < l.length
    · rw [List.getElem?_eq_getElem (show 2 * m < l.length by omega), List.getElem?_eq_getElem h1]
      simp only
      by_cases hs : l[2 * m] < l[2 * m + 1]
      · rw [if_pos hs]
        exact .inr (.inr ⟨_, _, _, _, rfl, by omega, hs, List.getElem_mem _, List.getElem_mem _, fun c h2 h3 => mem_iter_pair h1 h2 h3⟩)
      · rw [if_neg hs]
        rcases advance_members hr k (m + 1) with h | h | ⟨m', k', s, limit, h, hk, h4⟩
        · exact .inl h
        · exact .inr (.inl h)
        · exact .inr (.inr ⟨m', k', s, limit, h, by omega, h4⟩)
    · rw [List.getElem?_eq_none (show l.length ≤ 2 * m + 1 by omega)]
      refine .inr (.inl ?_)
      cases l[2 * m]? <;> rfl

/-- `next` goes on inside a range, or with a step of the outer loop. -/
theorem next_members {h : Heap} {x : Nat} {l : List Int} (hr : h.read x = .ok l) {it : Iter} (hx : it.For x) :
    (∃ m k cur limit, it = .inside x m k cur limit ∧ cur < limit ∧ next h it = .ok (.inside x m k (cur + 1) limit, some cur)) ∨
    next h it = .ok (.done, none) ∨ next h it = .error .indexError ∨
    ∃ m' k' s limit, next h it = .ok (.inside x m' k' (s + 1) limit, some s) ∧ s < limit ∧ s ∈ l ∧ limit ∈ l ∧
      (∀ c, s ≤ c → c < limit → c ∈ iter l) ∧ (∀ y, it = .fresh y → k' < l.length / 2) ∧ ∀ y m k cur lim, it = .inside y m k cur lim → k' < k := by
  match it, hx with
  | .fresh y, hx =>
    cases hx
    rw [next_fresh, hr]
    rcases advance_members hr (l.length / 2) 0 with h | h | ⟨m', k', s, limit, h, hk, h4, h5, h6, h7⟩
    · exact .inr (.inl h)
    · exact .inr (.inr (.inl h))
    · exact .inr (.inr (.inr ⟨m', k', s, limit, h, h4, h5, h6, h7, fun _ _ => hk, fun _ _ _ _ _ e => by cases e⟩))
  | .inside y m k cur limit, hx =>
    cases hx
    rw [next_inside]
    by_cases hc : cur < limit
    · exact .inl ⟨m, k, cur, limit, rfl, hc, by rw [if_pos hc]⟩
    · rw [if_neg hc]
      rcases advance_members hr k m with h | h | ⟨m', k', s, limit, h, hk, h4, h5, h6, h7⟩
      · exact .inr (.inl h)
      · exact .inr (.inr (.inl h))
      · exact .inr (.inr (.inr ⟨m', k', s, limit, h, h4, h5, h6, h7, (fun _ e => nomatch e), fun _ _ _ _ _ e => by cases e; exact hk⟩))
  | .done, _ => exact .inr (.inl rfl)

/-- How many values an iterator that has begun can still deliver. -/
def Iter.most : Iter → Nat
  | .fresh _ => 0
  | .inside _ _ k cur limit => k * 0x110000 + (limit - cur).toNat
  | .done => 0

theorem next_most {h : Heap} {x : Nat} {l : List Int} (hr : h.read x = .ok l) (hl : WellFormed l) {it : Iter} (hx : it.For x) :
    next h it = .error .indexError ∨ ∃ it' v, next h it = .ok (it', v) ∧ (∀ y, it' ≠ .fresh y) ∧
      ((∃ y, it = .fresh y) → it'.most + (if isValue (.ok v) then 1 else 0) ≤ l.length / 2 * 0x110000) ∧
      ((∀ y, it ≠ .fresh y) → it'.most + (if isValue (.ok v) then 1 else 0) ≤ it.most) := by
  rcases next_members hr hx with ⟨m, k, cur, limit, rfl, hc, h⟩ | h | h | ⟨m', k', s, limit, h, h4, h5, h6, _, h8, h9⟩
  · refine .inr ⟨_, _, h, by simp, ?_, fun _ => ?_⟩
    · rintro ⟨y, e⟩; cases e
    · simp only [Iter.most, isValue, if_true]; omega
  · exact .inr ⟨_, _, h, by simp, fun _ => by simp [Iter.most, isValue], fun _ => by simp [Iter.most, isValue]⟩
  · exact .inl h
  · have b1 := hl.2.1 s h5
    have b2 := hl.2.1 limit h6
    refine .inr ⟨_, _, h, by simp, ?_, fun hn => ?_⟩
    · rintro ⟨y, e⟩
      have := h8 y e
      have : (k' + 1) * 0x110000 ≤ l.length / 2 * 0x110000 := Nat.mul_le_mul_right _ this
      simp only [Iter.most, isValue, if_true]; omega
    · match it, hx, hn with
      | .fresh y, _, hn => exact absurd rfl (hn y)
      | .inside y m k cur lim, _, _ =>
        have := h9 y m k cur lim rfl
        have : (k' + 1) * 0x110000 ≤ k * 0x110000 := Nat.mul_le_mul_right _ this
        simp only [Iter.most, isValue, if_true]; omega
      | .done, _, _ => cases h

/-- Whatever happens to the set, an iterator that has begun delivers a limited number of values, and raises nothing but `IndexError`. -/
theorem bounded {j x : Nat} : ∀ (es : List Event) {w w' : World} {log : Log} {it : Iter}, WorldOk w →
    LegalEvents w.heap.objs.length w.iters.length es → runEvents w es = .ok (w', log) → x < w.heap.objs.length →
    w.iters[j]? = some it → it.For x → (∀ y, it ≠ .fresh y) →
    (delivered j log).countP isValue ≤ it.most ∧ ∀ e, .error e ∈ delivered j log → e = .indexError
  | [], w, w', log, it, _, _, hr, _, _, _, _ => by
    cases hr; exact ⟨Nat.zero_le _, by simp [delivered]⟩
  | e :: es, w, w', log, it, hw, hl, hr, hx, hj, hf, hb => by
    obtain ⟨h1, h2⟩ := legalEvents_cons.1 hl
    obtain ⟨w1, log1, r1, ok1, c1, c2⟩ := stepEvent_ok hw h1
    rw [← c1, ← c2] at h2
    rw [runEvents_cons r1] at hr
    obtain ⟨w2, log2, r2, _⟩ := runEvents_ok es ok1 h2
    rw [r2] at hr
    cases hr
    have hx1 : x < w1.heap.objs.length := by
      rw [c1]
      cases e with
      | call op => show x < op.count _; unfold Op.count; split <;> omega
      | iter y => exact hx
      | next i => exact hx
    rw [delivered_append, List.countP_append]
    cases e with
    | call op =>
      obtain ⟨v, h', ret, hs, hok, _⟩ := step_ok hw.1 h1.1
      have e1 : w1 = { w with heap := h' } ∧ log1 = [] := by
        dsimp only [stepEvent] at r1; rw [hs.1] at r1; cases r1; exact ⟨rfl, rfl⟩
      obtain ⟨rfl, rfl⟩ := e1
      simpa [delivered] using bounded es ok1 h2 r2 hx1 hj hf hb
    | iter y =>
      have e1 : w1 = { w with iters := w.iters ++ [.fresh y] } ∧ log1 = [] := by
        dsimp only [stepEvent] at r1
        cases h3 : w.heap.read y with
        | error z => rw [h3] at r1; cases r1
        | ok l => rw [h3] at r1; cases r1; exact ⟨rfl, rfl⟩
      obtain ⟨rfl, rfl⟩ := e1
      have := bounded es (it := it) ok1 h2 r2 hx1 (by
        show (w.iters ++ [.fresh y])[j]? = _
        rw [List.getElem?_append_left (List.getElem?_eq_some_iff.1 hj).1, hj]) hf hb
      simpa [delivered] using this
    | next i =>
      by_cases hij : i = j
      · subst hij
        obtain ⟨l, hread, hwf⟩ := hw.1.2 x hx
        rcases next_most hread hwf hf with hn | ⟨it', v, hn, hb', _, hm⟩
        · have e1 : w1 = { w with iters := w.iters.set i .done } ∧ log1 = [(i, .error .indexError)] := by
            dsimp only [stepEvent] at r1
            rw [hj] at r1
            simp only [hn] at r1
            cases r1; exact ⟨rfl, rfl⟩
          obtain ⟨rfl, rfl⟩ := e1
          have := bounded es (it := .done) ok1 h2 r2 hx1 (by
            show (w.iters.set i .done)[i]? = _
            rw [List.getElem?_set_self (List.getElem?_eq_some_iff.1 hj).1]) trivial (by simp)
          have e2 : delivered i [(i, (.error .indexError : Py (Option Int)))] = [.error .indexError] := by simp [delivered]
          rw [e2]
          refine ⟨?_, fun e he => ?_⟩
          · have h0 : [(Except.error PyErr.indexError : Py (Option Int))].countP isValue = 0 := rfl
            have : (delivered i log2).countP isValue ≤ 0 := this.1
            omega
          · rcases List.mem_append.1 he with he | he
            · rw [List.mem_singleton] at he; cases he; rfl
            · exact this.2 e he
        · have e1 : w1 = { w with iters := w.iters.set i it' } ∧ log1 = [(i, .ok v)] := by
            dsimp only [stepEvent] at r1
            rw [hj] at r1
            simp only [hn] at r1
            cases r1; exact ⟨rfl, rfl⟩
          obtain ⟨rfl, rfl⟩ := e1
          have := bounded es (it := it') ok1 h2 r2 hx1 (by
            show (w.iters.set i it')[i]? = _
            rw [List.getElem?_set_self (List.getElem?_eq_some_iff.1 hj).1]) (next_for hf hn) hb'
          have e2 : delivered i [(i, (.ok v : Py (Option Int)))] = [.ok v] := by simp [delivered]
          rw [e2]
          refine ⟨?_, fun e he => ?_⟩
          · have h0 : [(Except.ok v : Py (Option Int))].countP isValue = if isValue (.ok v) then 1 else 0 := by
              rw [List.countP_cons, List.countP_nil, Nat.zero_add]
            have h3 := hm hb
            have h4 := this.1
            omega
          · rcases List.mem_append.1 he with he | he
            · rw [List.mem_singleton] at he; cases he
            · exact this.2 e he
      · have e1 : ∃ it0 r, w1 = { w with iters := w.iters.set i it0 } ∧ log1 = [(i, r)] := by
          dsimp only [stepEvent] at r1
          cases h3 : w.iters[i]? with
          | none => rw [h3] at r1; cases r1
          | some it0 =>
            rw [h3] at r1
            simp only at r1
            cases h4 : next w.heap it0 with
            | ok r => rw [h4] at r1; cases r1; exact ⟨_, _, rfl, rfl⟩
            | error z => rw [h4] at r1; cases r1; exact ⟨_, _, rfl, rfl⟩
        obtain ⟨it0, r, rfl, rfl⟩ := e1
        have := bounded es (it := it) ok1 h2 r2 hx1 (by
          show (w.iters.set i it0)[j]? = _
          rw [List.getElem?_set_ne hij, hj]) hf hb
        have e2 : delivered j [(i, r)] = [] := by simp [delivered, hij]
        rw [e2]
        simpa using this

theorem iterated_append (a b : List Event) : iterated (a ++ b) = iterated a ++ iterated b := by
  induction a with
  | nil => rfl
  | cons e a ih => cases e <;> simp [iterated, ih]

/-- Every iterator is for the set it was made for, and the range it is in was a range of members when one of its `next` was called. -/
def Remembers (es : List Event) (w : World) : Prop :=
  w.iters.length = (iterated es).length ∧ ∀ j x, (iterated es)[j]? = some x → ∃ it, w.iters[j]? = some it ∧ it.For x ∧ x < w.heap.objs.length ∧
    ∀ y m k cur limit, it = .inside y m k cur limit → ∃ e0 rest w0 log0 l, es = e0 ++ .next j :: rest ∧ runEvents World.empty e0 = .ok (w0, log0) ∧
      w0.heap.read x = .ok l ∧ WellFormed l ∧ ∀ c, cur ≤ c → c < limit → c ∈ iter l

theorem remembers_next {es : List Event} {w : World} {log : Log} (hr : runEvents World.empty es = .ok (w, log)) (hw : WorldOk w)
    (h : Remembers es w) {j : Nat} (hj : j < w.iters.length) {w' : World} {log' : Log} (hs : stepEvent w (.next j) = .ok (w', log')) :
    Remembers (es ++ [.next j]) w' ∧ ∀ v, log' = [(j, .ok (some v))] → ∃ x e0 rest w0 log0 l, (iterated es)[j]? = some x ∧
      es ++ [.next j] = e0 ++ .next j :: rest ∧ runEvents World.empty e0 = .ok (w0, log0) ∧ w0.heap.read x = .ok l ∧ WellFormed l ∧ v ∈ iter l := by
  have hj' : j < (iterated es).length := by rw [← h.1]; exact hj
  obtain ⟨it, hit, hf, hx, hin⟩ := h.2 j _ (List.getElem?_eq_getElem hj')
  obtain ⟨l, hread, hwf⟩ := hw.1.2 _ hx
  dsimp only [stepEvent] at hs
  rw [hit] at hs
  simp only at hs
  have key : ∀ it', (w.iters.set j it').length = w.iters.length := fun _ => List.length_set
  -- an iterator other than `j` stays, `j` becomes `it'`
  have build : ∀ it', it'.For (iterated es)[j] → (∀ y m k cur limit, it' = .inside y m k cur limit → ∃ e0 rest w0 log0 l,
      es ++ [.next j] = e0 ++ .next j :: rest ∧ runEvents World.empty e0 = .ok (w0, log0) ∧ w0.heap.read (iterated es)[j] = .ok l ∧ WellFormed l ∧
      ∀ c, cur ≤ c → c < limit → c ∈ iter l) → Remembers (es ++ [.next j]) { w with iters := w.iters.set j it' } := by
    intro it' hf' hin'
    have ei : iterated (es ++ [.next j]) = iterated es := by rw [iterated_append]; simp [iterated]
    refine ⟨by rw [ei]; show (w.iters.set j it').length = _; rw [key, h.1], fun i x hi => ?_⟩
    rw [ei] at hi
    by_cases hij : i = j
    · subst hij
      rw [List.getElem?_eq_getElem hj'] at hi
      cases hi
      exact ⟨it', List.getElem?_set_self hj, hf', hx, hin'⟩
    · obtain ⟨it2, h1, h2, h3, h4⟩ := h.2 i x hi
      refine ⟨it2, by show (w.iters.set j it')[i]? = _; rw [List.getElem?_set_ne (fun e => hij e.symm), h1], h2, h3, ?_⟩
      intro y m k cur limit e
      obtain ⟨e0, rest, w0, log0, l, h5, h6⟩ := h4 y m k cur limit e
      exact ⟨e0, rest ++ [.next j], w0, log0, l, by rw [h5]; simp, h6⟩
  rcases next_members hread hf with ⟨m, k, cur, limit, rfl, hc, hn⟩ | hn | hn | ⟨m', k', s, limit, hn, h4, h5, h6, h7, _⟩
  · rw [hn] at hs
    cases hs
    obtain ⟨e0, rest, w0, log0, l0, g1, g2, g3, g4, g5⟩ := hin _ _ _ _ _ rfl
    have e1 : es ++ [.next j] = e0 ++ .next j :: (rest ++ [.next j]) := by
      conv => lhs; rw [g1]
      simp
    refine ⟨build _ rfl fun y m k cur' limit' e => ?_, fun v hv => ?_⟩
    · cases e
      exact ⟨e0, _, w0, log0, l0, e1, g2, g3, g4, fun c h1 h2 => g5 c (by omega) h2⟩
    · cases hv
      exact ⟨_, e0, _, w0, log0, l0, List.getElem?_eq_getElem hj', e1, g2, g3, g4, g5 _ (by omega) hc⟩
  · rw [hn] at hs
    cases hs
    exact ⟨build _ trivial (fun _ _ _ _ _ e => nomatch e), fun v hv => by cases hv⟩
  · rw [hn] at hs
    cases hs
    exact ⟨build _ trivial (fun _ _ _ _ _ e => nomatch e), fun v hv => by cases hv⟩
  · rw [hn] at hs
    cases hs
    refine ⟨build _ rfl fun y m k cur' limit' e => ?_, fun v hv => ?_⟩
    · cases e
      exact ⟨es, [], w, log, l, rfl, hr, hread, hwf, fun c h1 h2 => h7 c (by omega) h2⟩
    · cases hv
      exact ⟨_, es, [], w, log, l, List.getElem?_eq_getElem hj', rfl, hr, hread, hwf, h7 _ (by omega) h4⟩

theorem remembers (n : Nat) : ∀ {es : List Event}, es.length = n → LegalEvents 0 0 es → ∀ {w : World} {log : Log},
    runEvents World.empty es = .ok (w, log) → Remembers es w := by
  induction n with
  | zero =>
    intro es hn _ w log hr
    rw [List.length_eq_zero_iff] at hn
    subst hn
    cases hr
    exact ⟨rfl, fun j x h => by simp [iterated] at h⟩
  | succ n ih =>
    intro es hn hl w log hr
    obtain ⟨es', e, rfl⟩ : ∃ es' e, es = es' ++ [e] := ⟨es.dropLast, es.getLast (by intro h; rw [h] at hn; cases hn), (List.dropLast_concat_getLast _).symm⟩
    obtain ⟨w1, log1, r1, ok1, h1⟩ := runEvents_ok es' worldOk_empty (legalEvents_append hl)
    have l1 : LegalEvents w1.heap.objs.length w1.iters.length [e] := h1 [e] hl
    have hrem := ih (by simpa using hn) (legalEvents_append hl) r1
    obtain ⟨w2, log2, r2, ok2, c1, c2⟩ := stepEvent_ok ok1 l1
    rw [runEvents_append r1, runEvents_cons r2] at hr
    cases hr
    cases e with
    | call op =>
      have e1 : w.iters = w1.iters := by
        dsimp only [stepEvent] at r2
        cases h2 : step w1.heap op with
        | error z => rw [h2] at r2; cases r2
        | ok r => rw [h2] at r2; cases r2; rfl
      have ei : iterated (es' ++ [.call op]) = iterated es' := by rw [iterated_append]; simp [iterated]
      refine ⟨by rw [e1, ei]; exact hrem.1, fun j x hj => ?_⟩
      rw [ei] at hj
      obtain ⟨it, g1, g2, g3, g4⟩ := hrem.2 j x hj
      refine ⟨it, by rw [e1]; exact g1, g2, ?_, fun y m k cur limit e => ?_⟩
      · rw [c1]; show x < op.count _; unfold Op.count; split <;> omega
      · obtain ⟨e0, rest, w0, log0, l, h5, h6⟩ := g4 y m k cur limit e
        exact ⟨e0, rest ++ [.call op], w0, log0, l, by rw [h5]; simp, h6⟩
    | iter y =>
      have e1 : w = { w1 with iters := w1.iters ++ [.fresh y] } := by
        dsimp only [stepEvent] at r2
        cases h2 : w1.heap.read y with
        | error z => rw [h2] at r2; cases r2
        | ok r => rw [h2] at r2; cases r2; rfl
      subst e1
      have ei : iterated (es' ++ [.iter y]) = iterated es' ++ [y] := by rw [iterated_append]; simp [iterated]
      refine ⟨by rw [ei]; simp [hrem.1], fun j x hj => ?_⟩
      rw [ei] at hj
      by_cases hlt : j < (iterated es').length
      · rw [List.getElem?_append_left hlt] at hj
        obtain ⟨it, g1, g2, g3, g4⟩ := hrem.2 j x hj
        refine ⟨it, by show (w1.iters ++ [_])[j]? = _; rw [List.getElem?_append_left (by rw [hrem.1]; exact hlt), g1], g2, g3, fun y' m k cur limit e => ?_⟩
        obtain ⟨e0, rest, w0, log0, l, h5, h6⟩ := g4 y' m k cur limit e
        exact ⟨e0, rest ++ [.iter y], w0, log0, l, by rw [h5]; simp, h6⟩
      · rw [List.getElem?_append_right (by omega)] at hj
        have hj0 : j = (iterated es').length ∧ y = x := by
          cases hd : j - (iterated es').length with
          | zero => rw [hd] at hj; exact ⟨by omega, by simpa using hj⟩
          | succ d => rw [hd] at hj; simp at hj
        obtain ⟨rfl, rfl⟩ := hj0
        refine ⟨.fresh y, ?_, rfl, l1.1, fun _ _ _ _ _ e => by cases e⟩
        show (w1.iters ++ [_])[(iterated es').length]? = _
        rw [← hrem.1]; simp
    | next j => exact (remembers_next r1 ok1 hrem l1.1 r2).1

end Verif.USet

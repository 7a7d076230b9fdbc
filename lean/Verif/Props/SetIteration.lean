import Verif.Lemmas.USetIteration
import Verif.Props.UnicodeSet
/-! # Iterations over sets that change meanwhile (C122) -/
namespace Verif.USet.Props
open Verif.Spec

/-- The history up to a moment, and from there on. -/
theorem runs {pre post : List Event} (hl : LegalEvents 0 0 (pre ++ post)) : ∃ w1 log1 w2 log2, runEvents World.empty pre = .ok (w1, log1) ∧
    runEvents w1 post = .ok (w2, log2) ∧ WorldOk w1 ∧ LegalEvents w1.heap.objs.length w1.iters.length post := by
  obtain ⟨w1, log1, r1, ok1, h1⟩ := runEvents_ok pre worldOk_empty (legalEvents_append hl)
  obtain ⟨w2, log2, r2, _⟩ := runEvents_ok post ok1 (h1 post hl)
  exact ⟨w1, log1, w2, log2, r1, r2, ok1, h1 post hl⟩

/-- C122 as long as the set that is iterated over is not changed after the first `next`: whatever happens to other sets, to copies and results of
operators and to other iterators of the same set, the calls of `next` deliver the members that the set has then, in ascending
order, and then `StopIteration` forever. -/
theorem iteration_partial {pre post : List Event} {j x : Nat} (hl : LegalEvents 0 0 (pre ++ post)) (hx : (iterated pre)[j]? = some x)
    (hn : .next j ∉ pre) (hc : ∀ op, .call op ∈ post → op.receiver ≠ some x) :
    ∃ w1 log1 w2 log2 l, runEvents World.empty pre = .ok (w1, log1) ∧ runEvents w1 post = .ok (w2, log2) ∧ w1.heap.read x = .ok l ∧
      delivered j log2 = (List.range (post.count (.next j))).map fun k => .ok (membersOf (has l))[k]? := by
  obtain ⟨w1, log1, w2, log2, r1, r2, ok1, hl2⟩ := runs hl
  have hf := (iters_kept r1 hn).2 x (Nat.zero_le _) hx
  obtain ⟨it, h1, h2, h3, _⟩ := (remembers _ rfl (legalEvents_append hl) r1).2 j x hx
  obtain ⟨l, hread, hwf⟩ := ok1.1.2 x h3
  refine ⟨w1, log1, w2, log2, l, r1, r2, hread, ?_⟩
  rw [← iter_yields_members hwf]
  exact undisturbed post ok1 hl2 r2 h3 hread hf rfl rfl hc

/-- C122. Whatever happens to the sets, also to the one that is iterated over: every value that `next` delivers was a member at the
moment of one of the calls of `next` of this iterator, this one or an earlier one. -/
theorem iteration_members {es : List Event} {j : Nat} (hl : LegalEvents 0 0 (es ++ [.next j])) {w : World} {log : Log} {v : Int}
    (hr : runEvents World.empty (es ++ [.next j]) = .ok (w, log ++ [(j, .ok (some v))])) :
    ∃ x e0 rest w0 log0 l, (iterated es)[j]? = some x ∧ es ++ [.next j] = e0 ++ .next j :: rest ∧
      runEvents World.empty e0 = .ok (w0, log0) ∧ w0.heap.read x = .ok l ∧ Has l v := by
  obtain ⟨w1, log1, w2, log2, r1, r2, ok1, hl2⟩ := runs hl
  rw [runEvents_append r1, r2] at hr
  obtain ⟨w3, log3, r3, _⟩ := stepEvent_ok ok1 hl2
  rw [runEvents_cons r3] at r2
  have hlog3 : ∃ y, log3 = [(j, y)] := by
    dsimp only [stepEvent] at r3
    cases h3 : w1.iters[j]? with
    | none => rw [h3] at r3; cases r3
    | some it0 =>
      rw [h3] at r3
      simp only at r3
      cases h4 : next w1.heap it0 with
      | ok r => rw [h4] at r3; cases r3; exact ⟨_, rfl⟩
      | error z => rw [h4] at r3; cases r3; exact ⟨_, rfl⟩
  obtain ⟨y, rfl⟩ := hlog3
  cases r2
  have e3 : y = .ok (some v) := by
    simp only [bind, Except.bind, pure, Except.pure, Except.ok.injEq, Prod.mk.injEq, List.append_nil] at hr
    have := (List.append_inj' hr.2 rfl).2
    simpa using this
  subst e3
  obtain ⟨_, h⟩ := remembers_next r1 ok1 (remembers _ rfl (legalEvents_append hl) r1) hl2.1 r3
  obtain ⟨x, e0, rest, w0, log0, l, g1, g2, g3, g4, g5, g6⟩ := h v rfl
  refine ⟨x, e0, rest, w0, log0, l, g1, g2, g3, g4, ?_⟩
  rw [iter_yields_members g5] at g6
  simpa [has] using (List.mem_filter.1 g6).2

/-- C122. Whatever happens to the sets, an iteration ends: it delivers no more values than fit into as many ranges as the set has at
the first `next`. The only exception it raises is `IndexError`. -/
theorem iteration_ends {pre post : List Event} {j x : Nat} (hl : LegalEvents 0 0 (pre ++ .next j :: post)) (hx : (iterated pre)[j]? = some x)
    (hn : .next j ∉ pre) :
    ∃ w1 log1 w2 log2 l, runEvents World.empty pre = .ok (w1, log1) ∧ runEvents w1 (.next j :: post) = .ok (w2, log2) ∧
      w1.heap.read x = .ok l ∧ (delivered j log2).countP isValue ≤ getRangeCount l * 0x110000 ∧
      ∀ e, .error e ∈ delivered j log2 → e = .indexError := by
  obtain ⟨w1, log1, w2, log2, r1, r2, ok1, hl2⟩ := runs hl
  have hf := (iters_kept r1 hn).2 x (Nat.zero_le _) hx
  obtain ⟨it, h1, h2, h3, _⟩ := (remembers _ rfl (legalEvents_append hl) r1).2 j x hx
  obtain ⟨l, hread, hwf⟩ := ok1.1.2 x h3
  refine ⟨w1, log1, w2, log2, l, r1, r2, hread, ?_⟩
  have hj := (List.getElem?_eq_some_iff.1 hf).1
  obtain ⟨h4, h5⟩ := legalEvents_cons.1 hl2
  obtain ⟨w3, log3, r3, ok3, c1, c2⟩ := stepEvent_ok ok1 h4
  rw [← c1, ← c2] at h5
  obtain ⟨w4, log4, r4, _⟩ := runEvents_ok post ok3 h5
  rw [runEvents_cons r3, r4] at r2
  cases r2
  have hx3 : x < w3.heap.objs.length := by rw [c1]; exact h3
  rw [delivered_append, List.countP_append]
  unfold getRangeCount
  rcases next_most hread hwf (show (Iter.fresh x).For x from rfl) with hnx | ⟨it', v, hnx, hb, hm, _⟩
  · have e1 : w3 = { w1 with iters := w1.iters.set j .done } ∧ log3 = [(j, .error .indexError)] := by
      dsimp only [stepEvent] at r3
      rw [hf] at r3
      simp only [hnx] at r3
      cases r3; exact ⟨rfl, rfl⟩
    obtain ⟨rfl, rfl⟩ := e1
    have := bounded post (it := .done) ok3 h5 r4 hx3 (List.getElem?_set_self hj) trivial (by simp)
    have e2 : delivered j [(j, (.error .indexError : Py (Option Int)))] = [.error .indexError] := by simp [delivered]
    rw [e2]
    refine ⟨?_, fun e he => ?_⟩
    · have h0 : [(Except.error PyErr.indexError : Py (Option Int))].countP isValue = 0 := rfl
      have : (delivered j log4).countP isValue ≤ 0 := this.1
      omega
    · rcases List.mem_append.1 he with he | he
      · rw [List.mem_singleton] at he; cases he; rfl
      · exact this.2 e he
  · have e1 : w3 = { w1 with iters := w1.iters.set j it' } ∧ log3 = [(j, .ok v)] := by
      dsimp only [stepEvent] at r3
      rw [hf] at r3
      simp only [hnx] at r3
      cases r3; exact ⟨rfl, rfl⟩
    obtain ⟨rfl, rfl⟩ := e1
    have := bounded post (it := it') ok3 h5 r4 hx3 (List.getElem?_set_self hj) (next_for (show (Iter.fresh x).For x from rfl) hnx) hb
    have e2 : delivered j [(j, (.ok v : Py (Option Int)))] = [.ok v] := by simp [delivered]
    rw [e2]
    refine ⟨?_, fun e he => ?_⟩
    · have h0 : [(Except.ok v : Py (Option Int))].countP isValue = if isValue (.ok v) then 1 else 0 := by
        rw [List.countP_cons, List.countP_nil, Nat.zero_add]
      have h6 := hm ⟨x, rfl⟩
      have h7 := this.1
      omega
    · rcases List.mem_append.1 he with he | he
      · rw [List.mem_singleton] at he; cases he
      · exact this.2 e he

/-- C122 is violated where the set is changed meanwhile: a member is delivered twice and another one, a member all the time, never; after `clear`
the iteration raises `IndexError`. -/
theorem iteration_refuted :
    (∃ w, runEvents World.empty [.call (.newInt 3), .call (.add 0 5), .iter 0, .next 0, .call (.add 0 0), .next 0, .next 0] =
      .ok (w, [(0, .ok (some 3)), (0, .ok (some 3)), (0, .ok none)]) ∧ w.heap.contains 0 5 = .ok true) ∧
    (∃ w, runEvents World.empty [.call (.newInt 3), .call (.add 0 5), .iter 0, .next 0, .call (.clear 0), .next 0] =
      .ok (w, [(0, .ok (some 3)), (0, .error .indexError)])) ∧
    LegalEvents 0 0 [.call (.newInt 3), .call (.add 0 5), .iter 0, .next 0, .call (.add 0 0), .next 0, .next 0] ∧
    LegalEvents 0 0 [.call (.newInt 3), .call (.add 0 5), .iter 0, .next 0, .call (.clear 0), .next 0] := by
  refine ⟨⟨_, rfl, by decide⟩, ⟨_, rfl⟩, ?_, ?_⟩ <;> simp [LegalEvents, Op.Legal, Op.count, Op.receiver, IsCodePoint]

/-- Two iterators over the same set, while a copy of it is cleared. -/
example : ∃ w, runEvents World.empty ([.call (.newRange 3 5), .call (.newCopy 0), .iter 0, .iter 0, .next 1, .call (.add 0 9)] ++
    [.next 0, .call (.clear 1), .next 0, .next 1, .next 0, .next 0]) =
      .ok (w, [(1, .ok (some 3)), (0, .ok (some 3)), (0, .ok (some 4)), (1, .ok (some 4)), (0, .ok (some 9)), (0, .ok none)]) ∧
    (iterated [.call (.newRange 3 5), .call (.newCopy 0), .iter 0, .iter 0, .next 1, .call (.add 0 9)])[0]? = some 0 ∧
    ∀ op, .call op ∈ [Event.next 0, .call (.clear 1), .next 0, .next 1, .next 0, .next 0] → op.receiver ≠ some 0 := by
  refine ⟨_, rfl, rfl, ?_⟩
  intro op h
  simp at h
  subst h
  decide

end Verif.USet.Props

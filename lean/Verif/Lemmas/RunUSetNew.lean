import Verif.Lemmas.RunUSetAddRange
/-! # What the text of UnicodeSet.py does: `complement`, the constructor and the methods that return a new set -/
namespace Verif.PyHeap
open Verif.PySyntax Verif.Data
open Verif.PyRun (R Err lift bound)
set_option Elab.async false

/-- Object `y` is a new set, and nothing else has changed. -/
structure Created (σ σ' : Heap) (y : Nat) (l : List Int) : Prop where
  next : σ.next ≤ σ'.next
  same : ∀ b, b < σ.next → σ'.cell b = σ.cell b
  fresh : σ.next ≤ y
  isSet : ∃ r, σ.next ≤ r ∧ IsSet σ' y r l

/-- The heap after a set was made. -/
def newHeap (σ : Heap) (l : List Int) : Heap :=
  ((σ.push (.obj (n% "UnicodeSet") [])).push (.list (vals l))).set σ.next (.obj (n% "UnicodeSet") [(n% "list", .ref (σ.next + 1))])

theorem newHeap_isSet (σ : Heap) (l : List Int) : IsSet (newHeap σ l) σ.next (σ.next + 1) l where
  obj := by rw [newHeap, cell_set, if_pos rfl]
  cell := by rw [newHeap, cell_set, if_neg (by omega), cell_push]; exact if_pos rfl
  obj_lt := by simp only [newHeap, next_set, next_push]; omega
  cell_lt := by simp only [newHeap, next_set, next_push]; omega

theorem newHeap_same (σ : Heap) (l : List Int) {b : Nat} (h : b < σ.next) : (newHeap σ l).cell b = σ.cell b := by
  rw [newHeap, cell_set, if_neg (by omega), cell_push, if_neg (by simp only [next_push]; omega), cell_push, if_neg (by omega)]

theorem newHeap_next (σ : Heap) (l : List Int) : (newHeap σ l).next = σ.next + 2 := rfl

theorem newHeap_created (σ : Heap) (l : List Int) : Created σ (newHeap σ l) σ.next l where
  next := by rw [newHeap_next]; omega
  same b h := newHeap_same σ l h
  fresh := Nat.le_refl _
  isSet := ⟨_, Nat.le_succ _, newHeap_isSet σ l⟩

theorem IsSet.newHeap {σ : Heap} {x r : Nat} {l : List Int} (S : IsSet σ x r l) (m : List Int) : IsSet (newHeap σ m) x r l where
  obj := by rw [newHeap_same σ m S.obj_lt, S.obj]
  cell := by rw [newHeap_same σ m S.cell_lt, S.cell]
  obj_lt := by rw [newHeap_next]; have := S.obj_lt; omega
  cell_lt := by rw [newHeap_next]; have := S.cell_lt; omega

theorem Rebound.created {σ σ' : Heap} {l m : List Int} (h : Rebound (newHeap σ l) σ' σ.next m) : Created σ σ' σ.next m where
  next := by have := h.next; rw [newHeap_next] at this; omega
  same b hb := by rw [h.same b (by rw [newHeap_next]; omega) (by omega), newHeap_same σ l hb]
  fresh := Nat.le_refl _
  isSet := by
    obtain ⟨r, hr, hs⟩ := h.isSet
    rw [newHeap_next] at hr
    exact ⟨r, by omega, hs⟩

theorem zero_ne {a : Nat} : (a = a + 1) = False := by apply propext; constructor <;> intro h; omega; exact h.elim

section
variable {w : Scope} (H : Imported w) {n : Nat} {σ : Heap} {x r o y q : Nat} {l m : List Int}
include H

theorem complement_method (S : IsSet σ x r l) (hn : 1 ≤ n) :
    Outcome (method w (run w n) (n% "UnicodeSet") (n% "complement") [.ref x] σ) (pyGet l 0)
      (fun a v σ' => v = .ref x ∧ if a = 0 then Rebound σ σ' x (l.drop 1) else Mutated σ σ' r (0 :: l)) := by
  obtain ⟨n, rfl⟩ : ∃ m, n = m + 1 := ⟨n - 1, by omega⟩
  rw [method_doc H.complement rfl]
  have hx := eq_false (Nat.ne_of_lt S.obj_lt)
  have hr' := eq_false (Nat.ne_of_lt S.cell_lt)
  cases e0 : pyGet l 0 with
  | error e =>
    have g := get_error e0
    simp only [Outcome]
    py_heap [S.obj, S.cell, g, H.none', Option.some.injEq]
  | ok a =>
    have g := get_ok e0
    have hlt := get_lt (i := 0) e0
    cases ha : decide (a = 0) with
    | true =>
      refine ⟨.ref x, rebound σ x (l.drop 1), ?_, rfl, ?_⟩
      · have hb : bound l.length 1 = 1 := bound_nat (i := 1) hlt
        have hd : ((vals l).take l.length).drop 1 = vals (l.drop 1) := by
          rw [List.take_of_length_le (by simp [vals])]; simp [vals]
        py_heap [S.obj, S.cell, g, H.none', H.low, ha, hb, hd, hx, rebound]
      · rw [if_pos (of_decide_eq_true ha)]; exact rebound_rebound _ S.obj_lt
    | false =>
      refine ⟨.ref x, (σ.push (.list [.int 0])).set r (.list (vals (0 :: l))), ?_, rfl, ?_⟩
      · have hb : bound l.length 0 = 0 := bound_nat (i := 0) (Nat.zero_le _)
        have hd : (vals l).take 0 ++ [.int 0] ++ (vals l).drop 0 = vals (0 :: l) := by simp [vals]
        py_heap [S.obj, S.cell, g, H.none', H.low, ha, hb, hd, hx, hr', Nat.max_self]
      · rw [if_neg (of_decide_eq_false ha)]; exact mutated_push ..

theorem complementInt_method (S : IsSet σ x r l) (cp : Int) (hn : l.length + 7 ≤ n) :
    Outcome (method w (run w n) (n% "UnicodeSet") (n% "complement") [.ref x, .int cp] σ) (USet.complementInt l cp)
      (fun l' v σ' => v = .ref x ∧ if USet.pinCodePoint cp < USet.pinCodePoint cp then Rebound σ σ' x l' else σ' = σ) := by
  obtain ⟨n, rfl⟩ : ∃ m, n = m + 1 := ⟨n - 1, by omega⟩
  rw [method_doc H.complement rfl]
  have hc := complementRange_method H S cp cp (n := n) (by omega)
  rw [USet.complementInt]
  cases em : USet.complementRange l cp cp with
  | error e =>
    rw [em] at hc
    simp only [Outcome] at hc ⊢
    py_heap [S.obj, H.none', H.type, H.int, hc]
  | ok l' =>
    rw [em] at hc
    obtain ⟨v, σ', hc, hv, hq⟩ := hc
    refine ⟨.ref x, σ', ?_, rfl, hq⟩
    py_heap [S.obj, H.none', H.type, H.int, hc]

theorem complementPyRange_method (S : IsSet σ x r l) (s e t : Int) (hn : l.length + 7 ≤ n) :
    Outcome (method w (run w n) (n% "UnicodeSet") (n% "complement") [.ref x, .range s e t] σ) (USet.complementPyRange l s e)
      (fun l' v σ' => v = .ref x ∧ if USet.pinCodePoint s < USet.pinCodePoint (e - 1) then Rebound σ σ' x l' else σ' = σ) := by
  obtain ⟨n, rfl⟩ : ∃ m, n = m + 1 := ⟨n - 1, by omega⟩
  rw [method_doc H.complement rfl]
  have hc := complementRange_method H S s (e - 1) (n := n) (by omega)
  rw [USet.complementPyRange]
  cases em : USet.complementRange l s (e - 1) with
  | error err =>
    rw [em] at hc
    simp only [Outcome] at hc ⊢
    py_heap [S.obj, H.none', H.type, H.int, H.range, hc]
  | ok l' =>
    rw [em] at hc
    obtain ⟨v, σ', hc, hv, hq⟩ := hc
    refine ⟨.ref x, σ', ?_, rfl, hq⟩
    py_heap [S.obj, H.none', H.type, H.int, H.range, hc]

theorem complement_other (v : Val) (hv : v = .other ∨ ∃ b, v = .bool b) (hn : 1 ≤ n) :
    method w (run w n) (n% "UnicodeSet") (n% "complement") [.ref x, v] σ = .error (.raised .typeError) := by
  obtain ⟨n, rfl⟩ : ∃ m, n = m + 1 := ⟨n - 1, by omega⟩
  rw [method_doc H.complement rfl]
  rcases hv with rfl | ⟨b, rfl⟩ <;> py_heap [H.none', H.type, H.int, H.range]

theorem complement_set (S : IsSet σ y q m) (hn : 1 ≤ n) :
    method w (run w n) (n% "UnicodeSet") (n% "complement") [.ref x, .ref y] σ = .error (.raised .typeError) := by
  obtain ⟨n, rfl⟩ : ∃ m, n = m + 1 := ⟨n - 1, by omega⟩
  rw [method_doc H.complement rfl]
  py_heap [S.obj, H.none', H.type, H.int, H.range]

theorem new_run  (hn : 1 ≤ n) :
    callName w (run w n) (n% "UnicodeSet") [] σ = .ok (.ref σ.next, newHeap σ USet.new) := by
  obtain ⟨n, rfl⟩ : ∃ m, n = m + 1 := ⟨n - 1, by omega⟩
  rw [call_class _ _ _ H.cls, method_doc H.__init__ rfl]
  py_heap [H.none', H.high, H.cls, H.type, H.int, H.range, zero_ne, newHeap, vals, List.map_cons, List.map_nil, USet.HIGH, USet.new]

theorem newInt_run (cp : Int) (hn : 1 ≤ n) :
    callName w (run w n) (n% "UnicodeSet") [.int cp] σ = .ok (.ref σ.next, newHeap σ (USet.newInt cp)) := by
  obtain ⟨n, rfl⟩ : ∃ m, n = m + 1 := ⟨n - 1, by omega⟩
  rw [call_class _ _ _ H.cls, method_doc H.__init__ rfl]
  py_heap [H.none', H.high, H.cls, H.type, H.int, H.range, zero_ne, newHeap, vals, List.map_cons, List.map_nil, USet.HIGH, USet.newInt]

theorem newRange_run (s e t : Int) (hn : 1 ≤ n) :
    callName w (run w n) (n% "UnicodeSet") [.range s e t] σ = .ok (.ref σ.next, newHeap σ (USet.newRange s e)) := by
  obtain ⟨n, rfl⟩ : ∃ m, n = m + 1 := ⟨n - 1, by omega⟩
  rw [call_class _ _ _ H.cls, method_doc H.__init__ rfl]
  py_heap [H.none', H.high, H.cls, H.type, H.int, H.range, zero_ne, newHeap, vals, List.map_cons, List.map_nil, USet.HIGH, USet.newRange]

theorem newCopy_run (S : IsSet σ y q m) (hn : 1 ≤ n) :
    callName w (run w n) (n% "UnicodeSet") [.ref y] σ = .ok (.ref σ.next, newHeap σ m) := by
  obtain ⟨n, rfl⟩ : ∃ m, n = m + 1 := ⟨n - 1, by omega⟩
  rw [call_class _ _ _ H.cls, method_doc H.__init__ rfl]
  have hy := eq_false (Nat.ne_of_lt S.obj_lt)
  have hq := eq_false (Nat.ne_of_lt S.cell_lt)
  py_heap [S.obj, S.cell, hy, hq, H.none', H.cls, H.type, zero_ne, newHeap]

theorem new_other (v : Val) (hv : v = .other ∨ ∃ b, v = .bool b) (hn : 1 ≤ n) :
    callName w (run w n) (n% "UnicodeSet") [v] σ = .error (.raised .typeError) := by
  obtain ⟨n, rfl⟩ : ∃ m, n = m + 1 := ⟨n - 1, by omega⟩
  rw [call_class _ _ _ H.cls, method_doc H.__init__ rfl]
  rcases hv with rfl | ⟨b, rfl⟩ <;> py_heap [H.none', H.cls, H.type, H.int, H.range]

theorem union_method (S : IsSet σ x r l) (T : IsSet σ y q m) (hn : l.length + m.length + 4 ≤ n) :
    Outcome (method w (run w n) (n% "UnicodeSet") (n% "union") [.ref x, .ref y] σ) (USet.union l m)
      (fun l' v σ' => v = .ref σ.next ∧ Rebound (newHeap σ l) σ' σ.next l') := by
  obtain ⟨n, rfl⟩ : ∃ m, n = m + 1 := ⟨n - 1, by omega⟩
  rw [method_doc H.union rfl]
  have hnew := newCopy_run H S (n := n) (by omega)
  have N := newHeap_isSet σ l
  have hc := addAll_method H N (T.newHeap l) (n := n) (by omega)
  rw [USet.union, USet.newCopy]
  cases em : USet.addAll l m with
  | error e =>
    rw [em, rebind] at hc
    simp only [Outcome]
    py_heap [hnew, N.obj, hc]
  | ok l' =>
    rw [em, rebind] at hc
    refine ⟨.ref σ.next, rebound (newHeap σ l) σ.next l', ?_, rfl, rebound_rebound l' N.obj_lt⟩
    py_heap [hnew, N.obj, hc]

theorem intersection_method (S : IsSet σ x r l) (T : IsSet σ y q m) (hn : l.length + m.length + 4 ≤ n) :
    Outcome (method w (run w n) (n% "UnicodeSet") (n% "intersection") [.ref x, .ref y] σ) (USet.intersection l m)
      (fun l' v σ' => v = .ref σ.next ∧ Rebound (newHeap σ l) σ' σ.next l') := by
  obtain ⟨n, rfl⟩ : ∃ m, n = m + 1 := ⟨n - 1, by omega⟩
  rw [method_doc H.intersection rfl]
  have hnew := newCopy_run H S (n := n) (by omega)
  have N := newHeap_isSet σ l
  have hc := retainAll_method H N (T.newHeap l) (n := n) (by omega)
  rw [USet.intersection, USet.newCopy]
  cases em : USet.retainAll l m with
  | error e =>
    rw [em, rebind] at hc
    simp only [Outcome]
    py_heap [hnew, N.obj, hc]
  | ok l' =>
    rw [em, rebind] at hc
    refine ⟨.ref σ.next, rebound (newHeap σ l) σ.next l', ?_, rfl, rebound_rebound l' N.obj_lt⟩
    py_heap [hnew, N.obj, hc]

theorem difference_method (S : IsSet σ x r l) (T : IsSet σ y q m) (hn : l.length + m.length + 4 ≤ n) :
    Outcome (method w (run w n) (n% "UnicodeSet") (n% "difference") [.ref x, .ref y] σ) (USet.difference l m)
      (fun l' v σ' => v = .ref σ.next ∧ Rebound (newHeap σ l) σ' σ.next l') := by
  obtain ⟨n, rfl⟩ : ∃ m, n = m + 1 := ⟨n - 1, by omega⟩
  rw [method_doc H.difference rfl]
  have hnew := newCopy_run H S (n := n) (by omega)
  have N := newHeap_isSet σ l
  have hc := removeAll_method H N (T.newHeap l) (n := n) (by omega)
  rw [USet.difference, USet.newCopy]
  cases em : USet.removeAll l m with
  | error e =>
    rw [em, rebind] at hc
    simp only [Outcome]
    py_heap [hnew, N.obj, hc]
  | ok l' =>
    rw [em, rebind] at hc
    refine ⟨.ref σ.next, rebound (newHeap σ l) σ.next l', ?_, rfl, rebound_rebound l' N.obj_lt⟩
    py_heap [hnew, N.obj, hc]

theorem symmetric_difference_method (S : IsSet σ x r l) (T : IsSet σ y q m) (hn : l.length + m.length + 4 ≤ n) :
    Outcome (method w (run w n) (n% "UnicodeSet") (n% "symmetric_difference") [.ref x, .ref y] σ) (USet.symmetricDifference l m)
      (fun l' v σ' => v = .ref σ.next ∧ Rebound (newHeap σ l) σ' σ.next l') := by
  obtain ⟨n, rfl⟩ : ∃ m, n = m + 1 := ⟨n - 1, by omega⟩
  rw [method_doc H.symmetric_difference rfl]
  have hnew := newCopy_run H S (n := n) (by omega)
  have N := newHeap_isSet σ l
  have hc := complementAll_method H N (T.newHeap l) (n := n) (by omega)
  rw [USet.symmetricDifference, USet.newCopy]
  cases em : USet.complementAll l m with
  | error e =>
    rw [em, rebind] at hc
    simp only [Outcome]
    py_heap [hnew, N.obj, hc]
  | ok l' =>
    rw [em, rebind] at hc
    refine ⟨.ref σ.next, rebound (newHeap σ l) σ.next l', ?_, rfl, rebound_rebound l' N.obj_lt⟩
    py_heap [hnew, N.obj, hc]

end

end Verif.PyHeap

import Verif.Lemmas.RunUSetRetain
import Verif.Lemmas.RunUSetXor
import Verif.Lemmas.RunUSetAdd
/-! # What the text of UnicodeSet.py does: the methods that change a set by a code point or a range -/
namespace Verif.PyHeap
open Verif.PySyntax Verif.Data
open Verif.PyRun (R Err lift bound)
set_option Elab.async false

/-- A call ends like a function of the model. -/
def Outcome {α : Type} (res : R (Val × Heap)) (m : Py α) (Q : α → Val → Heap → Prop) : Prop :=
  match m with
  | .ok a => ∃ v σ', res = .ok (v, σ') ∧ Q a v σ'
  | .error e => res = .error (.raised e)

/-- All cells but `a` are as before. -/
structure Frame (σ σ' : Heap) (a : Nat) : Prop where
  next : σ.next ≤ σ'.next
  same : ∀ b, b < σ.next → b ≠ a → σ'.cell b = σ.cell b

/-- The list in cell `r` has changed, and nothing else. -/
structure Mutated (σ σ' : Heap) (r : Nat) (l : List Int) : Prop extends Frame σ σ' r where
  cell : σ'.cell r = some (.list (vals l))

/-- Set `x` has a new list, and nothing else has changed. -/
structure Rebound (σ σ' : Heap) (x : Nat) (l : List Int) : Prop extends Frame σ σ' x where
  isSet : ∃ r, σ.next ≤ r ∧ IsSet σ' x r l

theorem IsSet.push {σ : Heap} {x r : Nat} {l : List Int} (S : IsSet σ x r l) (c : Cell) : IsSet (σ.push c) x r l where
  obj := by rw [cell_push, if_neg (Nat.ne_of_lt S.obj_lt), S.obj]
  cell := by rw [cell_push, if_neg (Nat.ne_of_lt S.cell_lt), S.cell]
  obj_lt := Nat.lt_succ_of_lt S.obj_lt
  cell_lt := Nat.lt_succ_of_lt S.cell_lt

theorem IsSet.ne {σ : Heap} {x r : Nat} {l : List Int} (S : IsSet σ x r l) : x ≠ r := by
  intro h
  have := S.cell
  rw [← h, S.obj] at this
  simp at this

theorem mutated_self {σ : Heap} {x r : Nat} {l : List Int} (S : IsSet σ x r l) : Mutated σ σ r l := ⟨⟨Nat.le_refl _, fun _ _ _ => rfl⟩, S.cell⟩

theorem mutated_set (σ : Heap) (r : Nat) (l : List Int) : Mutated σ (σ.set r (.list (vals l))) r l :=
  ⟨⟨Nat.le_refl _, fun b _ hb => by rw [cell_set, if_neg hb]⟩, by rw [cell_set, if_pos rfl]⟩

theorem mutated_push (σ : Heap) (r : Nat) (l : List Int) (c : Cell) : Mutated σ ((σ.push c).set r (.list (vals l))) r l :=
  ⟨⟨Nat.le_succ _, fun b h hb => by rw [cell_set, if_neg hb, cell_push, if_neg (Nat.ne_of_lt h)]⟩, by rw [cell_set, if_pos rfl]⟩

theorem rebound_rebound {σ : Heap} {x : Nat} (l : List Int) (hx : x < σ.next) : Rebound σ (rebound σ x l) x l where
  next := Nat.le_succ _
  same b h hb := by rw [rebound, cell_set, if_neg hb, cell_push, if_neg (Nat.ne_of_lt h)]
  isSet := ⟨σ.next, Nat.le_refl _, by rw [rebound, cell_set, if_pos rfl],
    by rw [rebound, cell_set, if_neg (Nat.ne_of_gt hx), cell_push, if_pos rfl], Nat.lt_succ_of_lt hx, Nat.lt_succ_self _⟩

theorem Rebound.of_push {σ σ' : Heap} {x : Nat} {l : List Int} {c : Cell} (h : Rebound (σ.push c) σ' x l) : Rebound σ σ' x l where
  next := Nat.le_trans (Nat.le_succ _) h.next
  same b hb hx := by rw [h.same b (Nat.lt_succ_of_lt hb) hx, cell_push, if_neg (Nat.ne_of_lt hb)]
  isSet := by
    obtain ⟨r, hr, hs⟩ := h.isSet
    exact ⟨r, Nat.le_trans (Nat.le_succ _) hr, hs⟩

theorem rebind_outcome {σ : Heap} {x : Nat} (hx : x < σ.next) (m : Py (List Int)) :
    Outcome (rebind σ x m) m (fun l v σ' => v = .ref x ∧ Rebound σ σ' x l) := by
  cases m with
  | ok l => exact ⟨_, _, rfl, rfl, rebound_rebound l hx⟩
  | error e => exact rfl

theorem find_run' {w : Scope} (H : Imported w) {n : Nat} {σ : Heap} {x r : Nat} {l : List Int} (S : IsSet σ x r l) (cp : Int) (hn : l.length + 1 ≤ n) :
    method w (run w n) (n% "UnicodeSet") (n% "_findCodePoint") [.ref x, .int cp] σ = ret (fun i : Nat => .int i) σ (USet.findCodePoint l cp) := by
  obtain ⟨n, rfl⟩ : ∃ m, n = m + 1 := ⟨n - 1, by omega⟩
  exact find_run H n S cp (by omega)

theorem pin_run' {w : Scope} (H : Imported w) {n : Nat} (hn : 1 ≤ n) (cp : Int) (σ : Heap) :
    callName w (run w n) (n% "_pinCodePoint") [.int cp] σ = .ok (.int (USet.pinCodePoint cp), σ) := by
  obtain ⟨n, rfl⟩ : ∃ m, n = m + 1 := ⟨n - 1, by omega⟩
  exact pin_run H n cp σ

theorem and_one (i : Nat) : pyAnd (i : Int) 1 = ((i % 2 : Nat) : Int) := by
  rw [← Nat.and_one_is_mod]; rfl

theorem and_one0 : pyAnd 0 1 = 0 := rfl
theorem lt_zero : decide ((0 : Int) < 0) = false := rfl

theorem vals_set (l : List Int) (i : Nat) (a : Int) : (vals l).set i (.int a) = vals (l.set i a) := by simp [vals, List.map_set]
theorem vals_append (l : List Int) (a : Int) : vals l ++ [.int a] = vals (l ++ [a]) := by simp [vals]
theorem vals_append2 (l : List Int) (a b : Int) : vals l ++ [.int a, .int b] = vals (l ++ [a, b]) := by simp [vals]
theorem vals_cut (l : List Int) (i j : Nat) : (vals l).take i ++ [] ++ (vals l).drop j = vals (l.take i ++ l.drop j) := by simp [vals]
theorem vals_insert (l : List Int) (i j : Nat) (a b : Int) :
    (vals l).take i ++ [.int a, .int b] ++ (vals l).drop j = vals (l.take i ++ [a, b] ++ l.drop j) := by simp [vals]
theorem vals_insert1 (l : List Int) (i j : Nat) (a : Int) :
    (vals l).take i ++ [.int a] ++ (vals l).drop j = vals (l.take i ++ [a] ++ l.drop j) := by simp [vals]

theorem get_lt {l : List Int} {i : Nat} {a : Int} (h : pyGet l (i : Int) = .ok a) : i < l.length := by
  rw [pyGet, if_pos (by omega), Int.toNat_natCast] at h
  cases e : l[i]? with
  | none => rw [e] at h; simp at h
  | some v => exact (List.getElem?_eq_some_iff.1 e).1

theorem ok_of_lt {l : List Int} {i : Nat} (h : i < l.length) : ∃ a, pyGet l (i : Int) = .ok a := by
  rw [pyGet, if_pos (by omega), Int.toNat_natCast, List.getElem?_eq_getElem h]
  exact ⟨_, rfl⟩

theorem bound_nat {n i : Nat} (h : i ≤ n) : bound n (i : Int) = i := by
  rw [bound, if_neg (by omega), Int.toNat_natCast, Nat.min_eq_left h]

theorem add_method {w : Scope} (H : Imported w) {n : Nat} {σ : Heap} {x r : Nat} {l : List Int} (S : IsSet σ x r l) (cp : Int) (hn : l.length + 2 ≤ n) :
    Outcome (method w (run w n) (n% "UnicodeSet") (n% "add") [.ref x, .int cp] σ) (USet.add l cp) (fun l' v σ' => v = .ref x ∧ Mutated σ σ' r l') := by
  obtain ⟨n, rfl⟩ : ∃ m, n = m + 1 := ⟨n - 1, by omega⟩
  rw [method_doc H.add rfl]
  have hp := pin_run' H (n := n) (by omega) cp σ
  have hf := find_run' H S (USet.pinCodePoint cp) (n := n) (by omega)
  have hr := eq_false S.ne
  have hx := eq_false (Nat.ne_of_lt S.obj_lt)
  have hr' := eq_false (Nat.ne_of_lt S.cell_lt)
  have hrr := eq_false (Nat.ne_of_gt S.cell_lt)
  have hxx := eq_false (Nat.ne_of_gt S.obj_lt)
  unfold USet.add
  cases ef : USet.findCodePoint l (USet.pinCodePoint cp) with
  | error e =>
    rw [ef] at hf
    simp only [Bind.bind, Except.bind, Outcome]
    py_heap [S.obj, S.cell, hp, hf, ret]
  | ok i =>
    rw [ef] at hf
    simp only [Bind.bind, Except.bind]
    cases hi : decide (i % 2 = 0) with
    | false =>
      rw [if_pos (of_decide_eq_false hi)]
      refine ⟨.ref x, σ, ?_, rfl, mutated_self S⟩
      py_heap [S.obj, S.cell, hp, hf, ret, and_one, PyRun.cast_eq, Int.natCast_eq_zero, hi]
    | true =>
      rw [if_neg (fun h => h (of_decide_eq_true hi))]
      cases eg : pyGet l (i : Int) with
      | error e =>
        have hg := get_error eg
        simp only [Outcome]
        py_heap [S.obj, S.cell, hp, hf, ret, and_one, Int.natCast_eq_zero, hi, hg]
      | ok li =>
        have hg := get_ok eg
        have hlt := get_lt eg
        dsimp only
        cases h1 : decide (cp = li - 1) with
        | true =>
          rw [if_pos (of_decide_eq_true h1)]
          have hset : position l.length (i : Int) = .ok i := by rw [position_nat, if_pos hlt]
          cases h2 : decide (cp = 0x110000 - 1) with
          | true =>
            rw [show (if cp = USet.HIGH - 1 then l.set i cp ++ [USet.HIGH] else l.set i cp) = l.set i cp ++ [0x110000] from
              if_pos (of_decide_eq_true h2)]
            cases i with
            | zero =>
              rw [if_neg (by omega)]
              refine ⟨.ref x, σ.set r (.list (vals (l.set 0 cp ++ [0x110000]))), ?_, rfl, mutated_set ..⟩
              rw [Int.natCast_zero] at hg hset
              py_heap [S.obj, S.cell, hp, hf, ret, Int.natCast_zero, and_one0, hg, h1, h2, hset, H.high, vals_set, vals_append, hr, set_set, lt_zero]
            | succ k =>
              rw [if_pos (by omega)]
              have hk : ((k + 1 : Nat) : Int) - 1 = (k : Nat) := by omega
              have hk2 : ((k + 1 : Nat) : Int) + 1 = (k + 2 : Nat) := by omega
              have hpos : decide (0 < ((k + 1 : Nat) : Int)) = true := decide_eq_true (by omega)
              obtain ⟨p, ep⟩ := ok_of_lt (l := l.set (k + 1) cp ++ [0x110000]) (i := k) (by simp; omega)
              have gp := get_ok ep
              rw [hk, ep]
              have hb1 : bound (l.set (k + 1) cp ++ [0x110000]).length (k : Nat) = k := bound_nat (by simp; omega)
              have hb2 : bound (l.set (k + 1) cp ++ [0x110000]).length (k + 2 : Nat) = k + 2 := bound_nat (by simp; omega)
              have hm : max k (k + 2) = k + 2 := by omega
              dsimp only
              cases h3 : decide (cp = p) with
              | true =>
                rw [if_pos (of_decide_eq_true h3)]
                refine ⟨.ref x, σ.set r (.list (vals (List.take k (l.set (k + 1) cp ++ [0x110000]) ++ List.drop (k + 2) (l.set (k + 1) cp ++ [0x110000])))), ?_, rfl, mutated_set ..⟩
                py_heap [S.obj, S.cell, hp, hf, ret, and_one, Int.natCast_eq_zero, hi, hg, h1, h2, hset, H.high, vals_set, vals_append, hr, set_set,
                  hpos, hk, hk2, gp, h3, hb1, hb2, hm, vals_cut]
              | false =>
                rw [if_neg (of_decide_eq_false h3)]
                refine ⟨.ref x, σ.set r (.list (vals (l.set (k + 1) cp ++ [0x110000]))), ?_, rfl, mutated_set ..⟩
                py_heap [S.obj, S.cell, hp, hf, ret, and_one, Int.natCast_eq_zero, hi, hg, h1, h2, hset, H.high, vals_set, vals_append, hr, set_set,
                  hpos, hk, hk2, gp, h3]
          | false =>
            rw [show (if cp = USet.HIGH - 1 then l.set i cp ++ [USet.HIGH] else l.set i cp) = l.set i cp from
              if_neg (of_decide_eq_false h2)]
            cases i with
            | zero =>
              rw [if_neg (by omega)]
              refine ⟨.ref x, σ.set r (.list (vals (l.set 0 cp))), ?_, rfl, mutated_set ..⟩
              rw [Int.natCast_zero] at hg hset
              py_heap [S.obj, S.cell, hp, hf, ret, Int.natCast_zero, and_one0, hg, h1, h2, hset, H.high, vals_set, vals_append, hr, set_set, lt_zero]
            | succ k =>
              rw [if_pos (by omega)]
              have hk : ((k + 1 : Nat) : Int) - 1 = (k : Nat) := by omega
              have hk2 : ((k + 1 : Nat) : Int) + 1 = (k + 2 : Nat) := by omega
              have hpos : decide (0 < ((k + 1 : Nat) : Int)) = true := decide_eq_true (by omega)
              obtain ⟨p, ep⟩ := ok_of_lt (l := l.set (k + 1) cp) (i := k) (by simp; omega)
              have gp := get_ok ep
              rw [hk, ep]
              have hb1 : bound (l.set (k + 1) cp).length (k : Nat) = k := bound_nat (by simp; omega)
              have hb2 : bound (l.set (k + 1) cp).length (k + 2 : Nat) = k + 2 := bound_nat (by simp; omega)
              have hm : max k (k + 2) = k + 2 := by omega
              dsimp only
              cases h3 : decide (cp = p) with
              | true =>
                rw [if_pos (of_decide_eq_true h3)]
                refine ⟨.ref x, σ.set r (.list (vals (List.take k (l.set (k + 1) cp) ++ List.drop (k + 2) (l.set (k + 1) cp)))), ?_, rfl, mutated_set ..⟩
                py_heap [S.obj, S.cell, hp, hf, ret, and_one, Int.natCast_eq_zero, hi, hg, h1, h2, hset, H.high, vals_set, vals_append, hr, set_set,
                  hpos, hk, hk2, gp, h3, hb1, hb2, hm, vals_cut]
              | false =>
                rw [if_neg (of_decide_eq_false h3)]
                refine ⟨.ref x, σ.set r (.list (vals (l.set (k + 1) cp))), ?_, rfl, mutated_set ..⟩
                py_heap [S.obj, S.cell, hp, hf, ret, and_one, Int.natCast_eq_zero, hi, hg, h1, h2, hset, H.high, vals_set, vals_append, hr, set_set,
                  hpos, hk, hk2, gp, h3]
        | false =>
          rw [if_neg (of_decide_eq_false h1)]
          cases i with
          | zero =>
            rw [if_neg (by omega)]
            refine ⟨.ref x, (σ.push (.list [.int cp, .int (cp + 1)])).set r (.list (vals (l.take 0 ++ [cp, cp + 1] ++ l.drop 0))), ?_, rfl, mutated_push ..⟩
            have hb : bound l.length 0 = 0 := bound_nat (i := 0) (Nat.zero_le _)
            rw [Int.natCast_zero] at hg
            py_heap [S.obj, S.cell, hp, hf, ret, Int.natCast_zero, and_one0, hg, h1, hx, hr', hb, Nat.max_self, lt_zero, vals_insert]
          | succ k =>
            rw [if_pos (by omega)]
            have hk : ((k + 1 : Nat) : Int) - 1 = (k : Nat) := by omega
            have hpos : decide (0 < ((k + 1 : Nat) : Int)) = true := decide_eq_true (by omega)
            obtain ⟨p, ep⟩ := ok_of_lt (l := l) (i := k) (by omega)
            have gp := get_ok ep
            have hset : position l.length (k : Int) = .ok k := by rw [position_nat, if_pos (by omega)]
            rw [hk, ep]
            have hb : bound l.length (k + 1 : Nat) = k + 1 := bound_nat (by omega)
            dsimp only
            cases h3 : decide (cp = p) with
            | true =>
              rw [if_pos (of_decide_eq_true h3)]
              refine ⟨.ref x, σ.set r (.list (vals (l.set k (p + 1)))), ?_, rfl, mutated_set ..⟩
              py_heap [S.obj, S.cell, hp, hf, ret, and_one, Int.natCast_eq_zero, hi, hg, h1, hpos, hk, gp, h3, hset, vals_set]
            | false =>
              rw [if_neg (of_decide_eq_false h3)]
              refine ⟨.ref x, (σ.push (.list [.int cp, .int (cp + 1)])).set r (.list (vals (l.take (k + 1) ++ [cp, cp + 1] ++ l.drop (k + 1)))), ?_, rfl,
                mutated_push ..⟩
              py_heap [S.obj, S.cell, hp, hf, ret, and_one, Int.natCast_eq_zero, hi, hg, h1, hpos, hk, gp, h3, hx, hr', hb, Nat.max_self, vals_insert]

end Verif.PyHeap

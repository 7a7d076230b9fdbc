import Verif.Lemmas.BitScan
import Verif.Spec.Runs
/-!
# Trie values against a list of ranges with values

`runsCheck` walks through a list of ranges in ascending order and compares the fields of the code points of each range, and of
the gaps, with the value of the range, up to 32 code points at a time.
-/
namespace Verif
open Verif.Spec
set_option maxRecDepth 10000

theorem geom (k : Nat) : ∀ n, ∃ G, (2 ^ k - 1) * G = 2 ^ (n * k) - 1 ∧ ∀ v, v < 2 ^ k → ∀ j < n, field k (v * G) j = v
  | 0 => ⟨0, by simp, fun v _ j hj => by omega⟩
  | n + 1 => by
    obtain ⟨G, h1, h2⟩ := geom k n
    refine ⟨1 + 2 ^ k * G, ?_, fun v hv j hj => ?_⟩
    · have hp : 0 < 2 ^ k := Nat.two_pow_pos k
      have hq : 0 < 2 ^ (n * k) := Nat.two_pow_pos _
      rw [Nat.mul_add, Nat.mul_one, Nat.mul_left_comm, h1, Nat.add_mul, Nat.one_mul, Nat.pow_add, Nat.mul_sub, Nat.mul_one,
        Nat.mul_comm (2 ^ k)]
      have : 2 ^ k ≤ 2 ^ (n * k) * 2 ^ k := Nat.le_mul_of_pos_left _ hq
      omega
    · cases j with
      | zero =>
        unfold field
        rw [Nat.mul_zero, Nat.shiftRight_zero, Nat.mul_add, Nat.mul_one, Nat.mul_left_comm, Nat.add_mul_mod_self_left,
          Nat.mod_eq_of_lt hv]
      | succ j =>
        refine Eq.trans ?_ (h2 v hv j (by omega))
        unfold field
        rw [Nat.mul_add k j 1, Nat.mul_one, Nat.add_comm (k * j) k, Nat.shiftRight_add]
        congr 2
        rw [Nat.shiftRight_eq_div_pow, Nat.mul_add, Nat.mul_one, Nat.mul_left_comm, Nat.add_mul_div_left _ _ (Nat.two_pow_pos k),
          Nat.div_eq_of_lt hv, Nat.zero_add]

theorem copies_field {k v j : Nat} (hk : 0 < k) (hv : v < 2 ^ k) (hj : j < 32) : field k (copies v k) j = v := by
  obtain ⟨G, h1, h2⟩ := geom k 32
  have hp : 0 < 2 ^ k - 1 := by
    have : 2 ^ 1 ≤ 2 ^ k := Nat.pow_le_pow_right (by decide) hk
    omega
  unfold copies
  rw [← h1, Nat.mul_div_cancel_left _ hp]
  exact h2 v hv j hj

/-- Fields `s` to `e` of `w` and `V` are equal. -/
noncomputable def sameFields (k w V s e : Nat) : Bool :=
  Nat.beq (Nat.mod (Nat.shiftRight (Nat.xor w V) (Nat.mul k s)) (Nat.pow 2 (Nat.mul k (Nat.sub (Nat.add e 1) s)))) 0

theorem sameFields_spec {k w V s e : Nat} (h : sameFields k w V s e = true) {j : Nat} (h1 : s ≤ j) (h2 : j ≤ e) :
    field k w j = field k V j := by
  have h : ((w ^^^ V) >>> (k * s)) % 2 ^ (k * (e + 1 - s)) = 0 := Nat.eq_of_beq_eq_true h
  apply Nat.eq_of_testBit_eq
  intro i
  rw [field_testBit, field_testBit]
  by_cases hi : i < k
  · simp only [hi, decide_true, Bool.true_and]
    have hb := congrArg (fun x => x.testBit (k * (j - s) + i)) h
    simp only [Nat.zero_testBit, Nat.testBit_mod_two_pow, Nat.testBit_shiftRight, Nat.testBit_xor] at hb
    have hle : k * (j - s) + i < k * (e + 1 - s) := by
      have : k * (j - s + 1) ≤ k * (e + 1 - s) := Nat.mul_le_mul_left k (by omega)
      rw [Nat.mul_add] at this
      omega
    have hadd : k * s + (k * (j - s) + i) = k * j + i := by
      rw [← Nat.add_assoc, ← Nat.mul_add, Nat.add_sub_cancel' h1]
    rw [hadd] at hb
    simp only [hle, decide_true, Bool.true_and] at hb
    cases hw : w.testBit (k * j + i) <;> cases hV : V.testBit (k * j + i) <;> simp_all
  · simp [hi]

namespace UTrie2

/-- The fields of the code points of block `b`, which `S` gives, from `lo` to `hi` are those of `V`. -/
noncomputable def blockIs (k : Nat) (S : Nat → Nat) (V lo hi b : Nat) : Bool :=
  force (Nat.sub lo (Nat.mul 32 b)) fun s => force (Nat.sub hi (Nat.mul 32 b)) fun e => force (S b) fun w =>
    sameFields k w V s (cond (Nat.ble 31 e) 31 e)

/-- The same for `n` blocks from `b` on. -/
noncomputable def blocksAre (k : Nat) (S : Nat → Nat) (V lo hi b n : Nat) : Bool :=
  Nat.rec true (fun n ih => and (force (Nat.add b n) (blockIs k S V lo hi)) ih) n

/-- The part of the range in group `g` (2048 code points): one comparison if the group is null and its value is that of the
range. -/
noncomputable def groupIs (t : UTrie2) (k : Nat) (S : Nat → Nat) (V lo hi : Nat) (null : Bool) (g : Nat) : Bool :=
  or (and null (and (Nat.ble 32 g) (Nat.beq (t.index.at' (Nat.add 2080 g)) t.index2NullOffset)))
    (force (cond (Nat.ble (Nat.mul 2048 g) lo) lo (Nat.mul 2048 g)) fun lo =>
      force (cond (Nat.ble hi (Nat.add (Nat.mul 2048 g) 2047)) hi (Nat.add (Nat.mul 2048 g) 2047)) fun hi =>
      force (Nat.div lo 32) fun b => force (Nat.sub (Nat.add (Nat.div hi 32) 1) b) fun n => blocksAre k S V lo hi b n)

noncomputable def groupsAre (t : UTrie2) (k : Nat) (S : Nat → Nat) (V lo hi : Nat) (null : Bool) (g n : Nat) : Bool :=
  Nat.rec true (fun n ih => and (force (Nat.add g n) (t.groupIs k S V lo hi null)) ih) n

/-- The code points from `lo` to `hi` have the value `v`; `v0` is the value of null groups and `m` has a one in every field. -/
noncomputable def rangeIs (t : UTrie2) (k m : Nat) (S : Nat → Nat) (v0 lo hi v : Nat) : Bool :=
  force (Nat.mul v m) fun V => force (Nat.div lo 2048) fun g => force (Nat.sub (Nat.add (Nat.div hi 2048) 1) g) fun n =>
    t.groupsAre k S V lo hi (Nat.beq v v0) g n

noncomputable def runsAre (t : UTrie2) (k m : Nat) (S : Nat → Nat) (v0 d : Nat) (runs : List (Nat × Nat × Nat)) : Nat → Bool :=
  List.rec (fun next => or (Nat.ble 0x10FFFF next) (t.rangeIs k m S v0 next 0x10FFFE d))
    (fun r _ ih next => and (Nat.ble next r.1) (and (Nat.ble r.1 r.2.1) (and (Nat.blt r.2.2 (Nat.pow 2 k))
      (and (or (Nat.beq next r.1) (t.rangeIs k m S v0 next (Nat.sub r.1 1) d))
        (and (t.rangeIs k m S v0 r.1 r.2.1 r.2.2) (force (Nat.add r.2.1 1) ih)))))) runs

noncomputable def runsCheck (t : UTrie2) (f : Nat → Nat) (k d : Nat) (runs : List (Nat × Nat × Nat)) : Bool :=
  force (copies 1 k) fun m => force (t.valueFields f k) fun F => force (f t.initialValue) fun v0 => t.runsAre k m (t.slice k F) v0 d runs 0

theorem blocksAre_spec {k : Nat} {S : Nat → Nat} {V lo hi b : Nat} : ∀ {n : Nat}, blocksAre k S V lo hi b n = true →
    ∀ x, b ≤ x → x < b + n → blockIs k S V lo hi x = true := by
  intro n
  induction n with
  | zero => intro _ x h1 h2; omega
  | succ n ih =>
    intro h x h1 h2
    have h : and (force (Nat.add b n) (blockIs k S V lo hi)) (blocksAre k S V lo hi b n) = true := h
    rw [Bool.and_eq_true, force_eq] at h
    by_cases hx : x = b + n
    · subst hx; exact h.1
    · exact ih h.2 x h1 (by omega)

theorem groupsAre_spec {t : UTrie2} {k : Nat} {S : Nat → Nat} {V lo hi g : Nat} {null : Bool} : ∀ {n : Nat}, t.groupsAre k S V lo hi null g n = true →
    ∀ x, g ≤ x → x < g + n → t.groupIs k S V lo hi null x = true := by
  intro n
  induction n with
  | zero => intro _ x h1 h2; omega
  | succ n ih =>
    intro h x h1 h2
    have h : and (force (Nat.add g n) (t.groupIs k S V lo hi null)) (t.groupsAre k S V lo hi null g n) = true := h
    rw [Bool.and_eq_true, force_eq] at h
    by_cases hx : x = g + n
    · subst hx; exact h.1
    · exact ih h.2 x h1 (by omega)

theorem cond_ble_lo (a b : Nat) : cond (Nat.ble a b) b a = max a b := by
  cases h : Nat.ble a b
  · have : ¬ a ≤ b := by rw [← Nat.ble_eq, h]; simp
    show a = max a b; omega
  · have : a ≤ b := by rw [← Nat.ble_eq, h]
    show b = max a b; omega

theorem cond_ble_hi (a b : Nat) : cond (Nat.ble a b) a b = min a b := by
  cases h : Nat.ble a b
  · have : ¬ a ≤ b := by rw [← Nat.ble_eq, h]; simp
    show b = min a b; omega
  · have : a ≤ b := by rw [← Nat.ble_eq, h]
    show a = min a b; omega

theorem Full.rangeIs_spec {t : UTrie2} (h : Full t) {f : Nat → Nat} {k : Nat} (hk0 : 0 < k) {S : Nat → Nat}
    (hS : ∀ c < 0x10FFFF, field k (S (c / 32)) (c % 32) = f (t.getv c)) {lo hi v : Nat} (hv : v < 2 ^ k)
    (hr : t.rangeIs k (copies 1 k) S (f t.initialValue) lo hi v = true) {c : Nat} (hc : c < 0x10FFFF)
    (h1 : lo ≤ c) (h2 : c ≤ hi) : f (t.getv c) = v := by
  have eV : Nat.mul v (copies 1 k) = copies v k := by unfold copies; rw [Nat.one_mul]; rfl
  unfold rangeIs at hr
  simp only [force_eq, eV] at hr
  have hg := groupsAre_spec hr (c / 2048) (Nat.div_le_div_right h1) (by
    show c / 2048 < lo / 2048 + (hi / 2048 + 1 - lo / 2048)
    have : c / 2048 ≤ hi / 2048 := Nat.div_le_div_right h2
    omega)
  unfold groupIs at hg
  simp only [force_eq, Bool.or_eq_true, Bool.and_eq_true, cond_ble_lo, cond_ble_hi] at hg
  rcases hg with ⟨hn, hg1, hg2⟩ | hg
  · rw [Nat.ble_eq] at hg1
    rw [h.null hc hg1 (Nat.eq_of_beq_eq_true hg2), Nat.eq_of_beq_eq_true hn]
  · have e1 : Nat.mul 2048 (c / 2048) = 2048 * (c / 2048) := rfl
    have e2 : Nat.add (2048 * (c / 2048)) 2047 = 2048 * (c / 2048) + 2047 := rfl
    rw [e1, e2] at hg
    generalize hlo : max (2048 * (c / 2048)) lo = lo' at hg
    generalize hhi : min hi (2048 * (c / 2048) + 2047) = hi' at hg
    have h1' : lo' ≤ c := by omega
    have h2' : c ≤ hi' := by omega
    have hb := blocksAre_spec hg (c / 32) (Nat.div_le_div_right h1') (by
      show c / 32 < lo' / 32 + (hi' / 32 + 1 - lo' / 32)
      have : c / 32 ≤ hi' / 32 := Nat.div_le_div_right h2'
      omega)
    unfold blockIs at hb
    simp only [force_eq] at hb
    have e3 : cond (Nat.ble 31 (Nat.sub hi' (Nat.mul 32 (c / 32)))) 31 (Nat.sub hi' (Nat.mul 32 (c / 32))) =
        min 31 (hi' - 32 * (c / 32)) := cond_ble_hi _ _
    rw [e3] at hb
    have := sameFields_spec hb (j := c % 32) (by show lo' - 32 * (c / 32) ≤ c % 32; omega) (by omega)
    rw [hS c hc, copies_field hk0 hv (by omega)] at this
    exact this

theorem Full.runsAre_spec {t : UTrie2} (h : Full t) {f : Nat → Nat} {k d : Nat} (hk0 : 0 < k) {S : Nat → Nat}
    (hS : ∀ c < 0x10FFFF, field k (S (c / 32)) (c % 32) = f (t.getv c)) (hd : d < 2 ^ k) : ∀ (runs : List (Nat × Nat × Nat)) (next : Nat),
    t.runsAre k (copies 1 k) S (f t.initialValue) d runs next = true →
    (∀ c, next ≤ c → c < 0x10FFFF → f (t.getv c) = valueIn d runs c) ∧ (∀ r ∈ runs, next ≤ r.1)
  | [], next, hr => by
    refine ⟨fun c h1 hc => ?_, by simp⟩
    have hr : or (Nat.ble 0x10FFFF next) (t.rangeIs k (copies 1 k) S (f t.initialValue) next 0x10FFFE d) = true := hr
    rw [Bool.or_eq_true, Nat.ble_eq] at hr
    rcases hr with hr | hr
    · omega
    · exact h.rangeIs_spec hk0 hS hd hr hc h1 (by omega)
  | r :: runs, next, hr => by
    have hr : and (Nat.ble next r.1) (and (Nat.ble r.1 r.2.1) (and (Nat.blt r.2.2 (Nat.pow 2 k))
      (and (or (Nat.beq next r.1) (t.rangeIs k (copies 1 k) S (f t.initialValue) next (Nat.sub r.1 1) d))
        (and (t.rangeIs k (copies 1 k) S (f t.initialValue) r.1 r.2.1 r.2.2)
          (force (Nat.add r.2.1 1) (t.runsAre k (copies 1 k) S (f t.initialValue) d runs)))))) = true := hr
    simp only [Bool.and_eq_true, Bool.or_eq_true, Nat.ble_eq, Nat.blt_eq, force_eq] at hr
    obtain ⟨a1, a2, a3, a4, a5, a6⟩ := hr
    obtain ⟨ih, ih'⟩ := Full.runsAre_spec h hk0 hS hd runs _ a6
    have ih : ∀ c, r.2.1 + 1 ≤ c → c < 0x10FFFF → f (t.getv c) = valueIn d runs c := ih
    have ih' : ∀ q ∈ runs, r.2.1 + 1 ≤ q.1 := ih'
    refine ⟨fun c h1 hc => ?_, fun q hq => ?_⟩
    · unfold valueIn
      rw [List.find?_cons]
      by_cases hin : r.1 ≤ c ∧ c ≤ r.2.1
      · simp only [hin, and_self, decide_true]
        exact h.rangeIs_spec hk0 hS a3 a5 hc hin.1 hin.2
      · simp only [hin, decide_false]
        by_cases hlt : c < r.1
        · have hnone : runs.find? (fun q => decide (q.1 ≤ c ∧ c ≤ q.2.1)) = none := by
            rw [List.find?_eq_none]
            intro q hq hqc
            have := ih' q hq
            simp only [decide_eq_true_eq] at hqc
            omega
          rw [hnone]
          rcases a4 with a4 | a4
          · have := Nat.eq_of_beq_eq_true a4
            omega
          · exact h.rangeIs_spec hk0 hS hd a4 hc h1 (by show c ≤ r.1 - 1; omega)
        · exact ih c (by omega) hc
    · rcases List.mem_cons.mp hq with rfl | hq
      · exact a1
      · have := ih' q hq
        omega

/-- A successful check: the field of every code point is the value the list gives it. -/
theorem Full.runs {t : UTrie2} (h : Full t) {f : Nat → Nat} {k d : Nat} (hk0 : 0 < k) (hk : k ≤ 32)
    (hf : ∀ v, f v < 2 ^ k) (hd : d < 2 ^ k) {runs : List (Nat × Nat × Nat)} (hr : t.runsCheck f k d runs = true) {c : Nat}
    (hc : c < 0x10FFFF) : f (t.getv c) = valueIn d runs c := by
  unfold runsCheck at hr
  simp only [force_eq] at hr
  exact (h.runsAre_spec hk0 (fun _ hc => h.slice_spec hk hf hc) hd runs 0 hr).1 c (by omega) hc

end UTrie2
end Verif

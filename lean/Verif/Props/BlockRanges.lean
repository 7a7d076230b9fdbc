import Verif.Props.Char
import Verif.Spec.Blocks
/-! # The blocks of the shipped data are those of the standard (C98) -/
namespace Verif.Char.Props
open Verif Verif.Spec Verif.Data Verif.Char
set_option maxRecDepth 100000

/-- The ends of a block, and their neighbours. -/
noncomputable def blockEnds (n a z : Nat) : Bool :=
  and (and (not (Nat.beq n 0)) (and (Nat.ble a z) (Nat.ble z 0x10FFFF))) (and (Nat.beq (blockOf a) n)
    (and (or (Nat.beq z 0x10FFFF) (Nat.beq (blockOf z) n)) (and (or (Nat.beq a 0) (not (Nat.beq (blockOf (Nat.sub a 1)) n)))
      (or (Nat.ble 0x10FFFF z) (not (Nat.beq (blockOf (Nat.add z 1)) n))))))

noncomputable def allEnds (l : List (Nat × Nat × Nat)) : Bool :=
  List.rec true (fun e _ ih => and (blockEnds e.1 e.2.1 e.2.2) ih) l

theorem ends_ok : allEnds blockRanges = true := by decide +kernel
theorem block_end : blockOf 0x10FFFE = 110 ∧ ∀ e ∈ blockRanges, e.2.2 = 0x10FFFF → e.1 = 110 := by decide +kernel

theorem allEnds_mem : ∀ {l : List (Nat × Nat × Nat)}, allEnds l = true → ∀ e ∈ l, blockEnds e.1 e.2.1 e.2.2 = true := by
  intro l
  induction l with
  | nil => intro _ e he; simp at he
  | cons x l ih =>
    intro h e he
    have h : and (blockEnds x.1 x.2.1 x.2.2) (allEnds l) = true := h
    rw [Bool.and_eq_true] at h
    rcases List.mem_cons.mp he with rfl | he
    · exact h.1
    · exact ih h.2 e he

/-- C98. Every block of the standard is in the list, and `getBlock` returns its number for exactly the code points from its first to
its last one. Missing: U+10FFFF (`block_rows_refuted`). -/
theorem block_ranges_partial : blockRanges.map (·.1) = List.range' 1 308 ∧
    ∀ e ∈ blockRanges, ∀ c < 0x10FFFF, getBlock c = .ok e.1 ↔ e.2.1 ≤ c ∧ c ≤ e.2.2 := by
  refine ⟨by decide +kernel, fun e he c hc => ?_⟩
  obtain ⟨n, a, z⟩ := e
  have h := allEnds_mem ends_ok _ he
  unfold blockEnds at h
  simp only [Bool.and_eq_true, Bool.or_eq_true, Bool.not_eq_true', Nat.beq_eq, Nat.ble_eq, ← Bool.not_eq_true] at h
  obtain ⟨⟨hn, haz, hz⟩, ha, hz', hb, hd⟩ := h
  show getBlock c = .ok n ↔ a ≤ c ∧ c ≤ z
  have hend : z ≠ 0x10FFFF → getBlock z = .ok n := fun hne => by
    rcases hz' with h | h
    · exact absurd h hne
    · rw [blockOf_eq, h]
  have ha' : getBlock a = .ok n := by rw [blockOf_eq, ha]
  constructor
  · intro h
    constructor
    · refine Nat.le_of_not_lt fun hlt => ?_
      have := block_contiguous c (a - 1) a n (by omega) (by omega) (by omega) hn h ha'
      rw [blockOf_eq] at this
      have := Except.ok.inj this
      rcases hb with hb | hb
      · omega
      · exact hb this
    · refine Nat.le_of_not_lt fun hlt => ?_
      rcases hd with hd | hd
      · omega
      · have := block_contiguous z (z + 1) c n (by omega) (by omega) (by omega) hn (hend (by omega)) h
        rw [blockOf_eq] at this
        exact hd (Except.ok.inj this)
  · rintro ⟨h1, h2⟩
    by_cases hz1 : z = 0x10FFFF
    · have h110 : n = 110 := block_end.2 _ he hz1
      have : getBlock 0x10FFFE = .ok n := by rw [blockOf_eq, block_end.1, h110]
      exact block_contiguous a c 0x10FFFE n h1 (by omega) (by omega) hn ha' this
    · exact block_contiguous a c z n h1 h2 (by omega) hn ha' (hend hz1)

example : (9, 0x400, 0x4FF) ∈ blockRanges := by decide +kernel

end Verif.Char.Props

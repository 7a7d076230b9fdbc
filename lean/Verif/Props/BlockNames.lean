import Verif.Props.ValueNames
import Verif.Props.BlockRanges
/-! # The constants for blocks are called as in the standard (C129) -/
namespace Verif.ValueNames.Props
open Verif Verif.Spec Verif.Char Verif.Char.Spec Verif.Data
set_option maxRecDepth 100000

/-- The check for one block. -/
def okBlock (first last : Nat) (short long : String) : Bool :=
  match blockRanges.find? fun e => Nat.beq e.2.1 first with
  | none => false
  | some e => Nat.beq e.2.2 last && match (blockNames.zip Keys.blockNames).find? fun p => Nat.beq p.1.1 e.1 with
    | none => false
    | some p => p.1.2 == short && nameOf p.2 == constantName "blk" "UBLOCK" long

theorem blocks_ok : ∀ b ∈ blocks, okBlock b.1 b.2.1 b.2.2.1 b.2.2.2 = true := by decide +kernel

/-- C129 for blocks: for the code points of every block of the standard, and for no others, `getBlock` returns the value of the
constant with the long name of the block. Missing: U+10FFFF (`block_rows_refuted`). -/
theorem block_constants_partial : blockNames.length = Keys.blockNames.length ∧
    ∀ first last short long, (first, last, short, long) ∈ blocks → ∃ (n : Nat) (constant : Str),
      (n, constant, short) ∈ rows blockNames Keys.blockNames ∧ constant = constantName "blk" "UBLOCK" long ∧
      ∀ c < 0x10FFFF, getBlock c = .ok n ↔ first ≤ c ∧ c ≤ last := by
  refine ⟨by decide +kernel, fun first last short long hb => ?_⟩
  have h := blocks_ok _ hb
  unfold okBlock at h
  split at h
  · cases h
  · rename_i e he
    have he2 := List.find?_some he
    rw [Bool.and_eq_true] at h
    obtain ⟨h1, h⟩ := h
    have h1 := Nat.eq_of_beq_eq_true h1
    have he2 := Nat.eq_of_beq_eq_true he2
    split at h
    · cases h
    rename_i p hp
    have h2 := List.find?_some hp
    have h2 := Nat.eq_of_beq_eq_true h2
    rw [Bool.and_eq_true, beq_iff_eq, beq_iff_eq] at h
    refine ⟨e.1, nameOf p.2, List.mem_map.mpr ⟨p, List.mem_of_find?_eq_some hp, by rw [h2, h.1]⟩, h.2, fun c hc => ?_⟩
    show getBlock c = .ok e.1 ↔ (first, last, short, long).1 ≤ c ∧ c ≤ (first, last, short, long).2.1
    rw [← he2, ← h1]
    exact Char.Props.block_ranges_partial.2 e (List.mem_of_find?_eq_some he) c hc

example : (0x370, 0x3FF, "Greek", "Greek_And_Coptic") ∈ blocks ∧ blocks.length = 308 := by decide +kernel

end Verif.ValueNames.Props

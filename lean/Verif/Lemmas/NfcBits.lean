import Verif.Lemmas.NfcData
import Verif.Spec.Decompositions
/-! # The shipped NFC data against the lists of the standard

Sets of code points are numbers here: `c` is a member of `n` if bit `c` of `n` is set. -/
namespace Verif
open Verif.Data Verif.CPTrie Verif.Spec
set_option maxRecDepth 100000

/-- The union of sets. -/
def gather {α : Type} (f : α → Nat) : List α → Nat
  | [] => 0
  | x :: l => Nat.lor (f x) (gather f l)

theorem gather_iff {α : Type} (f : α → Nat) (l : List α) (c : Nat) :
    (gather f l).testBit c = true ↔ ∃ x ∈ l, (f x).testBit c = true := by
  induction l with
  | nil => simp [gather]
  | cons x l ih =>
    have : (Nat.lor (f x) (gather f l)).testBit c = ((f x).testBit c || (gather f l).testBit c) := Nat.testBit_or ..
    rw [gather, this, Bool.or_eq_true, ih]
    simp

/-- A set with one member. -/
def mark (c : Nat) : Nat := Nat.pow 2 c

theorem mark_iff (a c : Nat) : (mark a).testBit c = true ↔ c = a := by
  have : (mark a).testBit c = decide (a = c) := Nat.testBit_two_pow
  rw [this, decide_eq_true_eq]
  exact eq_comm

/-- A range. -/
def span (a b : Nat) : Nat := Nat.shiftLeft (Nat.sub (Nat.pow 2 (Nat.sub (Nat.add b 1) a)) 1) a

theorem span_iff (a b c : Nat) : (span a b).testBit c = true ↔ a ≤ c ∧ c ≤ b := by
  have : (span a b).testBit c = (decide (c ≥ a) && (2 ^ (b + 1 - a) - 1).testBit (c - a)) := Nat.testBit_shiftLeft ..
  rw [this, Nat.testBit_two_pow_sub_one, Bool.and_eq_true, decide_eq_true_eq, decide_eq_true_eq]
  omega

/-- Membership, for the kernel. -/
def hasBit (n c : Nat) : Bool := Nat.beq (Nat.mod (Nat.shiftRight n c) 2) 1

theorem hasBit_eq (n c : Nat) : hasBit n c = n.testBit c := by
  have : hasBit n c = true ↔ n.testBit c = true := by
    rw [hasBit, Nat.beq_eq, Nat.testBit_eq_decide_div_mod_eq, decide_eq_true_eq]
    show n >>> c % 2 = 1 ↔ _
    rw [Nat.shiftRight_eq_div_pow]
  cases h : hasBit n c <;> cases h' : n.testBit c <;> simp_all

/-- The code points that decompose. -/
def decomposing : Nat := Nat.lor (span 0xAC00 0xD7A3) (gather (gather fun e => mark e.1) decompositionGroups)

/-- The code points excluded from composition. -/
def excluded : Nat := gather mark compositionExclusions

/-- The first or the second part of a decomposition into two, if the code point may be composed again. -/
def part (second : Bool) (E : Nat) (e : Nat × Str) : Nat :=
  match e.2 with
  | [a, b] => cond (hasBit E e.1) 0 (mark (cond second b a))
  | _ => 0

noncomputable def parts (second : Bool) : Nat := force excluded fun E => gather (gather (part second E)) decompositionGroups

/-- The code points that may combine with what is before them, or be reordered. -/
noncomputable def backward : Nat := Nat.lor (gather (fun r : Nat × Nat × Nat => span r.1 r.2.1) combiningRuns)
  (Nat.lor (parts true) (Nat.lor (span 0x1161 0x1175) (span 0x11A8 0x11C2)))

/-- The code points that may combine with what is behind them. -/
noncomputable def forward : Nat := Nat.lor (parts false) (span 0x1100 0x1112)

/-- The check of one code point with its three bits. -/
noncomputable def checkN (c v : Nat) (d m f : Bool) : Bool :=
  cond (and (Nat.ble 0xD800 c) (Nat.ble c 0xDBFF)) (and (not d) (and (not m) (not f)))
    (cond d (and (Nat.ble 0xAE2 v) (Nat.blt v 0xFC00)) (cond m (Nat.ble 0xFC00 v)
      (and (Nat.blt v 0xAE2) (cond f (not (Nat.beq v 1)) (Nat.beq v 1)))))

/-- The 16 bits from `16 * b` on. -/
def chunk (n b : Nat) : Nat := Nat.mod (Nat.shiftRight n (Nat.mul 16 b)) 0x10000

theorem chunk_bit (n b : Nat) {j : Nat} (hj : j < 16) : hasBit (chunk n b) j = n.testBit (16 * b + j) := by
  rw [hasBit_eq]
  show ((n >>> (16 * b)) % 2 ^ 16).testBit j = _
  rw [Nat.testBit_mod_two_pow, Nat.testBit_shiftRight]
  simp [hj]

noncomputable def scanN (D M F b : Nat) : Bool :=
  or (Nat.ble 12224 b) (force (nfcTrie.blk b) fun p => force (chunk D b) fun d => force (chunk M b) fun m => force (chunk F b) fun f =>
    or (and (Nat.beq p 0x226) (and (Nat.beq d 0) (and (Nat.beq m 0) (Nat.beq f 0))))
    (allB (fun j => force (Nat.add (Nat.mul 16 b) j) fun c => force (nfcTrie.data.at' (Nat.add p j)) fun v =>
      checkN c v (hasBit d j) (hasBit m j) (hasBit f j)) 4 0))

noncomputable def scanAll : Bool := force decomposing fun D => force backward fun M => force forward fun F =>
  and (allB (scanN D M F) 14 0) (Nat.blt (Nat.lor D (Nat.lor M F)) (Nat.pow 2 0x2FC00))

theorem nfc_scanAll : scanAll = true := by decide +kernel

/-- The check of one decomposition of the standard. -/
noncomputable def sameList : Str → Str → Bool
  | [], [] => true
  | a :: s, b :: t => and (Nat.beq a b) (sameList s t)
  | _, _ => false

noncomputable def entryOk (e : Nat × Str) : Bool :=
  match nfc.getRawDecomposition e.1 with
  | .ok (some d) => sameList d e.2
  | _ => false

theorem nfc_entries : (decompositionGroups.all fun g => g.all entryOk) = true := by decide +kernel

end Verif

import Verif.Lemmas.BidiWorld
import Verif.Props.RunCharProps
import Verif.Props.Utilities
import Verif.Props.BidiMaps
import Verif.Props.Mirrors
/-!
# Utilities.py and BidiProps.py, executed from their texts (C135)

As `Props/RunCharProps` for CharProps.py. `listOfCodes` of Utilities.py is not here: it uses a comprehension, which `Model/PyRun` does not
execute.
-/
namespace Verif.PyRun

namespace Utilities
open Verif.PySyntax Verif.Library Verif.Data

/-- The predicates of Utilities.py. -/
def predicates : List (Nat × (Int → Bool)) :=
  [(n% "isUnicodeNoncharacter", Verif.Utilities.isUnicodeNoncharacter), (n% "isSurrogate", Verif.Utilities.isSurrogate),
   (n% "isSurrogateLead", Verif.Utilities.isSurrogateLead), (n% "isSurrogateTrail", Verif.Utilities.isSurrogateTrail),
   (n% "isLead", Verif.Utilities.isLead), (n% "isTrail", Verif.Utilities.isTrail)]

/-- The modules after the import of Utilities.py and Utrie2.py. -/
noncomputable def world : World := ⟨[(n% "Utrie2", trie2), (n% "Utilities", utilities)], empty.tables⟩

theorem world_scope : world.scope (n% "Utilities") = utilities := by rw [world, scope_tail (by decide), scope_cons]

/-- C135. Every function of Utilities.py, apart from `listOfCodes`, executed from the text of the file, for all ints. -/
theorem text_utilities : (∃ b, parse (textOf Source.Utilities) = some b ∧ ∀ f ∈ CharProps.functions b, f ∈ predicates.map Prod.fst ++
      [n% "charFromSurrogates", n% "surrogatesFromChar", n% "arithmeticShift", n% "highBit", n% "listOfCodes"]) ∧
    ∃ w, tries = .ok w ∧ ∀ (n : Nat) (x y : Int) (a b : Nat),
    let call := fun (f : Nat) (args : List Int) => callFunction w (n + 1) (n% "Utilities") f (args.map .int)
    (∀ p ∈ predicates, call p.1 [x] = .ok (.bool (p.2 x))) ∧
    call (n% "charFromSurrogates") [x, y] = .ok (.int (Verif.Utilities.charFromSurrogates x y)) ∧
    call (n% "surrogatesFromChar") [x] = .ok (.tuple (chain [.int (Verif.Utilities.surrogatesFromChar x).1,
      .int (Verif.Utilities.surrogatesFromChar x).2])) ∧
    call (n% "arithmeticShift") [x, a, b] = lift ((Verif.Utilities.arithmeticShift x a b).map .int) ∧
    call (n% "highBit") [x] = .ok (match Verif.Utilities.highBit x with | some b => .int b | none => .none) := by
  have H := world_scope
  refine ⟨⟨_, parse_Utilities, by decide +kernel⟩, world, tries_ok, fun n x y a b => ⟨?_, charFromSurrogates_run H x y n,
    surrogatesFromChar_run H x n, arithmeticShift_run ((found H _).trans facts.2.2.2.2.2.2.2.2.1) x a b n, highBit_run H x n⟩⟩
  simp only [predicates, List.forall_mem_cons, List.not_mem_nil, false_imp_iff, implies_true, and_true]
  exact ⟨isUnicodeNoncharacter_run H x n, isSurrogate_run H x n, isSurrogateLead_run H x n, isSurrogateTrail_run H x n, isLead_run H x n,
    isTrail_run H x n⟩

/-- C135. So, for the file as it is shipped: a code point above U+FFFF is split in two numbers, a lead and a trail surrogate, and gotten back
from them; the surrogates and the noncharacters are those of the standard, and a field of a word is read as a number in two's complement. -/
theorem text_standard : ∃ w, tries = .ok w ∧
    let call := fun (f : Nat) (args : List Int) => callFunction w 1 (n% "Utilities") f (args.map .int)
    (∀ c : Int, 0x10000 ≤ c → c ≤ 0x10FFFF → ∃ l t : Int, call (n% "surrogatesFromChar") [c] = .ok (.tuple (chain [.int l, .int t])) ∧
      (0xD800 ≤ l ∧ l ≤ 0xDBFF) ∧ (0xDC00 ≤ t ∧ t ≤ 0xDFFF) ∧ call (n% "charFromSurrogates") [l, t] = .ok (.int c)) ∧
    (∀ c : Int, 0 ≤ c → c ≤ 0x10FFFF → ∃ s l t : Bool, call (n% "isSurrogate") [c] = .ok (.bool s) ∧ call (n% "isLead") [c] = .ok (.bool l) ∧
      call (n% "isTrail") [c] = .ok (.bool t) ∧ (s = true ↔ 0xD800 ≤ c ∧ c ≤ 0xDFFF) ∧ (l = true ↔ 0xD800 ≤ c ∧ c ≤ 0xDBFF) ∧
      (t = true ↔ 0xDC00 ≤ c ∧ c ≤ 0xDFFF)) ∧
    (∀ c : Int, ∃ b : Bool, call (n% "isUnicodeNoncharacter") [c] = .ok (.bool b) ∧ (b = true ↔ (0xFDD0 ≤ c ∧ c ≤ 0xFDEF) ∨
      ∃ plane : Int, 0 ≤ plane ∧ plane ≤ 16 ∧ (c = plane * 0x10000 + 0xFFFE ∨ c = plane * 0x10000 + 0xFFFF))) ∧
    (∀ (a f : Nat) (v : Int), 0 < f → f ≤ a → 0 ≤ v → v < 2 ^ a → call (n% "arithmeticShift") [v, a, f] =
      .ok (.int (Verif.Utilities.Props.signed f (v / 2 ^ (a - f))))) ∧
    ∀ v : Int, 1 ≤ v → v < 2 ^ 64 → ∃ b : Nat, call (n% "highBit") [v] = .ok (.int b) ∧ 2 ^ b ≤ v ∧ v < 2 ^ (b + 1) := by
  have H := world_scope
  refine ⟨world, tries_ok, fun c h h' => ?_, fun c h h' => ?_, fun c => ?_, fun a f v h1 h2 h3 h4 => ?_, fun v h h' => ?_⟩
  · have r := Verif.Utilities.Props.surrogate_roundtrip h h'
    exact ⟨_, _, surrogatesFromChar_run H c 0, r.1, r.2.1, (charFromSurrogates_run H _ _ 0).trans (by rw [r.2.2])⟩
  · have r := Verif.Utilities.Props.surrogate_predicates (c := c) ⟨h, h'⟩
    exact ⟨_, _, _, isSurrogate_run H c 0, isLead_run H c 0, isTrail_run H c 0, r.1, r.2.1, r.2.2.1⟩
  · exact ⟨_, isUnicodeNoncharacter_run H c 0, Verif.Utilities.Props.noncharacter_iff c⟩
  · refine (arithmeticShift_run ((found H _).trans facts.2.2.2.2.2.2.2.2.1) v a f 0).trans ?_
    rw [Verif.Utilities.Props.arithmeticShift_signed h1 h2 h3 h4]; rfl
  · obtain ⟨b, e, r⟩ := Verif.Utilities.Props.highBit_log2 h h'
    exact ⟨b, (highBit_run H v 0).trans (by rw [e]), r⟩

/-- U+1F600 is split in D83D and DE00, and `arithmeticShift(0xFFF0, 16, 12)` is -1. -/
example : ∃ w, tries = .ok w ∧
    callFunction w 1 (n% "Utilities") (n% "surrogatesFromChar") [.int 0x1F600] = .ok (.tuple (chain [.int 0xD83D, .int 0xDE00])) ∧
    callFunction w 1 (n% "Utilities") (n% "arithmeticShift") [.int 0xFFF0, .int 16, .int 12] = .ok (.int (-1)) := by
  refine ⟨world, tries_ok, (surrogatesFromChar_run world_scope 0x1F600 0).trans ?_,
    (arithmeticShift_run ((found world_scope _).trans facts.2.2.2.2.2.2.2.2.1) 0xFFF0 16 12 0).trans ?_⟩ <;> decide +kernel

end Utilities

namespace BidiProps
open Verif.PySyntax Verif.Library Verif.Data Verif.Spec

/-- The predicates of BidiProps.py. -/
noncomputable def predicates : List (Nat × (Nat → Py Bool)) :=
  [(n% "isMirrored", Bidi.isMirrored), (n% "isBidiControl", Bidi.isBidiControl), (n% "isJoinControl", Bidi.isJoinControl)]

/-- The functions with one argument, a code point or a word of properties, that return an int. -/
noncomputable def numbers : List (Nat × (Nat → Py Int)) :=
  [(n% "getClassFromProps", fun x => .ok (Bidi.getClassFromProps x : Nat)), (n% "getMirrorDeltaFromProps", Bidi.getMirrorDeltaFromProps),
   (n% "getMirrorCodePointFromProps", fun x => .ok (Bidi.getMirrorCodePointFromProps x : Nat)),
   (n% "getMirrorIndexFromProps", fun x => .ok (Bidi.getMirrorIndexFromProps x : Nat)),
   (n% "getCharDirection", fun x => (Bidi.getCharDirection x).map Int.ofNat), (n% "getMirror", Bidi.getMirror),
   (n% "getJoiningType", fun x => (Bidi.getJoiningType x).map Int.ofNat), (n% "getJoiningGroup", fun x => (Bidi.getJoiningGroup x).map Int.ofNat),
   (n% "getPairedBracketType", fun x => (Bidi.getPairedBracketType x).map Int.ofNat), (n% "getPairedBracket", Bidi.getPairedBracket)]

/-- C135. BidiProps.py and the modules that it imports can be imported, and then every function of BidiProps.py gives, for all natural numbers
as arguments, the value or the exception that the model says. -/
theorem text_functions : (∃ b, parse (textOf Source.BidiProps) = some b ∧ ∀ f ∈ CharProps.functions b, f ∈ predicates.map Prod.fst ++
      numbers.map Prod.fst ++ [n% "getFlagFromProps", n% "getMirrorFromProps"]) ∧
    ∃ w, bidiProps = .ok w ∧ ∀ n x y : Nat,
    let call := fun (f : Nat) (args : List Nat) => callFunction w (n + 4) (n% "BidiProps") f (args.map fun (e : Nat) => .int e)
    (∀ p ∈ predicates, call p.1 [x] = lift ((p.2 x).map .bool)) ∧
    (∀ p ∈ numbers, call p.1 [x] = lift ((p.2 x).map .int)) ∧
    call (n% "getFlagFromProps") [x, y] = .ok (.bool (Bidi.getFlagFromProps x y)) ∧
    call (n% "getMirrorFromProps") [x, y] = lift ((Bidi.getMirrorFromProps x y).map .int) := by
  have H := imported
  refine ⟨⟨_, parse_BidiProps, by decide +kernel⟩, bidiWorld, bidiProps_ok, fun n x y => ⟨?_, ?_, getFlagFromProps_run H x y (n + 3),
    getMirrorFromProps_run H x y (n + 1)⟩⟩
  · simp only [predicates, List.forall_mem_cons, List.not_mem_nil, false_imp_iff, implies_true, and_true]
    exact ⟨isMirrored_run H x n, isBidiControl_run H x n, isJoinControl_run H x n⟩
  · simp only [numbers, List.forall_mem_cons, List.not_mem_nil, false_imp_iff, implies_true, and_true]
    exact ⟨getClassFromProps_run H x (n + 3), getMirrorDeltaFromProps_run H x (n + 2), getMirrorCodePointFromProps_run H x (n + 3),
      getMirrorIndexFromProps_run H x (n + 3), CharProps.int_map (getCharDirection_run H x n), getMirror_run H x n,
      CharProps.int_map (getJoiningType_run H x n), CharProps.int_map (getJoiningGroup_run H x n),
      CharProps.int_map (getPairedBracketType_run H x n), getPairedBracket_run H x n⟩

/-- C135. So the files as they are shipped, executed, give every code point the bidi class (except for the last one, see C108), the joining
type and joining group, the mirror and the paired bracket of Unicode 13.0. -/
theorem text_standard : ∃ w, bidiProps = .ok w ∧ ∀ c : Nat, c ≤ 0x10FFFF →
    let call := fun (f : Nat) => callFunction w 4 (n% "BidiProps") f [.int c]
    (c ≠ 0x10FFFF → call (n% "getCharDirection") = .ok (.int (valueIn 0 classRuns c : Nat))) ∧
    call (n% "getJoiningType") = .ok (.int (valueIn 0 joiningRuns c : Nat)) ∧
    call (n% "getJoiningGroup") = .ok (.int (valueIn 0 groupRuns c : Nat)) ∧
    call (n% "getMirror") = .ok (.int (standardMirror c : Nat)) ∧
    call (n% "getPairedBracket") = .ok (.int (standardBracket c : Nat)) ∧
    ∃ b, call (n% "isMirrored") = .ok (.bool b) ∧ (b = true ↔ InRanges mirroredRanges c) := by
  have H := imported
  refine ⟨bidiWorld, bidiProps_ok, fun c hc => ⟨fun h => ?_, ?_, ?_, ?_, ?_, ?_⟩⟩
  · refine (getCharDirection_run H c 0).trans ?_
    rw [Bidi.Props.class_map_partial.1 c (by omega)]; rfl
  · refine (getJoiningType_run H c 0).trans ?_
    rw [Bidi.Props.joining_maps.1.1 c hc]; rfl
  · refine (getJoiningGroup_run H c 0).trans ?_
    rw [Bidi.Props.joining_maps.2.1 c hc]; rfl
  · refine (getMirror_run H c 0).trans ?_
    rw [Bidi.Props.mirror_map]; rfl
  · refine (getPairedBracket_run H c 0).trans ?_
    rw [Bidi.Props.bracket_map]; rfl
  · obtain ⟨b, e, r⟩ := Bidi.Props.mirrored_set c
    refine ⟨b, (isMirrored_run H c 0).trans ?_, r⟩
    rw [e]; rfl

/-- `getMirror(0x28)` is U+0029, `getPairedBracket(0x298D)` is U+2990, which is found in the list, and `getCharDirection(0x5D0)` is 1. -/
example : ∃ w, bidiProps = .ok w ∧ callFunction w 4 (n% "BidiProps") (n% "getMirror") [.int (0x28 : Nat)] = .ok (.int 0x29) ∧
    callFunction w 4 (n% "BidiProps") (n% "getPairedBracket") [.int (0x298D : Nat)] = .ok (.int 0x2990) ∧
    callFunction w 4 (n% "BidiProps") (n% "getCharDirection") [.int (0x5D0 : Nat)] = .ok (.int 1) := by
  refine ⟨bidiWorld, bidiProps_ok, (getMirror_run imported 0x28 0).trans ?_, (getPairedBracket_run imported 0x298D 0).trans ?_,
    (getCharDirection_run imported 0x5D0 0).trans ?_⟩ <;> decide +kernel

end BidiProps

end Verif.PyRun

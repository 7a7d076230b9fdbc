import Verif.Lemmas.CaseWorld
import Verif.Props.RunCharProps
import Verif.Props.CaseMaps
/-!
# CaseProps.py, executed from its text (C136)

As `Props/RunCharProps` for CharProps.py.
-/
namespace Verif.PyRun.CaseProps
open Verif.PySyntax Verif.Library Verif.Data Verif.Spec

/-- The functions with one argument, a code point or a word of properties, that return an int. -/
noncomputable def numbers : List (Nat × (Nat → Py Int)) :=
  [(n% "getDeltaFromProps", Case.getDeltaFromProps), (n% "getTypeFromProps", fun x => .ok (Case.getTypeFromProps x : Nat)),
   (n% "getTypeAndIgnorableFromProps", fun x => .ok (Case.getTypeAndIgnorableFromProps x : Nat)),
   (n% "toLower", Case.toLower), (n% "toUpper", Case.toUpper), (n% "toTitle", Case.toTitle)]

/-- The functions with one argument that return a string. -/
noncomputable def strings : List (Nat × (Nat → Py (List Nat))) :=
  [(n% "toFullLower", Case.toFullLower), (n% "toFullUpper", Case.toFullUpper), (n% "toFullTitle", Case.toFullTitle)]

/-- The predicates of CaseProps.py. -/
def predicates : List (Nat × (Nat → Bool)) := [(n% "isUpperOrTitle", Case.isUpperOrTitle), (n% "hasException", Case.hasException)]

/-- C136. CaseProps.py and the modules that it imports can be imported, and then every function of CaseProps.py gives, for all natural numbers
(and for `toUpperOrTitle` both Booleans) as arguments, the value or the exception that the model says. -/
theorem text_functions : (∃ b, parse (textOf Source.CaseProps) = some b ∧ ∀ f ∈ CharProps.functions b, f ∈ predicates.map Prod.fst ++
      numbers.map Prod.fst ++ strings.map Prod.fst ++ [n% "hasSlot", n% "slotOffset", n% "getSlotValue", n% "toUpperOrTitle"]) ∧
    ∃ w, caseProps = .ok w ∧ ∀ (n x y z : Nat) (b : Bool),
    let call := fun (f : Nat) (args : List Val) => callFunction w (n + 5) (n% "CaseProps") f args
    (∀ p ∈ predicates, call p.1 [.int x] = .ok (.bool (p.2 x))) ∧
    (∀ p ∈ numbers, call p.1 [.int x] = lift ((p.2 x).map .int)) ∧
    (∀ p ∈ strings, call p.1 [.int x] = lift ((p.2 x).map .str)) ∧
    call (n% "hasSlot") [.int x, .int y] = .ok (.bool (Case.hasSlot x y)) ∧
    call (n% "slotOffset") [.int x, .int y] = lift ((Case.slotOffset x y).map fun (e : Nat) => .int e) ∧
    call (n% "getSlotValue") [.int x, .int y, .int z] = lift ((Case.getSlotValue caseExceptions.arr x y z).map fun r =>
      .tuple (chain [.int r.1, .int r.2])) ∧
    call (n% "toUpperOrTitle") [.int x, .bool b] = lift ((Case.toUpperOrTitle x b).map .str) := by
  have H := imported
  refine ⟨⟨_, parse_CaseProps, by decide +kernel⟩, caseWorld, caseProps_ok, fun n x y z b => ⟨?_, ?_, ?_, hasSlot_run H x y (n + 4),
    slotOffset_run H x y (n + 4), getSlotValue_run H x y z (n + 3), toUpperOrTitle_run H x b (n + 1)⟩⟩
  · simp only [predicates, List.forall_mem_cons, List.not_mem_nil, false_imp_iff, implies_true, and_true]
    exact ⟨isUpperOrTitle_run H x (n + 4), hasException_run H x (n + 4)⟩
  · simp only [numbers, List.forall_mem_cons, List.not_mem_nil, false_imp_iff, implies_true, and_true]
    exact ⟨getDeltaFromProps_run H x (n + 3), getTypeFromProps_run H x (n + 4), getTypeAndIgnorableFromProps_run H x (n + 4),
      toLower_run H x (n + 1), toUpper_run H x (n + 1), toTitle_run H x (n + 1)⟩
  · simp only [strings, List.forall_mem_cons, List.not_mem_nil, false_imp_iff, implies_true, and_true]
    exact ⟨toFullLower_run H x (n + 1), toFullUpper_run H x n, toFullTitle_run H x n⟩

/-- C136. So the files as they are shipped, executed, give every code point the simple and the full case mappings of Unicode 13.0. -/
theorem text_standard : ∃ w, caseProps = .ok w ∧ ∀ c : Nat, c ≤ 0x10FFFF →
    let call := fun (f : Nat) => callFunction w 5 (n% "CaseProps") f [.int c]
    call (n% "toLower") = .ok (.int (mapBy simpleLower c : Nat)) ∧
    call (n% "toUpper") = .ok (.int (mapBy simpleUpper c : Nat)) ∧
    call (n% "toTitle") = .ok (.int (mapBy simpleTitle c : Nat)) ∧
    call (n% "toFullLower") = .ok (.str (fullBy specialLower simpleLower c)) ∧
    call (n% "toFullUpper") = .ok (.str (fullBy specialUpper simpleUpper c)) ∧
    call (n% "toFullTitle") = .ok (.str (fullBy specialTitle simpleTitle c)) := by
  have H := imported
  refine ⟨caseWorld, caseProps_ok, fun c hc => ?_⟩
  obtain ⟨l, u, t⟩ := Case.Props.simple_maps c
  obtain ⟨fl, fu, ft⟩ := Case.Props.full_maps c hc
  refine ⟨(toLower_run H c 1).trans ?_, (toUpper_run H c 1).trans ?_, (toTitle_run H c 1).trans ?_, (toFullLower_run H c 1).trans ?_,
    (toFullUpper_run H c 0).trans ?_, (toFullTitle_run H c 0).trans ?_⟩
  · rw [l]; rfl
  · rw [u]; rfl
  · rw [t]; rfl
  · rw [fl]; rfl
  · rw [fu]; rfl
  · rw [ft]; rfl

/-- `toFullUpper(0xDF)` is `"SS"`, `toTitle(0x1C6)` is U+01C5 and `toUpperOrTitle(0x587, False)` is the special case of the ligature ech yiwn. -/
example : ∃ w, caseProps = .ok w ∧
    callFunction w 5 (n% "CaseProps") (n% "toFullUpper") [.int (0xDF : Nat)] = .ok (.str [0x53, 0x53]) ∧
    callFunction w 5 (n% "CaseProps") (n% "toTitle") [.int (0x1C6 : Nat)] = .ok (.int 0x1C5) ∧
    callFunction w 5 (n% "CaseProps") (n% "toUpperOrTitle") [.int (0x587 : Nat), .bool false] = .ok (.str [0x535, 0x582]) := by
  refine ⟨caseWorld, caseProps_ok, (toFullUpper_run imported 0xDF 0).trans ?_, (toTitle_run imported 0x1C6 1).trans ?_,
    (toUpperOrTitle_run imported 0x587 false 1).trans ?_⟩ <;> decide +kernel

end Verif.PyRun.CaseProps

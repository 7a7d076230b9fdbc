import Verif.Lemmas.CharWorld
import Verif.Lemmas.RunNumeric
import Verif.Props.NumericFloat
import Verif.Props.CategoryMap
/-!
# CharProps.py, executed from its text (C134)

The other theorems are about `Model/CharProps`, which was written by hand. Here the texts of CharProps.py and of the modules that it imports are
parsed and executed by the model of Python, and the model by hand is what comes out.
-/
namespace Verif.PyRun.CharProps
open Verif.PySyntax Verif.Library Verif.Data

/-- The functions that are given a code point and return a bool: the predicates of CharProps.py. -/
noncomputable def predicates : List (Nat × (Nat → Py Bool)) :=
  [(n% "isLower", Char.isLower), (n% "isUpper", Char.isUpper), (n% "isTitle", Char.isTitle), (n% "isDigit", Char.isDigit),
   (n% "isalpha", Char.isalpha), (n% "isalnum", Char.isalnum), (n% "isDefined", Char.isDefined), (n% "isbase", Char.isbase),
   (n% "iscntrl", Char.iscntrl), (n% "isJavaSpaceChar", Char.isJavaSpaceChar), (n% "isPrint", Char.isPrint),
   (n% "isgraph", Char.isgraph), (n% "isGraphPOSIX", Char.isGraphPOSIX), (n% "ispunct", Char.ispunct),
   (n% "isIDStart", Char.isIDStart), (n% "isJavaIDStart", Char.isJavaIDStart), (n% "isAlphabetic", Char.isAlphabetic),
   (n% "isUWhiteSpace", Char.isUWhiteSpace), (n% "isalnumPOSIX", Char.isalnumPOSIX), (n% "isspace", Char.isspace),
   (n% "isWhiteSpace", Char.isWhiteSpace), (n% "isBlank", Char.isBlank), (n% "isPrintPOSIX", Char.isPrintPOSIX),
   (n% "isIDIgnorable", Char.isIDIgnorable), (n% "isIDPart", Char.isIDPart), (n% "isJavaIDPart", Char.isJavaIDPart),
   (n% "isExtendedPictograph", Char.isExtendedPictograph), (n% "isEmojiComponent", Char.isEmojiComponent),
   (n% "isEmoji", Char.isEmoji), (n% "isEmojiPresentation", Char.isEmojiPresentation), (n% "isEmojiModifier", Char.isEmojiModifier),
   (n% "isEmojiModifierBase", Char.isEmojiModifierBase), (n% "isHexDigit", Char.isHexDigit),
   (n% "isISOControl", fun c => .ok (Char.isISOControl c)), (n% "isThatControlSpace", fun c => .ok (Char.isThatControlSpace c)),
   (n% "isThatASCIIControlSpace", fun c => .ok (Char.isThatASCIIControlSpace c))]

/-- The functions with one argument, a code point, a word of properties or an index, that return
an int. -/
noncomputable def numbers : List (Nat × (Nat → Py Int)) :=
  [(n% "getGeneralCategory", fun x => (Char.getGeneralCategory x).map Int.ofNat),
   (n% "getNumericTypeValue", fun x => (Char.getNumericTypeValue x).map Int.ofNat),
   (n% "getNumericType", fun x => (Char.getNumericType x).map Int.ofNat),
   (n% "blockFromVecIndex", fun x => (Char.blockFromVecIndex x).map Int.ofNat),
   (n% "getBlock", fun x => (Char.getBlock x).map Int.ofNat),
   (n% "eastAsianWidthFromVecIndex", fun x => (Char.eastAsianWidthFromVecIndex x).map Int.ofNat),
   (n% "getEastAsianWidth", fun x => (Char.getEastAsianWidth x).map Int.ofNat),
   (n% "lineBreakFromVecIndex", fun x => (Char.lineBreakFromVecIndex x).map Int.ofNat),
   (n% "getLineBreak", fun x => (Char.getLineBreak x).map Int.ofNat),
   (n% "sentenceBreakFromVecIndex", fun x => (Char.sentenceBreakFromVecIndex x).map Int.ofNat),
   (n% "getSentenceBreak", fun x => (Char.getSentenceBreak x).map Int.ofNat),
   (n% "wordBreakFromVecIndex", fun x => (Char.wordBreakFromVecIndex x).map Int.ofNat),
   (n% "getWordBreak", fun x => (Char.getWordBreak x).map Int.ofNat),
   (n% "graphemeClusterBreakFromVecIndex", fun x => (Char.graphemeClusterBreakFromVecIndex x).map Int.ofNat),
   (n% "getGraphemeClusterBreak", fun x => (Char.getGraphemeClusterBreak x).map Int.ofNat),
   (n% "decompTypeFromVecIndex", fun x => (Char.decompTypeFromVecIndex x).map Int.ofNat),
   (n% "getDecompType", fun x => (Char.getDecompType x).map Int.ofNat), (n% "digitValue", Char.digitValue),
   (n% "scriptFromVecIndex", fun x => (Char.scriptFromVecIndex x).map Int.ofNat),
   (n% "getScript", Char.getScript),
   (n% "generalCategoryFromProps", fun x => .ok (Char.generalCategoryFromProps x : Nat)),
   (n% "gcMask", fun x => .ok (Char.gcMask x : Nat)), (n% "numericTypeFromProps", fun x => .ok (Char.numericTypeFromProps x : Nat)),
   (n% "numericTypeValueFromProps", fun x => .ok (Char.numericTypeValueFromProps x : Nat)),
   (n% "mergeScriptCodeOrIndex", fun x => .ok (Char.mergeScriptCodeOrIndex x : Nat))]

theorem int_map {r : R Val} {p : Py Nat} (h : r = lift (p.map fun e => .int e)) : r = lift ((p.map Int.ofNat).map .int) := by
  cases p <;> exact h

theorem predicates_run {w : World} (H : Imported w) (n x : Nat) : ∀ p ∈ predicates,
    callFunction w (n + 14) (n% "CharProps") p.1 [.int x] = lift ((p.2 x).map .bool) := by
  simp only [predicates, List.forall_mem_cons, List.not_mem_nil, false_imp_iff, implies_true, and_true]
  exact ⟨isLower_run H x (n + 9), isUpper_run H x (n + 9), isTitle_run H x (n + 9), isDigit_run H x (n + 9), isalpha_run H x (n + 9), isalnum_run H x (n + 9), isDefined_run H x (n + 9), isbase_run H x (n + 9), iscntrl_run H x (n + 9), isJavaSpaceChar_run H x (n + 9), isPrint_run H x (n + 9), isgraph_run H x (n + 9), isGraphPOSIX_run H x (n + 9), ispunct_run H x (n + 9), isIDStart_run H x (n + 9), isJavaIDStart_run H x (n + 9), isAlphabetic_run H x (n + 9), isUWhiteSpace_run H x (n + 9), isalnumPOSIX_run H x (n + 8), isspace_run H x (n + 9), isWhiteSpace_run H x (n + 9), isBlank_run H x (n + 9), isPrintPOSIX_run H x (n + 8), isIDIgnorable_run H x (n + 9), isIDPart_run H x (n + 8), isJavaIDPart_run H x (n + 8), isExtendedPictograph_run H x (n + 9), isEmojiComponent_run H x (n + 9), isEmoji_run H x (n + 9), isEmojiPresentation_run H x (n + 9), isEmojiModifier_run H x (n + 9), isEmojiModifierBase_run H x (n + 9), isHexDigit_run H x (n + 8), isISOControl_run H x (n + 13), isThatControlSpace_run H x (n + 13), isThatASCIIControlSpace_run H x (n + 13)⟩

theorem numbers_run {w : World} (H : Imported w) (n x : Nat) : ∀ p ∈ numbers,
    callFunction w (n + 14) (n% "CharProps") p.1 [.int x] = lift ((p.2 x).map .int) := by
  simp only [numbers, List.forall_mem_cons, List.not_mem_nil, false_imp_iff, implies_true, and_true]
  exact ⟨int_map (getGeneralCategory_run H x (n + 10)), int_map (getNumericTypeValue_run H x (n + 10)), int_map (getNumericType_run H x (n + 10)), int_map (blockFromVecIndex_run H x (n + 12)), int_map (getBlock_run H x (n + 10)), int_map (eastAsianWidthFromVecIndex_run H x (n + 12)), int_map (getEastAsianWidth_run H x (n + 10)), int_map (lineBreakFromVecIndex_run H x (n + 12)), int_map (getLineBreak_run H x (n + 10)), int_map (sentenceBreakFromVecIndex_run H x (n + 12)), int_map (getSentenceBreak_run H x (n + 10)), int_map (wordBreakFromVecIndex_run H x (n + 12)), int_map (getWordBreak_run H x (n + 10)), int_map (graphemeClusterBreakFromVecIndex_run H x (n + 12)), int_map (getGraphemeClusterBreak_run H x (n + 10)), int_map (decompTypeFromVecIndex_run H x (n + 12)), int_map (getDecompType_run H x (n + 10)), digitValue_run H x (n + 9), int_map (scriptFromVecIndex_run H x (n + 12)), getScript_run H x (n + 10), generalCategoryFromProps_run H x (n + 13), gcMask_run H x (n + 13), numericTypeFromProps_run H x (n + 13), numericTypeValueFromProps_run H x (n + 13), mergeScriptCodeOrIndex_run H x (n + 13)⟩

/-- The names of the functions that the statements of a module define. -/
def functions : Stmt → List Nat
  | .seq a b => functions a ++ functions b
  | .defn x _ _ => [x]
  | _ => []

/-- The functions that are not in the lists `predicates` and `numbers`. -/
def others : List Nat := [n% "unicodePropertiesFromVecIndex", n% "getUnicodeProperties", n% "binaryPropFromVecIndex", n% "getBinaryProp",
  n% "ageFromProps", n% "getAge", n% "numericValueFromProps", n% "getNumericValue"]

theorem all_functions : (∃ b, parse (textOf Source.CharProps) = some b ∧
    ∀ f ∈ functions b, f ∈ predicates.map Prod.fst ++ numbers.map Prod.fst ++ others) ∧ predicates.length = 36 ∧ numbers.length = 25 :=
  ⟨⟨_, parse_CharProps, by decide +kernel⟩, rfl, rfl⟩

/-- A list of ints. -/
def ints (l : List Nat) : Val := .list (chain (l.map fun (e : Nat) => .int e))

/-- C134. CharProps.py and the modules that it imports can be imported, and then every function of CharProps.py gives, for all natural numbers
as arguments, the value or the exception that the model says; for the numeric values see `text_numbers`. -/
theorem text_functions : ∃ w, charProps = .ok w ∧ ∀ n x y z : Nat,
    let call := fun (f : Nat) (args : List Nat) => callFunction w (n + 14) (n% "CharProps") f (args.map fun (e : Nat) => .int e)
    (∀ p ∈ predicates, call p.1 [x] = lift ((p.2 x).map .bool)) ∧
    (∀ p ∈ numbers, call p.1 [x] = lift ((p.2 x).map .int)) ∧
    call (n% "unicodePropertiesFromVecIndex") [x, y] = lift ((Char.unicodePropertiesFromVecIndex x y).map fun e => .int e) ∧
    call (n% "getUnicodeProperties") [x, y] = lift ((Char.getUnicodeProperties x y).map fun e => .int e) ∧
    call (n% "binaryPropFromVecIndex") [x, y, z] = lift ((Char.binaryPropFromVecIndex x y z).map .bool) ∧
    call (n% "getBinaryProp") [x, y, z] = lift ((Char.getBinaryProp x y z).map .bool) ∧
    call (n% "getBinaryProp") [x, y] = lift ((Char.getBinaryProp x y).map .bool) ∧
    call (n% "ageFromProps") [x] = .ok (ints (Char.ageFromProps x)) ∧
    call (n% "getAge") [x] = lift ((Char.getAge x).map ints) :=
  have H := imported
  ⟨charWorld, charProps_ok, fun n x y z => ⟨predicates_run H n x, numbers_run H n x, unicodePropertiesFromVecIndex_run H x y (n + 13),
    getUnicodeProperties_run H x y (n + 10), binaryPropFromVecIndex_run H x y z (n + 12), getBinaryProp_run H x y z (n + 10),
    getBinaryProp_default H x y (n + 10), ageFromProps_run H x (n + 13), getAge_run H x (n + 9)⟩⟩

theorem rounds_again {rnd : Rat → Rat} (h : Char.Props.Rounds rnd) (h' : ∀ x, rnd (rnd x) = rnd x) : Rounds rnd where
  again := h'
  ten := Char.Props.rounds_int h (n := 10) (by decide)
  hundred := Char.Props.rounds_int h (n := 100) (by decide)
  thousand := Char.Props.rounds_int h (n := 1000) (by decide)
  tenThousand := Char.Props.rounds_int h (n := 10000) (by decide)

/-- C134. The same for the numeric values, whatever the rounding of floats is, as long as it leaves alone what is rounded and numbers with few
digits. -/
theorem text_numbers : ∃ w, charProps = .ok w ∧ ∀ (rnd : Rat → Rat), Char.Props.Rounds rnd → (∀ x, rnd (rnd x) = rnd x) → ∀ n x : Nat,
    (callFunction w (n + 14) (n% "CharProps") (n% "numericValueFromProps") [.int x]).map (number rnd) =
      lift ((Char.numericFloatFromProps rnd x).map some) ∧
    (callFunction w (n + 14) (n% "CharProps") (n% "getNumericValue") [.int x]).map (number rnd) =
      lift ((Char.getNumericFloat rnd x).map some) :=
  ⟨charWorld, charProps_ok, fun _ h h' n x => ⟨numericValueFromProps_run imported (rounds_again h h') x (n + 2),
    getNumericValue_run imported (rounds_again h h') x (n + 1)⟩⟩

/-- C134. So the files as they are shipped, executed, give every code point the general category of Unicode 13.0 and its numeric value,
rounded once. -/
theorem text_standard : ∃ w, charProps = .ok w ∧ ∀ n c : Nat, c ≤ 0x10FFFF →
    callFunction w (n + 14) (n% "CharProps") (n% "getGeneralCategory") [.int c] =
      .ok (.int (Spec.valueIn 0 Spec.categoryRuns c : Nat)) ∧
    ∀ rnd : Rat → Rat, Char.Props.Rounds rnd → (∀ x, rnd (rnd x) = rnd x) →
      (callFunction w (n + 14) (n% "CharProps") (n% "getNumericValue") [.int c]).map (number rnd) =
        .ok (some ((Spec.standardNumber c).map fun v => rnd ((v.2.1 : Rat) / (v.2.2 : Rat)))) := by
  refine ⟨charWorld, charProps_ok, fun n c hc => ⟨?_, fun rnd h h' => ?_⟩⟩
  · refine (getGeneralCategory_run imported c (n + 10)).trans ?_
    rw [Char.Props.category_map.1 c hc]; rfl
  · refine (getNumericValue_run imported (rounds_again h h') c (n + 1)).trans ?_
    rw [Char.Props.numeric_float h c hc]; rfl

/-- A rounding of that kind. -/
theorem floor_again (x : Rat) : (fun x : Rat => ((x * 2 ^ 53).floor : Rat) / 2 ^ 53) (((x * 2 ^ 53).floor : Rat) / 2 ^ 53) =
    ((x * 2 ^ 53).floor : Rat) / 2 ^ 53 := by
  dsimp only
  rw [Rat.div_mul_cancel (by decide), Rat.floor_intCast]

/-- `getGeneralCategory(0x41)` is 1, `isDigit(0x35)` is `True`, `getAge(0x20AC)` is `[2, 1, 0, 0]` and the value of U+2153 is a third:
all from the text. -/
example : ∃ w, charProps = .ok w ∧ callFunction w 14 (n% "CharProps") (n% "getGeneralCategory") [.int (0x41 : Nat)] = .ok (.int 1) ∧
    callFunction w 14 (n% "CharProps") (n% "isDigit") [.int (0x35 : Nat)] = .ok (.bool true) ∧
    callFunction w 14 (n% "CharProps") (n% "getAge") [.int (0x20AC : Nat)] = .ok (ints [2, 1, 0, 0]) ∧
    (callFunction w 14 (n% "CharProps") (n% "getNumericValue") [.int (0x2153 : Nat)]).map (number fun x => ((x * 2 ^ 53).floor : Rat) / 2 ^ 53) =
      .ok (some (some (3002399751580330 / 2 ^ 53))) := by
  refine ⟨charWorld, charProps_ok, (getGeneralCategory_run imported 0x41 10).trans ?_, (isDigit_run imported 0x35 9).trans ?_,
    (getAge_run imported 0x20AC 9).trans ?_,
    (getNumericValue_run imported (rounds_again Char.Props.floor_rounds floor_again) 0x2153 1).trans ?_⟩ <;> decide +kernel

end Verif.PyRun.CharProps

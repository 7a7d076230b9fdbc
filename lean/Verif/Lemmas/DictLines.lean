import Verif.Props.DictText
import Verif.Model.Lines
import Verif.Data.Text
import Verif.Data.Keys
import Verif.Data.Names
/-! # The text of `UCDTypeDictionaries.py` -/
namespace Verif.HeaderText
open Verif Data.Text UCDReader.Spec UCDReader.Props
set_option maxRecDepth 100000
set_option Elab.async false

/-- The names and texts of a dictionary. -/
def dict (name : String) (keys : List Nat) (rows : List (Nat × String)) : Str × List (Str × Str) :=
  (txt name, (keys.zip rows).map fun p => (nameOf p.1, txt p.2.2))

/-- A name that is no number. -/
def goodName (s : Str) : Bool := !(s.head?.any fun c => decide (48 ≤ c ∧ c ≤ 57)) && !s.isEmpty && s.all isNameChar

/-- A text that can be written between quotation marks. -/
def goodText (s : Str) : Bool := s.all fun c => c != 34 && c != 92 && c != 10 && c != 13

theorem head_of {s : Str} (h : goodName s = true) : Head s ∧ ∀ c ∈ s, isNameChar c = true := by
  rw [goodName, Bool.and_eq_true, Bool.and_eq_true] at h
  refine ⟨?_, List.all_eq_true.mp h.2⟩
  cases s with
  | nil => exact absurd h.1.2 (by decide)
  | cons c s => exact ⟨c, s, rfl, by have := h.1.1; simp at this; omega⟩

theorem good_of {d : Str × List (Str × Str)} (h : (goodName d.1 && d.2.all fun e => goodName e.1 && goodText e.2) = true) : GoodDict d := by
  rw [Bool.and_eq_true] at h
  refine ⟨(head_of h.1).1, (head_of h.1).2, fun e he => ?_⟩
  have := List.all_eq_true.mp h.2 e he
  rw [Bool.and_eq_true] at this
  refine ⟨(head_of this.1).1, (head_of this.1).2, fun c hc => ?_⟩
  have := List.all_eq_true.mp this.2 c hc
  simpa [Bool.and_eq_true, and_assoc] using this

/-- The lines from `i` on are those of a dictionary. -/
def Piece (i n : Nat) (d : Str × List (Str × Str)) : Prop :=
  textOf ((UCDTypeDictionaries.drop i).take n) ++ [10] = assignment d ∧
    (goodName d.1 && d.2.all fun e => goodName e.1 && goodText e.2) = true

instance (i n : Nat) (d : Str × List (Str × Str)) : Decidable (Piece i n d) := by unfold Piece; infer_instance

theorem bidiClassNames : Piece 9 26 (dict "bidiClassNames" Data.Keys.bidiClassNames Data.bidiClassNames) := by decide +kernel

theorem blockNames : Piece 35 312 (dict "blockNames" Data.Keys.blockNames Data.blockNames) := by decide +kernel

theorem decompositionTypeNames : Piece 347 21 (dict "decompositionTypeNames" Data.Keys.decompositionTypeNames Data.decompositionTypeNames) := by decide +kernel

theorem eastAsianWidthNames : Piece 368 9 (dict "eastAsianWidthNames" Data.Keys.eastAsianWidthNames Data.eastAsianWidthNames) := by decide +kernel

theorem generalCategoryNames : Piece 377 33 (dict "generalCategoryNames" Data.Keys.generalCategoryNames Data.generalCategoryNames) := by decide +kernel

theorem graphemeClusterBreakNames : Piece 410 21 (dict "graphemeClusterBreakNames" Data.Keys.graphemeClusterBreakNames Data.graphemeClusterBreakNames) := by decide +kernel

theorem hangulSyllableTypeNames : Piece 431 9 (dict "hangulSyllableTypeNames" Data.Keys.hangulSyllableTypeNames Data.hangulSyllableTypeNames) := by decide +kernel

theorem indicPositionalCategoryNames : Piece 440 19 (dict "indicPositionalCategoryNames" Data.Keys.indicPositionalCategoryNames Data.indicPositionalCategoryNames) := by decide +kernel

theorem indicSyllabicCategoryNames : Piece 459 39 (dict "indicSyllabicCategoryNames" Data.Keys.indicSyllabicCategoryNames Data.indicSyllabicCategoryNames) := by decide +kernel

theorem joiningGroupNames : Piece 498 105 (dict "joiningGroupNames" Data.Keys.joiningGroupNames Data.joiningGroupNames) := by decide +kernel

theorem joiningTypeNames : Piece 603 9 (dict "joiningTypeNames" Data.Keys.joiningTypeNames Data.joiningTypeNames) := by decide +kernel

theorem lineBreakNames : Piece 612 46 (dict "lineBreakNames" Data.Keys.lineBreakNames Data.lineBreakNames) := by decide +kernel

theorem numberTypeNames : Piece 658 7 (dict "numberTypeNames" Data.Keys.numberTypeNames Data.numberTypeNames) := by decide +kernel

theorem sentenceBreakNames : Piece 665 18 (dict "sentenceBreakNames" Data.Keys.sentenceBreakNames Data.sentenceBreakNames) := by decide +kernel

theorem scriptNames : Piece 683 196 (dict "scriptNames" Data.Keys.scriptNames Data.scriptNames) := by decide +kernel

theorem verticalOrientationNames : Piece 879 7 (dict "verticalOrientationNames" Data.Keys.verticalOrientationNames Data.verticalOrientationNames) := by decide +kernel

theorem wordBreakNames : Piece 886 26 (dict "wordBreakNames" Data.Keys.wordBreakNames Data.wordBreakNames) := by decide +kernel

end Verif.HeaderText

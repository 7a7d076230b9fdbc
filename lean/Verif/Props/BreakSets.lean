import Verif.Lemmas.MapSets
import Verif.Props.BreakMaps
import Verif.Props.WidthMaps
import Verif.Spec.BreakSets
/-! # Break classes, widths and decomposition types of the shipped data are those of the standard (C99, C100) -/
namespace Verif.Char.Props
open Verif Verif.Spec Verif.Data Verif.Char
set_option maxRecDepth 100000

def graphemeNumbers : List Nat := [1, 2, 4, 5, 8, 9, 11, 12, 17]
def wordNumbers : List Nat := [2, 3, 4, 5, 7, 8, 10, 11, 12, 13, 14, 15, 16, 21, 22]
def sentenceNumbers : List Nat := [1, 3, 7, 8, 11, 13, 14]
def lineNumbers : List Nat := [3, 5, 6, 7, 10, 11, 12, 13, 15, 16, 17, 18, 21, 22, 23, 25, 26, 27, 28, 29, 30, 33, 34, 35, 36, 38, 39, 41, 42]
def widthNumbers : List Nat := [2, 3, 4]
def decompositionNumbers : List Nat := [3, 6, 10, 11, 12, 13, 14, 15, 16, 17]

/-- The code points for which `get` returns a value, for the values of the list. -/
def ExactSets (get : Nat → Py Nat) (names : List (Nat × String)) (sets : List (String × List (Nat × Nat))) : Prop :=
  ∀ s ∈ sets, ∃ v, names.lookup v = some s.1 ∧ ∀ c ≤ 0x10FFFF, get c = .ok v ↔ InRanges s.2 c

theorem exactSets_of {get : Nat → Py Nat} {names legend : List (Nat × String)} {d : Nat} {runs : List (Nat × Nat × Nat)}
    (h : MapIs get names d runs legend) {numbers : List Nat} {sets : List (String × List (Nat × Nat))} (ha : ascending runs 0 = true)
    (hn : (numbers.map fun v => names.lookup v) = sets.map fun s => some s.1) (hs : setsAre d runs numbers sets = true) :
    ExactSets get names sets := by
  intro s hm
  obtain ⟨v, hv, _, hx⟩ := sets_named ha hn hs s hm
  refine ⟨v, hv, fun c hc => ?_⟩
  rw [h.1 c hc, ← hx]
  exact ⟨Except.ok.inj, fun h => by rw [h]⟩

theorem grapheme_ascending : ascending graphemeRuns 0 = true := by decide +kernel
theorem line_ascending : ascending lineRuns 0 = true := by decide +kernel

/-- C99. For each break class of the lists, the code points for which the calls return it are those of the standard. -/
theorem break_sets :
    ExactSets getGraphemeClusterBreak graphemeClusterBreakNames graphemeSets ∧
    ExactSets getWordBreak wordBreakNames wordSets ∧
    ExactSets getSentenceBreak sentenceBreakNames sentenceSets ∧
    ExactSets getLineBreak lineBreakNames lineSets :=
  ⟨exactSets_of (numbers := graphemeNumbers) break_maps.1 grapheme_ascending (by decide +kernel) (by decide +kernel),
    exactSets_of (numbers := wordNumbers) break_maps.2.1 (by decide +kernel) (by decide +kernel) (by decide +kernel),
    exactSets_of (numbers := sentenceNumbers) break_maps.2.2.1 (by decide +kernel) (by decide +kernel) (by decide +kernel),
    exactSets_of (numbers := lineNumbers) break_maps.2.2.2 line_ascending (by decide +kernel) (by decide +kernel)⟩

example : ("RI", [(0x1F1E6, 0x1F1FF)]) ∈ graphemeSets ∧ ("SQ", [(0x27, 0x27)]) ∈ wordSets := by simp [graphemeSets, wordSets]

/-- C100. For each width and decomposition type of the lists, the code points for which the calls return it are those of the
standard. -/
theorem width_sets :
    ExactSets getEastAsianWidth eastAsianWidthNames widthSets ∧ ExactSets getDecompType decompositionTypeNames decompositionSets :=
  ⟨exactSets_of (numbers := widthNumbers) width_maps.1 (by decide +kernel) (by decide +kernel) (by decide +kernel),
    exactSets_of (numbers := decompositionNumbers) width_maps.2 (by decide +kernel) (by decide +kernel) (by decide +kernel)⟩

example : ("F", [(0x3000, 0x3000), (0xFF01, 0xFF60), (0xFFE0, 0xFFE6)]) ∈ widthSets := by simp [widthSets]

/-! ## Hangul syllables -/

/-- The syllables without and with a trailing consonant. -/
def openSyllables : List (Nat × Nat) := (List.range 399).map fun i => (0xAC00 + 28 * i, 0xAC00 + 28 * i)
def closedSyllables : List (Nat × Nat) := (List.range 399).map fun i => (0xAC01 + 28 * i, 0xAC1B + 28 * i)

theorem open_iff (c : Nat) : InRanges openSyllables c ↔ (0xAC00 ≤ c ∧ c ≤ 0xD7A3) ∧ (c - 0xAC00) % 28 = 0 := by
  unfold InRanges openSyllables
  constructor
  · rintro ⟨r, hr, h1, h2⟩
    obtain ⟨i, hi, rfl⟩ := List.mem_map.mp hr
    rw [List.mem_range] at hi
    simp only at h1 h2
    omega
  · intro h
    exact ⟨_, List.mem_map.mpr ⟨(c - 0xAC00) / 28, List.mem_range.mpr (by omega), rfl⟩, by simp only; omega, by simp only; omega⟩

theorem closed_iff (c : Nat) : InRanges closedSyllables c ↔ (0xAC00 ≤ c ∧ c ≤ 0xD7A3) ∧ (c - 0xAC00) % 28 ≠ 0 := by
  unfold InRanges closedSyllables
  constructor
  · rintro ⟨r, hr, h1, h2⟩
    obtain ⟨i, hi, rfl⟩ := List.mem_map.mp hr
    rw [List.mem_range] at hi
    simp only at h1 h2
    omega
  · intro h
    exact ⟨_, List.mem_map.mpr ⟨(c - 0xAC00) / 28, List.mem_range.mpr (by omega), rfl⟩, by simp only; omega, by simp only; omega⟩

theorem syllable_runs : valueRanges 6 graphemeRuns openSyllables = true ∧ valueRanges 7 graphemeRuns closedSyllables = true ∧
    valueRanges 31 lineRuns openSyllables = true ∧ valueRanges 32 lineRuns closedSyllables = true := by decide +kernel

/-- C99. Hangul syllables without trailing consonant have grapheme cluster break LV and line break H2, those with one LVT and H3, and no
other code point has these classes. -/
theorem hangul_breaks {c : Nat} (hc : c ≤ 0x10FFFF) :
    (getGraphemeClusterBreak c = .ok 6 ↔ (0xAC00 ≤ c ∧ c ≤ 0xD7A3) ∧ (c - 0xAC00) % 28 = 0) ∧
    (getGraphemeClusterBreak c = .ok 7 ↔ (0xAC00 ≤ c ∧ c ≤ 0xD7A3) ∧ (c - 0xAC00) % 28 ≠ 0) ∧
    (getLineBreak c = .ok 31 ↔ (0xAC00 ≤ c ∧ c ≤ 0xD7A3) ∧ (c - 0xAC00) % 28 = 0) ∧
    (getLineBreak c = .ok 32 ↔ (0xAC00 ≤ c ∧ c ≤ 0xD7A3) ∧ (c - 0xAC00) % 28 ≠ 0) := by
  have ok : ∀ x y : Nat, (Except.ok x : Py Nat) = .ok y ↔ x = y := fun x y => ⟨Except.ok.inj, fun h => by rw [h]⟩
  obtain ⟨r1, r2, r3, r4⟩ := syllable_runs
  rw [break_maps.1.1 c hc, break_maps.2.2.2.1 c hc, ok, ok, ok, ok, ← open_iff, ← closed_iff]
  exact ⟨valueRanges_spec (by decide) grapheme_ascending r1, valueRanges_spec (by decide) grapheme_ascending r2,
    valueRanges_spec (by decide) line_ascending r3, valueRanges_spec (by decide) line_ascending r4⟩

example : graphemeClusterBreakNames.lookup 6 = some "LV" ∧ graphemeClusterBreakNames.lookup 7 = some "LVT" ∧
    lineBreakNames.lookup 31 = some "H2" ∧ lineBreakNames.lookup 32 = some "H3" := by decide +kernel

end Verif.Char.Props

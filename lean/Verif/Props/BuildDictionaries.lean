import Verif.Props.Build
import Verif.Props.DictText
/-! # From the property file to the modules that a build leaves (C126) -/
namespace Verif.Build.Props
open Verif.Build.Spec
open Verif.Csv.Spec
open Verif.UCDReader.Spec (Short readDictionaries entriesOf PlainEntry version)

theorem firstFault_take {os : List (Str × Except Fault Str)} (h : firstFault os = .ok ()) (n : Nat) :
    firstFault (os.take n) = .ok () := by
  induction os generalizing n with
  | nil => simpa using h
  | cons o os ih =>
    cases n with
    | zero => rfl
    | succ n =>
      obtain ⟨a, r⟩ := o
      cases r with
      | error e => cases h
      | ok s => exact ih h n

/-- C126. After a build that succeeded, the module of type dictionaries in the output directory, read as Python behind its header, has for
each known type of the property file, in the order of first occurrence, the dictionary with one entry for each value line; and the version
module has the version of the last version line. -/
theorem build_dictionaries {w : World} (hw : AsciiCase w) {icuSource icuBuild outDir : Path} {d : Disk} {ls : List (List Field × Str)}
    (he : ∀ l ∈ ls, IsEnd l.2) (hf : ∀ l ∈ ls, ∀ x ∈ l.1, x.Ok)
    (hpp : d (icuSource ++ [txt "data", txt "unidata", txt "ppucd.txt"]) = some (linesText ls))
    (hp : ∀ e ∈ entriesOf w.upper w.lower (ls.map fun l => fieldsRow l.1), ∀ x ∈ e.2, PlainEntry x)
    (hok : (build w icuSource icuBuild outDir d).2 = .ok ()) :
    (∃ body, after d (build w icuSource icuBuild outDir d).1 (outDir ++ [txt "UCDTypeDictionaries.py"]) =
        some (((dictionaryHeader w.today).map (· ++ txt "\n")).flatten ++ body) ∧
      readDictionaries body = some (entriesOf w.upper w.lower (ls.map fun l => fieldsRow l.1))) ∧
    after d (build w icuSource icuBuild outDir d).1 (outDir ++ [txt "UnicodeVersion.py"]) =
      some (txt "unicodeVersion = \"" ++ (version (ls.map fun l => fieldsRow l.1)).getD (txt "None") ++ txt "\"\n") := by
  have hff := hok
  rw [build_result hw] at hff
  have hrows : Csv.rows (linesText ls) = some (ls.map fun l => fieldsRow l.1) := by
    have := Csv.Props.rows_quoted he hf (last := []) (by simp)
    simpa [fieldsText, lineText] using this
  obtain ⟨_, hfiles⟩ := build_files (icuBuild := icuBuild) (outDir := outDir) (icuSource := icuSource) hw (d := d)
  -- the two last outputs
  have h9 := hfiles 9 _ rfl
  have h10 := hfiles 10 _ rfl
  obtain ⟨s9, e9, a9⟩ := h9.1 (firstFault_take hff _)
  obtain ⟨s10, e10, a10⟩ := h10.1 (firstFault_take hff _)
  simp only [file, hpp, bind, Except.bind, hrows, Option.getD_some] at e9 e10
  by_cases hs : ∃ row ∈ ls.map (fun l => fieldsRow l.1), Short row
  · rw [UCDReader.Props.generateDictionaries_error _ _ _ hs] at e10
    cases e10
  · have hs' : ∀ row ∈ ls.map (fun l => fieldsRow l.1), ¬ Short row := fun r hr hx => hs ⟨r, hr, hx⟩
    obtain ⟨body, h1, h2⟩ := UCDReader.Props.module_partial w.upper w.lower _ (dictionaryHeader w.today) hs' hp
    have hg := UCDReader.Props.generateDictionaries_ok w.upper w.lower _ hs'
    rw [hg] at h1 e9 e10
    refine ⟨⟨body, ?_, h2⟩, ?_⟩
    · have : s9 = ((dictionaryHeader w.today).map (· ++ txt "\n")).flatten ++ body := by
        simp only [bind, Except.bind, made, Except.mapError] at h1 e9
        rw [h1] at e9
        cases e9
        rfl
      rw [← this]; exact a9
    · cases e10
      exact a10

/-- The build of the example leaves these two modules. -/
example : (∃ body, after demoDisk (build demoWorld [txt "icu", txt "source"] [txt "b"] [txt "out"] demoDisk).1
        [txt "out", txt "UCDTypeDictionaries.py"] =
        some (((dictionaryHeader (txt "June 1, 2021")).map (· ++ txt "\n")).flatten ++ body) ∧
      readDictionaries body = some [(txt "generalCategoryNames", [(txt "U_UPPERCASE_LETTER", txt "Lu")])]) ∧
    after demoDisk (build demoWorld [txt "icu", txt "source"] [txt "b"] [txt "out"] demoDisk).1 [txt "out", txt "UnicodeVersion.py"] =
      some (txt "unicodeVersion = \"13.0.0\"\n") := by
  have := build_dictionaries demoWorld_ascii (icuSource := [txt "icu", txt "source"]) (icuBuild := [txt "b"]) (outDir := [txt "out"])
    (d := demoDisk) (ls := [([.plain (txt "ucd"), .plain (txt "13.0.0")], [10]),
      ([.plain (txt "value"), .plain (txt "gc"), .plain (txt "Lu"), .plain (txt "Uppercase_Letter")], [10])])
    (by intro l hl; simp only [List.mem_cons, List.not_mem_nil, or_false] at hl; rcases hl with rfl | rfl <;> exact .inl rfl)
    (by
      intro l hl x hx
      simp only [List.mem_cons, List.not_mem_nil, or_false] at hl
      rcases hl with rfl | rfl <;> simp only [List.mem_cons, List.not_mem_nil, or_false] at hx
      · rcases hx with rfl | rfl <;> exact ⟨by decide, by decide⟩
      · rcases hx with rfl | rfl | rfl | rfl <;> exact ⟨by decide, by decide⟩)
    (by decide +kernel)
    (by
      intro e he x hx
      have : entriesOf demoWorld.upper demoWorld.lower ([([Field.plain (txt "ucd"), .plain (txt "13.0.0")], [10]),
          ([.plain (txt "value"), .plain (txt "gc"), .plain (txt "Lu"), .plain (txt "Uppercase_Letter")], [10])].map
          fun l : List Field × Str => fieldsRow l.1) =
          [(txt "generalCategoryNames", [(txt "U_UPPERCASE_LETTER", txt "Lu")])] := by decide +kernel
      rw [this, List.mem_singleton] at he
      subst he
      rw [List.mem_singleton] at hx
      subst hx
      exact ⟨by decide, by decide⟩)
    (by decide +kernel)
  exact this

end Verif.Build.Props

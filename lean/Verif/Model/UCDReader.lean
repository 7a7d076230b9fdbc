import Verif.Model.PyStr
import Verif.Model.ICUDataFile
/-!
# Model of `module_builder/UCDReader.py`

The reader of the `csv` module is in `Model/Csv`: here the file is the list of its rows, a row the list of its fields. `str.upper` and
`str.lower` are arguments. The header of the output file (lines 138-152), which holds the date, is an argument.
-/
namespace Verif.UCDReader
open Verif.ICUData (Dict dictGet dictSet)

/-- UCDReader.py:29-37 `bcMapings`. -/
def bcMappings : List (Str × Str) := [
  (txt "Arabic_Letter", txt "RIGHT_TO_LEFT_ARABIC"),
  (txt "Common_Separator", txt "COMMON_NUMBER_SEPARATOR"),
  (txt "European_Separator", txt "EUROPEAN_NUMBER_SEPARATOR"),
  (txt "European_Terminator", txt "EUROPEAN_NUMBER_TERMINATOR"),
  (txt "Nonspacing_Mark", txt "DIR_NON_SPACING_MARK"),
  (txt "Paragraph_Separator", txt "BLOCK_SEPARATOR"),
  (txt "White_Space", txt "WHITE_SPACE_NEUTRAL")]

/-- UCDReader.py:39-42 `blkMappings`. -/
def blkMappings : List (Str × Str) := [
  (txt "Combining_Diacritical_Marks_For_Symbols", txt "COMBINING_MARKS_FOR_SYMBOLS"),
  (txt "Greek_And_Coptic", txt "GREEK")]

/-- UCDReader.py:47-64 `gcMappings`. -/
def gcMappings : List (Str × Str) := [
  (txt "Other", txt ""),
  (txt "Control", txt "CONTROL_CHAR"),
  (txt "Format", txt "FORMAT_CHAR"),
  (txt "Private_Use", txt "PRIVATE_USE_CHAR"),
  (txt "Letter", txt ""),
  (txt "Cased_Letter", txt ""),
  (txt "Mark", txt ""),
  (txt "Spacing_Mark", txt "COMBINING_SPACING_MARK"),
  (txt "Nonspacing_Mark", txt "NON_SPACING_MARK"),
  (txt "Number", txt ""),
  (txt "Decimal_Number", txt "DECIMAL_DIGIT_NUMBER"),
  (txt "Punctuation", txt ""),
  (txt "Close_Punctuation", txt "END_PUNCTUATION"),
  (txt "Open_Punctuation", txt "START_PUNCTUATION"),
  (txt "Symbol", txt ""),
  (txt "Separator", txt "")]

/-- UCDReader.py:66-68 `gcbMappings`. -/
def gcbMappings : List (Str × Str) := [
  (txt "SpacingMark", txt "SPACING_MARK")]

/-- UCDReader.py:70-108 `scriptMappings`. -/
def scriptMappings : List (Str × Str) := [
  (txt "Afak", txt "AFAKA"),
  (txt "Blis", txt "BLISSYMBOLS"),
  (txt "Cirt", txt "CIRTH"),
  (txt "Cyrs", txt "OLD_CHURCH_SLAVONIC_CYRILLIC"),
  (txt "Egyd", txt "DEMOTIC_EGYPTIAN"),
  (txt "Egyh", txt "HIERATIC_EGYPTIAN"),
  (txt "Geok", txt "KHUTSURI"),
  (txt "Hanb", txt "HAN_WITH_BOPOMOFO"),
  (txt "Hans", txt "SIMPLIFIED_HAN"),
  (txt "Hant", txt "TRADITIONAL_HAN"),
  (txt "Inds", txt "HARAPPAN_INDUS"),
  (txt "Jpan", txt "JAPANESE"),
  (txt "Jurc", txt "JURCHEN"),
  (txt "Kore", txt "KOREAN"),
  (txt "Kpel", txt "KPELLE"),
  (txt "Tai_Tham", txt "LANNA"),
  (txt "Latf", txt "LATIN_FRAKTUR"),
  (txt "Latg", txt "LATIN_GAELIC"),
  (txt "Maya", txt "MAYAN_HIEROGLYPHS"),
  (txt "Mende_Kikakui", txt "MENDE"),
  (txt "Meetei_Mayek", txt "MEITEI_MAYEK"),
  (txt "Nkgb", txt "NAKHI_GEBA"),
  (txt "Old_Turkic", txt "ORKHON"),
  (txt "Phlv", txt "BOOK_PAHLAVI"),
  (txt "Roro", txt "RONGORONGO"),
  (txt "Sara", txt "SARATI"),
  (txt "SignWriting", txt "SIGN_WRITING"),
  (txt "Syre", txt "ESTRANGELO_SYRIAC"),
  (txt "Syrj", txt "WESTERN_SYRIAC"),
  (txt "Syrn", txt "EASTERN_SYRIAC"),
  (txt "Teng", txt "TENGWAR"),
  (txt "Visp", txt "VISIBLE_SPEECH"),
  (txt "Wole", txt "WOLEAI"),
  (txt "Zmth", txt "MATHEMATICAL_NOTATION"),
  (txt "Zsye", txt "SYMBOLS_EMOJI"),
  (txt "Zsym", txt "SYMBOLS"),
  (txt "Zxxx", txt "UNWRITTEN_LANGUAGES")]

/-- UCDReader.py:110-114 the functions applied to short names. -/
inductive ShortNames | lower | copy | spaces
  deriving DecidableEq

/-- UCDReader.py:110-114 their values. -/
def ShortNames.apply (lower : Str → Str) : ShortNames → Str → Str
  | .lower, sn => lower sn
  | .copy, sn => sn
  | .spaces, sn => replace 95 (txt " ") sn

/-- UCDReader.py:116 the entries of `prefix`. -/
structure TypeEntry where
  pre : Str
  name : Str
  mappings : List (Str × Str)
  short : ShortNames

/-- UCDReader.py:116-134 `prefix`. -/
def prefixes : List (Str × TypeEntry) := [
  (txt "bc", ⟨txt "U", txt "bidiClass", bcMappings, .spaces⟩),
  (txt "blk", ⟨txt "UBLOCK", txt "block", blkMappings, .spaces⟩),
  (txt "dt", ⟨txt "U_DT", txt "decompositionType", [], .lower⟩),
  (txt "ea", ⟨txt "U_EA", txt "eastAsianWidth", [], .spaces⟩),
  (txt "gc", ⟨txt "U", txt "generalCategory", gcMappings, .spaces⟩),
  (txt "GCB", ⟨txt "U_GCB", txt "graphemeClusterBreak", gcbMappings, .spaces⟩),
  (txt "hst", ⟨txt "U_HST", txt "hangulSyllableType", [], .spaces⟩),
  (txt "InPC", ⟨txt "U_INPC", txt "indicPositionalCategory", [], .copy⟩),
  (txt "InSC", ⟨txt "U_INSC", txt "indicSyllabicCategory", [], .copy⟩),
  (txt "jg", ⟨txt "U_JG", txt "joiningGroup", [], .spaces⟩),
  (txt "jt", ⟨txt "U_JT", txt "joiningType", [], .spaces⟩),
  (txt "lb", ⟨txt "U_LB", txt "lineBreak", [], .spaces⟩),
  (txt "nt", ⟨txt "U_NT", txt "numberType", [], .spaces⟩),
  (txt "SB", ⟨txt "U_SB", txt "sentenceBreak", [], .spaces⟩),
  (txt "sc", ⟨txt "USCRIPT", txt "script", scriptMappings, .spaces⟩),
  (txt "vo", ⟨txt "U_VO", txt "verticalOrientation", [], .spaces⟩),
  (txt "WB", ⟨txt "U_WB", txt "wordBreak", [], .spaces⟩)]

/-- UCDReader.py:17 and 136 the attributes that `generateDictionaries` changes. -/
structure State where
  ucdVersion : Option Str
  lines : Dict (List Str)
  deriving DecidableEq

/-- `row[i]`. -/
def field (row : List Str) (i : Nat) : Py Str :=
  match row[i]? with
  | some v => .ok v
  | none => .error .indexError

/-- `d[type].append(line)`. -/
def appendLine (lines : Dict (List Str)) (type line : Str) : Py (Dict (List Str)) := do
  let l ← dictGet lines type
  .ok (dictSet lines type (l ++ [line]))

/-- UCDReader.py:173-176 the key of a line: `none` for `continue`. -/
def keyOf (upper : Str → Str) (t : TypeEntry) (longName : Str) : Option Str :=
  match t.mappings.lookup longName with
  | some key => if key = [] then none else some key
  | none => some (upper longName)

/-- UCDReader.py:178-180 the line. -/
def lineOf (lower : Str → Str) (t : TypeEntry) (key shortName : Str) : Str :=
  txt "    " ++ t.pre ++ txt "_" ++ key ++ txt ": \"" ++ t.short.apply lower shortName ++ txt "\""

/-- UCDReader.py:160-180 one round of the loop. -/
def processRow (upper lower : Str → Str) (s : State) (row : List Str) : Py State :=
  match row with
  | [] => .ok s
  | kind :: _ =>
    if kind = txt "ucd" then do
      let v ← field row 1
      .ok { s with ucdVersion := some v }
    else if kind = txt "value" then do
      let type ← field row 1
      let shortName ← field row 2
      let longName ← field row 3
      match prefixes.lookup type with
      | none => .ok s
      | some t =>
        let lines := if (s.lines.map (·.1)).contains type then s.lines else dictSet s.lines type []
        match keyOf upper t longName with
        | none => .ok { s with lines := lines }
        | some key => do
          let lines ← appendLine lines type (lineOf lower t key shortName)
          .ok { s with lines := lines }
    else .ok s

/-- UCDReader.py:158-180 `generateDictionaries`, from any state. -/
def processRows (upper lower : Str → Str) : State → List (List Str) → Py State
  | s, [] => .ok s
  | s, row :: rows => do
    let s ← processRow upper lower s row
    processRows upper lower s rows

/-- UCDReader.py:158-180 `generateDictionaries` on a new reader. -/
def generateDictionaries (upper lower : Str → Str) (rows : List (List Str)) : Py State :=
  processRows upper lower ⟨none, []⟩ rows

/-- UCDReader.py:190-192 what is written for one type. -/
def dictionaryText (p : Str × List Str) : Py Str := do
  match prefixes.lookup p.1 with
  | none => .error .keyError
  | some t => .ok (t.name ++ txt "Names = " ++ txt "{\n" ++ join (txt ",\n") p.2 ++ txt "\n}\n\n")

/-- UCDReader.py:182-194 `writeFile`: the text that it writes. -/
def fileText (prefixLines : List Str) (s : State) : Py Str := do
  let ds ← mapPy dictionaryText s.lines
  .ok ((prefixLines.map (· ++ txt "\n")).flatten ++ ds.flatten)

end Verif.UCDReader

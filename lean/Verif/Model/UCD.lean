import Verif.Model.PyStr
/-!
# Model of the character records of the UCD: `UCDProperties.py`, `DecompProperties.py`, `CaseProperties.py`,
`BidiProperties.py`, `BinaryProperties.py`, `IndicProperties.py`, `CharacterData.py`

An XML element is its attributes; the XML parser is not modelled. `del self._char` at the end of the constructors is not
modelled, so the model's records keep the elements.
-/
namespace Verif.UCD

/-- An XML element: its attributes. -/
abbrev Element := List (Str × Str)

/-- UCDProperties.py:14-61 an object of `UCDProperties`. -/
structure UCDProperties where
  char : Element
  group : Element
  cp : Str
  codePoint : Int
  deriving DecidableEq

/-- UCDProperties.py:14-25 `getCharProperty`, as a function of the elements because the constructor calls it first. -/
def charProperty (char group : Element) (property : Str) : Str :=
  match char.lookup property with
  | some v => v
  | none => (group.lookup property).getD []

/-- UCDProperties.py:14-25 `getCharProperty`. -/
def UCDProperties.getCharProperty (u : UCDProperties) (property : Str) : Str := charProperty u.char u.group property

/-- UCDProperties.py:27-29 `getBooleanProperty`. -/
def UCDProperties.getBooleanProperty (u : UCDProperties) (property : Str) : Bool := u.getCharProperty property == txt "Y"

/-- `chr(int(codePoint, 16))`. -/
def hexChr (codePoint : Str) : Py Nat := do
  let n ← pyInt 16 codePoint
  chr n

/-- UCDProperties.py:31-46 `getCodePointsProperty`. The value is always a `str`, so the last `return` is not reached. -/
def UCDProperties.getCodePointsProperty (u : UCDProperties) (property : Str) : Py Str :=
  let codePointString := u.getCharProperty property
  if codePointString.length = 0 ∨ codePointString = txt "#" then do
    let c ← hexChr u.cp
    .ok [c]
  else mapPy hexChr (splitOn 32 codePointString)

/-- UCDProperties.py:49-61 `__init__`. -/
def ucdProperties (char group : Element) : Py UCDProperties := do
  let cp := charProperty char group (txt "cp")
  let codePoint ← pyInt 16 cp
  .ok ⟨char, group, cp, codePoint⟩

/-- DecompProperties.py:13-30 `dmToString`. -/
def UCDProperties.dmToString (u : UCDProperties) (dm : Str) (doPoundSign : Bool) : Py (Option Str) :=
  if doPoundSign ∧ dm = txt "#" then do
    let c ← chr u.codePoint
    .ok (some [c])
  else if dm = [] ∨ dm = txt "#" then .ok none
  else do
    let s ← mapPy hexChr (splitOn 32 dm)
    .ok (some s)

/-- DecompProperties.py:32-59 the fields of `DecompProperties`. -/
structure DecompProperties extends UCDProperties where
  decompositionType : Str
  decomposition : Option Str
  compositionExclusion : Bool
  fullCompositionExclusion : Bool
  nfcQuickCheck : Str
  nfdQuickCheck : Str
  nfkcQuickCheck : Str
  nfkdQuickCheck : Str
  expandOnNFC : Bool
  expandOnNFD : Bool
  expandOnNFKC : Bool
  expandOnNFKD : Bool
  nfkcFullClosure : Option Str
  nfkcCaseFolded : Option Str
  deriving DecidableEq

/-- DecompProperties.py:32-59 `__init__`. -/
def decompProperties (char group : Element) : Py DecompProperties := do
  let u ← ucdProperties char group
  let dm := u.getCharProperty (txt "dm")
  let decomposition ← u.dmToString dm false
  let nfkcFullClosure ← u.dmToString (u.getCharProperty (txt "FC_NFKC")) false
  let nfkcCaseFolded ← u.dmToString (u.getCharProperty (txt "NFKC_CF")) true
  .ok { u with
    decompositionType := u.getCharProperty (txt "dt")
    decomposition := decomposition
    compositionExclusion := u.getBooleanProperty (txt "CE")
    fullCompositionExclusion := u.getBooleanProperty (txt "Comp_Ex")
    nfcQuickCheck := u.getCharProperty (txt "NFC_QC")
    nfdQuickCheck := u.getCharProperty (txt "NFD_QC")
    nfkcQuickCheck := u.getCharProperty (txt "NFKC_QC")
    nfkdQuickCheck := u.getCharProperty (txt "NFKD_QC")
    expandOnNFC := u.getBooleanProperty (txt "XO_NFC")
    expandOnNFD := u.getBooleanProperty (txt "XO_NFD")
    expandOnNFKC := u.getBooleanProperty (txt "XO_NFKC")
    expandOnNFKD := u.getBooleanProperty (txt "XO_NFKD")
    nfkcFullClosure := nfkcFullClosure
    nfkcCaseFolded := nfkcCaseFolded }

/-- CaseProperties.py:13-43 the fields of `CaseProperties`. -/
structure CaseProperties extends UCDProperties where
  upper : Bool
  lower : Bool
  otherUpper : Bool
  otherLower : Bool
  simpleUpperCase : Str
  simpleLowerCase : Str
  simpleTitleCase : Str
  upperCase : Str
  lowerCase : Str
  titleCase : Str
  simpleCaseFolding : Str
  caseFolding : Str
  caseIgnorable : Bool
  cased : Bool
  changesWhenCaseFolded : Bool
  changesWhenCasedMapped : Bool
  changesWhenLowercased : Bool
  changesWhenNFKCCaseFolded : Bool
  changesWhenTitlecased : Bool
  changesWhenUppercased : Bool
  nkfcCasefold : Str
  deriving DecidableEq

/-- CaseProperties.py:13-43 `__init__`. -/
def caseProperties (char group : Element) : Py CaseProperties := do
  let u ← ucdProperties char group
  let suc ← u.getCodePointsProperty (txt "suc")
  let slc ← u.getCodePointsProperty (txt "slc")
  let uc ← u.getCodePointsProperty (txt "uc")
  let lc ← u.getCodePointsProperty (txt "lc")
  let tc ← u.getCodePointsProperty (txt "tc")
  let scf ← u.getCodePointsProperty (txt "scf")
  let cf ← u.getCodePointsProperty (txt "cf")
  let nfkc ← u.getCodePointsProperty (txt "NFKC_CF")
  .ok { u with
    upper := u.getBooleanProperty (txt "Upper")
    lower := u.getBooleanProperty (txt "Lower")
    otherUpper := u.getBooleanProperty (txt "OUpper")
    otherLower := u.getBooleanProperty (txt "OLower")
    simpleUpperCase := suc
    simpleLowerCase := slc
    simpleTitleCase := u.getCharProperty (txt "stc")
    upperCase := uc
    lowerCase := lc
    titleCase := tc
    simpleCaseFolding := scf
    caseFolding := cf
    caseIgnorable := u.getBooleanProperty (txt "CI")
    cased := u.getBooleanProperty (txt "Cased")
    changesWhenCaseFolded := u.getBooleanProperty (txt "CWCF")
    changesWhenCasedMapped := u.getBooleanProperty (txt "CWCM")
    changesWhenLowercased := u.getBooleanProperty (txt "CWL")
    changesWhenNFKCCaseFolded := u.getBooleanProperty (txt "CWKCF")
    changesWhenTitlecased := u.getBooleanProperty (txt "CWT")
    changesWhenUppercased := u.getBooleanProperty (txt "CWU")
    nkfcCasefold := nfkc }

/-- BidiProperties.py:16-34 the fields of `BidiProperties`. -/
structure BidiProperties extends UCDProperties where
  bidiClass : Str
  bidiMirrored : Bool
  bidiMirroredGlyph : Int
  bidiControl : Bool
  bidiPairedBracketType : Str
  bidiPairedBracket : Int
  deriving DecidableEq

/-- BidiProperties.py:24 and 30 the conditional expressions. -/
def UCDProperties.codeOr (u : UCDProperties) (special v : Str) : Py Int := if v = special then .ok u.codePoint else pyInt 16 v

/-- BidiProperties.py:16-34 `__init__`. -/
def bidiProperties (char group : Element) : Py BidiProperties := do
  let u ← ucdProperties char group
  let bmg := u.getCharProperty (txt "bmg")
  let glyph ← u.codeOr [] bmg
  let bpb := u.getCharProperty (txt "bpb")
  let bracket ← u.codeOr (txt "#") bpb
  .ok { u with
    bidiClass := u.getCharProperty (txt "bc")
    bidiMirrored := u.getBooleanProperty (txt "Bidi_M")
    bidiMirroredGlyph := glyph
    bidiControl := u.getBooleanProperty (txt "Bidi_C")
    bidiPairedBracketType := u.getCharProperty (txt "bpt")
    bidiPairedBracket := bracket }

/-- BinaryProperties.py:13-54 `propsList`. -/
def propsList : List (Str × Str) := [
  (txt "whitespace", txt "WSpace"),
  (txt "dash", txt "Dash"),
  (txt "hyphen", txt "Hyphen"),
  (txt "quotationMark", txt "QMark"),
  (txt "terminalPunctuation", txt "Term"),
  (txt "sentenceTerminalPunctuation", txt "STerm"),
  (txt "diacritic", txt "Dia"),
  (txt "extender", txt "Ext"),
  (txt "prependedConcatenationMark", txt "PCM"),
  (txt "softDotted", txt "SD"),
  (txt "alphabetic", txt "Alpha"),
  (txt "otherAlphabetic", txt "OAlpha"),
  (txt "math", txt "Math"),
  (txt "otherMath", txt "OMath"),
  (txt "hexDigit", txt "Hex"),
  (txt "asciiHexDigit", txt "AHex"),
  (txt "defaultIgnorable", txt "DI"),
  (txt "otherDefaultIgnorable", txt "ODI"),
  (txt "logicalOrderException", txt "LOE"),
  (txt "regionalIndicator", txt "RI"),
  (txt "graphemeBase", txt "Gr_Base"),
  (txt "graphemeExtended", txt "Gr_Ext"),
  (txt "otherGraphemeExtended", txt "OGr_Ext"),
  (txt "graphemeLink", txt "Gr_Link"),
  (txt "ideographic", txt "Ideo"),
  (txt "unifiedIdeographic", txt "UIdeo"),
  (txt "idsBinaryOperator", txt "IDSB"),
  (txt "idsTrinaryOperator", txt "IDST"),
  (txt "radical", txt "Radical"),
  (txt "deprecated", txt "Dep"),
  (txt "variationSelector", txt "VS"),
  (txt "nonCharacterCodePoint", txt "NChar"),
  (txt "idStart", txt "IDS"),
  (txt "otherIDStart", txt "OIDS"),
  (txt "xIDStart", txt "XIDS"),
  (txt "idContinue", txt "IDC"),
  (txt "otherIDContinue", txt "OIDC"),
  (txt "xIDContinue", txt "XIDC"),
  (txt "patternSyntax", txt "Pat_Syn"),
  (txt "patternWhitespace", txt "Pat_WS")]

/-- `setattr(obj, field, value)` on the attributes of an object. -/
def setAttr (fields : List (Str × Bool)) (field : Str) (value : Bool) : List (Str × Bool) :=
  (field, value) :: fields.filter (fun p => p.1 ≠ field)

/-- BinaryProperties.py:56-66 an object of `BinaryProperties`: the attributes set with `setattr`. -/
structure BinaryProperties extends UCDProperties where
  fields : List (Str × Bool)
  deriving DecidableEq

/-- BinaryProperties.py:56-66 `__init__`. -/
def binaryProperties (char group : Element) : Py BinaryProperties := do
  let u ← ucdProperties char group
  .ok { u with fields := propsList.foldl (fun fs p => setAttr fs p.1 (u.getBooleanProperty p.2)) [] }

/-- IndicProperties.py:12-21 the fields of `IndicProperties`. -/
structure IndicProperties extends UCDProperties where
  syllabicCategory : Str
  positionalCategory : Str
  deriving DecidableEq

/-- IndicProperties.py:12-21 `__init__`. -/
def indicProperties (char group : Element) : Py IndicProperties := do
  let u ← ucdProperties char group
  .ok { u with syllabicCategory := u.getCharProperty (txt "InSC"), positionalCategory := u.getCharProperty (txt "InPC") }

/-- CharacterData.py:16-76 the fields of `CharacterData`. `α` is the type of numeric values. -/
structure CharacterData (α : Type) extends UCDProperties where
  combiningClass : Int
  name : Str
  generalCategory : Str
  bidiProperties : BidiProperties
  numericType : Str
  numericValue : Option α
  script : Str
  scriptExtensions : List Str
  block : Str
  decompProperties : DecompProperties
  joiningType : Str
  joiningGroup : Str
  isJoiningControl : Bool
  lineBreak : Str
  sentenceBreak : Str
  wordBreak : Str
  graphemeClusterBreak : Str
  eastAsianWidth : Str
  caseProperties : CaseProperties
  hangulSyllableType : Str
  jamoShortName : Str
  indicProperties : IndicProperties
  verticalOrientation : Str
  binaryProperties : BinaryProperties
  emoji : Bool
  emojiPresentation : Bool
  emojiModifier : Bool
  emojiModifierBase : Bool
  emojiComponent : Bool
  extendedPictograph : Bool

/-- CharacterData.py:34 the conditional expression. -/
def numericOf {α : Type} (eval : Str → Py α) (nv : Str) : Py (Option α) :=
  if nv = txt "NaN" then .ok none else do let v ← eval nv; .ok (some v)

/-- CharacterData.py:16-76 `__init__`. Python's `eval`, used for the numeric value, is the argument `eval`. -/
def characterData {α : Type} (eval : Str → Py α) (char group : Element) : Py (CharacterData α) := do
  let u ← ucdProperties char group
  let combiningClass ← pyInt 10 (u.getCharProperty (txt "ccc"))
  let bidi ← bidiProperties char group
  let nv := u.getCharProperty (txt "nv")
  let numericValue ← numericOf eval nv
  let decomp ← decompProperties char group
  let case ← caseProperties char group
  let indic ← indicProperties char group
  let binary ← binaryProperties char group
  .ok { u with
    combiningClass := combiningClass
    name := replace 35 u.cp (u.getCharProperty (txt "na"))
    generalCategory := u.getCharProperty (txt "gc")
    bidiProperties := bidi
    numericType := u.getCharProperty (txt "nt")
    numericValue := numericValue
    script := u.getCharProperty (txt "sc")
    scriptExtensions := splitOn 32 (u.getCharProperty (txt "scx"))
    block := replace 95 (txt " ") (u.getCharProperty (txt "blk"))
    decompProperties := decomp
    joiningType := u.getCharProperty (txt "jt")
    joiningGroup := replace 95 (txt " ") (u.getCharProperty (txt "jg"))
    isJoiningControl := u.getBooleanProperty (txt "Join_C")
    lineBreak := u.getCharProperty (txt "lb")
    sentenceBreak := u.getCharProperty (txt "SB")
    wordBreak := u.getCharProperty (txt "WB")
    graphemeClusterBreak := u.getCharProperty (txt "GCB")
    eastAsianWidth := u.getCharProperty (txt "ea")
    caseProperties := case
    hangulSyllableType := u.getCharProperty (txt "hst")
    jamoShortName := u.getCharProperty (txt "JSN")
    indicProperties := indic
    verticalOrientation := u.getCharProperty (txt "vo")
    binaryProperties := binary
    emoji := u.getBooleanProperty (txt "Emoji")
    emojiPresentation := u.getBooleanProperty (txt "EPres")
    emojiModifier := u.getBooleanProperty (txt "EMod")
    emojiModifierBase := u.getBooleanProperty (txt "EBase")
    emojiComponent := u.getBooleanProperty (txt "EComp")
    extendedPictograph := u.getBooleanProperty (txt "ExtPict") }

end Verif.UCD

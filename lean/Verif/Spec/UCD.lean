import Verif.Model.PyStr
/-!
# Specification of the attributes of the UCD
-/
namespace Verif.UCD.Spec

/-- A digit character and its value. -/
def IsDigit (c d : Nat) : Prop := (d < 10 ∧ c = 48 + d) ∨ (10 ≤ d ∧ d < 16 ∧ (c = 65 + (d - 10) ∨ c = 97 + (d - 10)))

/-- A text of digits and the number it stands for. -/
inductive Numeral (base : Nat) : Str → Nat → Prop
  | one {c d : Nat} : IsDigit c d → d < base → Numeral base [c] d
  | snoc {s : Str} {n c d : Nat} : Numeral base s n → IsDigit c d → d < base → Numeral base (s ++ [c]) (n * base + d)

/-- The value of an attribute: that of the char element, else that of the group element, else empty. -/
def Value (char group : List (Str × Str)) (p v : Str) : Prop :=
  (p, v) ∈ char ∨ ((∀ w, (p, w) ∉ char) ∧ ((p, v) ∈ group ∨ ((∀ w, (p, w) ∉ group) ∧ v = [])))

/-- Attribute names occur once in an element. -/
def UniqueKeys (e : List (Str × Str)) : Prop := (e.map (·.1)).Nodup

/-- Hexadecimal numerals for code points, one by one. -/
inductive Numerals : List Str → List Nat → Prop
  | nil : Numerals [] []
  | cons {h : Str} {c : Nat} {hs : List Str} {cs : List Nat} : Numeral 16 h c → c ≤ 0x10FFFF → Numerals hs cs →
      Numerals (h :: hs) (c :: cs)

/-- A list of code points in hexadecimal separated by single spaces. -/
def ListOf (v : Str) (cs : List Nat) : Prop := ∃ hs, hs ≠ [] ∧ Numerals hs cs ∧ v = [32].intercalate hs

/-- The characters that a mapping attribute stands for, where the empty text and `#` stand for the character itself. -/
def Maps (v : Str) (self : Nat) (cs : List Nat) : Prop := ((v = [] ∨ v = [35]) ∧ cs = [self]) ∨ ListOf v cs

/-- A property that is `Y` or `N`. -/
def Flag (char group : List (Str × Str)) (p : Str) (b : Bool) : Prop := b = true ↔ Value char group p (txt "Y")

/-- The binary properties: the names of the fields, and the short names of the properties as in UAX #44. -/
def binaryFields : List (Str × Str) := [
  (txt "whitespace", txt "WSpace"),
  (txt "dash", txt "Dash"),
  (txt "hyphen", txt "Hyphen"),
  (txt "quotationMark", txt "QMark"),
  (txt "terminalPunctuation", txt "Term"),
  (txt "sentenceTerminalPunctuation", txt "STerm"),
  (txt "diacritic", txt "Dia"),
  (txt "extender", txt "Ext"),
  (txt "prependedConcatenationMark", txt "PCM"),
  (txt "softDotted", txt "SD"),
  (txt "alphabetic", txt "Alpha"),
  (txt "otherAlphabetic", txt "OAlpha"),
  (txt "math", txt "Math"),
  (txt "otherMath", txt "OMath"),
  (txt "hexDigit", txt "Hex"),
  (txt "asciiHexDigit", txt "AHex"),
  (txt "defaultIgnorable", txt "DI"),
  (txt "otherDefaultIgnorable", txt "ODI"),
  (txt "logicalOrderException", txt "LOE"),
  (txt "regionalIndicator", txt "RI"),
  (txt "graphemeBase", txt "Gr_Base"),
  (txt "graphemeExtended", txt "Gr_Ext"),
  (txt "otherGraphemeExtended", txt "OGr_Ext"),
  (txt "graphemeLink", txt "Gr_Link"),
  (txt "ideographic", txt "Ideo"),
  (txt "unifiedIdeographic", txt "UIdeo"),
  (txt "idsBinaryOperator", txt "IDSB"),
  (txt "idsTrinaryOperator", txt "IDST"),
  (txt "radical", txt "Radical"),
  (txt "deprecated", txt "Dep"),
  (txt "variationSelector", txt "VS"),
  (txt "nonCharacterCodePoint", txt "NChar"),
  (txt "idStart", txt "IDS"),
  (txt "otherIDStart", txt "OIDS"),
  (txt "xIDStart", txt "XIDS"),
  (txt "idContinue", txt "IDC"),
  (txt "otherIDContinue", txt "OIDC"),
  (txt "xIDContinue", txt "XIDC"),
  (txt "patternSyntax", txt "Pat_Syn"),
  (txt "patternWhitespace", txt "Pat_WS")]

end Verif.UCD.Spec

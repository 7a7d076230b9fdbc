import Verif.Model.ICUDataFile
import Verif.Model.CharProps
import Verif.Model.Utilities
import Verif.Model.Hex
/-!
# Model of `UnicodeData/CharNames.py`

Code points are natural numbers, `x >> 5` is `x / 2 ^ 5`, `x << 5` is `x * 2 ^ 5`. A `bytes` object is the list of its bytes
and `chr` of a byte is the byte. A generator is the list of what it yields together with the exception that ends it, if any.
The class attributes are filled once, at import (line 489), so `populateData` is modelled from their initial values.
-/
namespace Verif.CharNames
open Verif.ICUData
open Verif.Utilities (isUnicodeNoncharacter isLead)
open Verif.Char (getGeneralCategory)

/-- CharNames.py:61 -/
def U_UNICODE_CHAR_NAME : Nat := 0
/-- CharNames.py:65 -/
def U_UNICODE_10_CHAR_NAME : Nat := 1
/-- CharNames.py:67 -/
def U_EXTENDED_CHAR_NAME : Nat := 2
/-- CharNames.py:68 -/
def U_CHAR_NAME_ALIAS : Nat := 3
/-- CharNames.py:69-71 -/
def U_ISO_COMMENT : Nat := 4
/-- CharNames.py:73 -/
def GROUP_SHIFT : Nat := 5
/-- CharNames.py:74 -/
def LINES_PER_GROUP : Nat := 2 ^ GROUP_SHIFT
/-- CharNames.py:75 -/
def GROUP_MASK : Nat := LINES_PER_GROUP - 1
/-- CharNames.py:82 -/
def CP_SEMICOLON : Nat := 59

/-- CharNames.py:109-111 the class attributes of `Tokens`. -/
structure Tokens where
  tokens : List Nat
  strings : List Nat

/-- CharNames.py:147-158, the part of the loop body after the token is known: whether the loop goes on, and the text so
far. -/
def tokenStep (t : Tokens) (nameChoice c token : Nat) (expandedName : Str) : Py (Bool × Str) :=
  if token = 0xFFFF then
    if c ≠ CP_SEMICOLON then .ok (true, expandedName ++ [c])
    else if expandedName.length = 0 ∧ nameChoice = U_EXTENDED_CHAR_NAME then
      if CP_SEMICOLON ≥ t.tokens.length ∨ t.tokens.getD CP_SEMICOLON 0 = 0xFFFF then .ok (true, expandedName)
      else .ok (false, expandedName)
    else .ok (false, expandedName)
  else do
    let word ← untilNul (t.strings.drop token)
    .ok (true, expandedName ++ word)

/-- CharNames.py:128-158 the loop; the list is what is left of `string` (`nameLength` is its length). -/
def expandLoop (t : Tokens) (nameChoice : Nat) : List Nat → Str → Py Str
  | [], expandedName => .ok expandedName
  | [c], expandedName =>
    if c ≥ t.tokens.length then
      if c ≠ CP_SEMICOLON then .ok (expandedName ++ [c]) else .ok expandedName
    else
      let token := t.tokens.getD c 0
      if token = 0xFFFE then .error .indexError
      else
        match tokenStep t nameChoice c token expandedName with
        | .error e => .error e
        | .ok (_, e) => .ok e
  | c :: d :: rest, expandedName =>
    if c ≥ t.tokens.length then
      if c ≠ CP_SEMICOLON then expandLoop t nameChoice (d :: rest) (expandedName ++ [c]) else .ok expandedName
    else
      let token := t.tokens.getD c 0
      if token = 0xFFFE then
        match t.tokens[c * 2 ^ 8 ||| d]? with
        | none => .error .indexError
        | some token =>
          match tokenStep t nameChoice c token expandedName with
          | .error e => .error e
          | .ok (false, e) => .ok e
          | .ok (true, e) => expandLoop t nameChoice rest e
      else
        match tokenStep t nameChoice c token expandedName with
        | .error e => .error e
        | .ok (false, e) => .ok e
        | .ok (true, e) => expandLoop t nameChoice (d :: rest) e

/-- CharNames.py:122-160 `Tokens.expandString`. -/
def Tokens.expandString (t : Tokens) (string : List Nat) (nameChoice : Nat) : Py Str := expandLoop t nameChoice string []

/-- CharNames.py:199-230 the loop of `expandGroupLengths`; `fuel` bounds the rounds (each adds a string). -/
def lengthsLoop (data : List Nat) : Nat → Nat → Nat → Nat → Nat → List Nat → List Nat → Py (Nat × List Nat × List Nat)
  | 0, _, _, _, _, _, _ => .error .diverges
  | fuel + 1, i, s, offset, length, offsets, lengths =>
    if i < LINES_PER_GROUP then
      match slice data s (s + 1) with
      | [lengthByte] =>
        let s := s + 1
        let (length, lengthByte) :=
          if length ≥ 12 then (((length &&& 0x3) * 2 ^ 4 ||| lengthByte / 2 ^ 4) + 12, lengthByte &&& 0xF)
          else if lengthByte ≥ 0xC0 then ((lengthByte &&& 0x3F) + 12, lengthByte)
          else (lengthByte / 2 ^ 4, lengthByte &&& 0xF)
        let offsets := offsets ++ [offset]
        let lengths := lengths ++ [length]
        let offset := offset + length
        let i := i + 1
        if lengthByte &&& 0xF0 = 0 then
          let length := lengthByte
          if length < 12 then
            lengthsLoop data fuel (i + 1) s (offset + length) length (offsets ++ [offset]) (lengths ++ [length])
          else lengthsLoop data fuel i s offset length offsets lengths
        else lengthsLoop data fuel i s offset 0 offsets lengths
      | _ => .error .valueError
    else .ok (s, offsets, lengths)

/-- CharNames.py:191-232 `Group.expandGroupLengths`. -/
def expandGroupLengths (data : List Nat) (groupStringsOffset : Nat) : Py (Nat × List Nat × List Nat) :=
  lengthsLoop data (LINES_PER_GROUP + 1) 0 groupStringsOffset 0 0 [] []

/-- CharNames.py:167-250 the attributes of a `Group`; `charRange` is `range(msb << 5, (msb << 5) + 32)`. -/
structure Group where
  msb : Nat
  strings : List (List Nat)
  deriving DecidableEq

/-- `charRange.start` (line 240). -/
def Group.start (g : Group) : Nat := g.msb * 2 ^ GROUP_SHIFT
/-- `charRange.stop` (line 241). -/
def Group.stop (g : Group) : Nat := g.start + LINES_PER_GROUP

/-- CharNames.py:168-169 `_groupLength`. -/
def groupLength : Nat := 6

/-- CharNames.py:234-250 `Group.__init__`. -/
def readGroup (s : State) (groupStart groupStringsStart : Nat) : Py Group := do
  let g ← unpack 2 3 (s.getData groupStart (groupStart + groupLength))
  let offset := g.getD 1 0 * 2 ^ 16 ||| g.getD 2 0
  let (dataOffset, offsets, lengths) ← expandGroupLengths s.fileData (groupStringsStart + offset)
  .ok ⟨g.getD 0 0, (offsets.zip lengths).map fun ol => s.getData (dataOffset + ol.1) (dataOffset + ol.1 + ol.2)⟩

/-- `bytes.split(b';')`. -/
def splitSemicolon : List Nat → List (List Nat)
  | [] => [[]]
  | c :: cs =>
    if c = CP_SEMICOLON then [] :: splitSemicolon cs
    else
      match splitSemicolon cs with
      | [] => [[c]]
      | f :: fs => (c :: f) :: fs

/-- CharNames.py:252-260 `Group.expandName`. -/
def Group.expandName (t : Tokens) (g : Group) (lineNumber nameChoice : Nat) : Py Str :=
  match g.strings[lineNumber]? with
  | none => .error .indexError
  | some string =>
    if nameChoice ≠ U_UNICODE_CHAR_NAME ∧ nameChoice ≠ U_EXTENDED_CHAR_NAME then
      let fieldIndex := if nameChoice = U_ISO_COMMENT then 2 else nameChoice
      t.expandString ((splitSemicolon string).getD fieldIndex []) nameChoice
    else t.expandString string nameChoice

/-- What a generator yields, and the exception that ends it. -/
structure Gen (α : Type) where
  items : List α
  err : Option PyErr
  deriving DecidableEq

/-- One generator after another. -/
def Gen.append {α : Type} (g h : Gen α) : Gen α :=
  match g.err with
  | some e => ⟨g.items, some e⟩
  | none => ⟨g.items ++ h.items, h.err⟩

/-- A generator that raises at once. -/
def Gen.raise {α : Type} (e : PyErr) : Gen α := ⟨[], some e⟩

/-- The pairs `(code, name)` of `for code in codes: yield (code, f(code))`, without those with an empty name (the `if name`
of lines 469 and 475). -/
def namesOver (f : Nat → Py Str) : List Nat → Gen (Nat × Str)
  | [] => ⟨[], none⟩
  | code :: codes =>
    match f code with
    | .error e => .raise e
    | .ok name =>
      let r := namesOver f codes
      ⟨if name ≠ [] then (code, name) :: r.items else r.items, r.err⟩

/-- CharNames.py:262-264 `Group.nameIterator`, filtered by line 469. -/
def Group.names (t : Tokens) (g : Group) (nameChoice : Nat) : Gen (Nat × Str) :=
  namesOver (fun code => g.expandName t (code &&& GROUP_MASK) nameChoice) (List.range' g.start LINES_PER_GROUP)

/-- CharNames.py:266-304 the attributes of an `AlgorithmicRange`; `charRange` is `range(start, stop)`. -/
structure AlgorithmicRange where
  start : Nat
  stop : Nat
  kind : Nat
  variant : Nat
  size : Nat
  string : Str
  factors : List Nat
  elements : List Str
  deriving DecidableEq

/-- CharNames.py:106-107 `_rangeLength`. -/
def rangeLength : Nat := 12

/-- CharNames.py:296-299 the loop that reads the elements; each round moves by at least one byte. -/
def elementsLoop (s : State) (limit : Nat) : Nat → Nat → List Str → Py (List Str)
  | 0, _, _ => .error .diverges
  | fuel + 1, elementStart, elements =>
    if elementStart < limit then do
      let element ← s.getString elementStart
      elementsLoop s limit fuel (elementStart + element.length + 1) (elements ++ [element])
    else .ok elements

/-- CharNames.py:267-304 `AlgorithmicRange.__init__`. -/
def readRange (s : State) (offset : Nat) : Py AlgorithmicRange := do
  let rangeLimit := offset + rangeLength
  let b := s.getData offset rangeLimit
  if b.length ≠ rangeLength then .error .structError
  else
    let start := leValue (slice b 0 4)
    let stop := leValue (slice b 4 8) + 1
    let kind := leValue (slice b 8 9)
    let variant := leValue (slice b 9 10)
    let size := leValue (slice b 10 12)
    if kind = 0 then do
      let string ← s.getString rangeLimit
      .ok ⟨start, stop, kind, variant, size, string, [], []⟩
    else if kind = 1 then do
      let factorsLimit := rangeLimit + 2 * variant
      let factors ← unpack 2 variant (s.getData rangeLimit factorsLimit)
      let string ← s.getString factorsLimit
      let elements ← elementsLoop s (offset + size) (size + 1) (factorsLimit + string.length + 1) []
      .ok ⟨start, stop, kind, variant, size, string, factors, elements⟩
    else .ok ⟨start, stop, kind, variant, size, [], [], []⟩

/-- CharNames.py:313-316 the loop from the last factor down to the second: what is left of the code, and the indexes. -/
def splitCode : List Nat → Nat → Py (Nat × List Nat)
  | [], code => .ok (code, [])
  | factor :: factors, code => do
    let (code, indexes) ← splitCode factors code
    if factor = 0 then .error .zeroDivisionError else .ok (code / factor, code % factor :: indexes)

/-- CharNames.py:320-324 the loop that appends the elements. -/
def appendElements (elements : List Str) : List Nat → List Nat → Nat → Str → Py Str
  | [], _, _, suffix => .ok suffix
  | _ :: _, [], _, _ => .error .indexError
  | factor :: factors, index :: indexes, elementIndex, suffix =>
    match elements[elementIndex + index]? with
    | none => .error .indexError
    | some element =>
      appendElements elements factors indexes (elementIndex + index + factor - index) (suffix ++ element)

/-- CharNames.py:306-326 `factorSuffix`, for a code not before the range. -/
def AlgorithmicRange.factorSuffix (r : AlgorithmicRange) (char : Nat) : Py Str := do
  let code := char - r.start
  let (code, indexes) ← splitCode (r.factors.drop 1) code
  appendElements r.elements r.factors (code :: indexes) 0 r.string

/-- CharNames.py:328-350 `AlgorithmicRange.getName`. -/
def AlgorithmicRange.getName (r : AlgorithmicRange) (code nameChoice : Nat) : Py Str :=
  if nameChoice ≠ U_UNICODE_CHAR_NAME ∧ nameChoice ≠ U_EXTENDED_CHAR_NAME then .ok []
  else if r.kind = 0 then
    .ok (r.string ++
      if r.variant = 4 then paddedHex 4 code else if r.variant = 5 then paddedHex 5 code else paddedHex 6 code)
  else if r.kind = 1 then r.factorSuffix code
  else .ok []

/-- CharNames.py:352-353 `charInRange`. -/
def AlgorithmicRange.charInRange (r : AlgorithmicRange) (char : Nat) : Bool := decide (r.start ≤ char ∧ char < r.stop)

/-- CharNames.py:358-360 `AlgorithmicRange.nameIterator`, filtered by line 475. -/
def AlgorithmicRange.names (r : AlgorithmicRange) (nameChoice : Nat) : Gen (Nat × Str) :=
  namesOver (fun code => r.getName code nameChoice) (List.range' r.start (r.stop - r.start))

/-- CharNames.py:362-365 the class attributes of `CharNames` and `Tokens`. -/
structure Names where
  tokens : Tokens
  groups : List Group
  ranges : List AlgorithmicRange

/-- CharNames.py:390-395 the loop over the groups. -/
def readGroups (s : State) (groupStringsStart : Nat) : Nat → Nat → Py (List Group)
  | 0, _ => .ok []
  | n + 1, groupStart => do
    let g ← readGroup s groupStart groupStringsStart
    let gs ← readGroups s groupStringsStart n (groupStart + groupLength)
    .ok (g :: gs)

/-- CharNames.py:401-404 the loop over the algorithmic ranges. -/
def readRanges (s : State) : Nat → Nat → Py (List AlgorithmicRange)
  | 0, _ => .ok []
  | n + 1, rangeStart => do
    let r ← readRange s rangeStart
    let rs ← readRanges s n (rangeStart + r.size)
    .ok (r :: rs)

/-- `"unames.icu"`. -/
def unames : Str := [117, 110, 97, 109, 101, 115, 46, 105, 99, 117]

/-- CharNames.py:367-404 `populateData`, with `Tokens.populateData` (113-120), at import. -/
def populateData (s : State) : Py Names := do
  let (dataOffset, dataHeader) ← s.getDataOffsetAndHeader unames
  let baseOffset := dataOffset + dataHeader.headerLength
  let namesDataHeaderLimit := baseOffset + 16
  let h ← unpack 4 4 (s.getData baseOffset namesDataHeaderLimit)
  let tokenStringOffset := h.getD 0 0
  let groupsOffset := h.getD 1 0
  let groupStringOffset := h.getD 2 0
  let algNamesOffset := h.getD 3 0
  let tokensStart := namesDataHeaderLimit
  let tokenStringsStart := tokenStringOffset + baseOffset
  let tokenStringsLimit := groupsOffset + baseOffset
  let c ← unpack 2 1 (s.getData tokensStart (tokensStart + 2))
  let tokens ← unpack 2 (c.getD 0 0) (s.getData (tokensStart + 2) tokenStringsStart)
  let strings := s.getData tokenStringsStart tokenStringsLimit
  let groupsStart := groupsOffset + baseOffset
  let n ← unpack 2 1 (s.getData groupsStart (groupsStart + 2))
  let groups ← readGroups s (groupStringOffset + baseOffset) (n.getD 0 0) (groupsStart + 2)
  let rangeStart := algNamesOffset + baseOffset
  let m ← unpack 4 1 (s.getData rangeStart (rangeStart + 4))
  let ranges ← readRanges s (m.getD 0 0) (rangeStart + 4)
  .ok ⟨⟨tokens, strings⟩, groups, ranges⟩

/-- CharNames.py:412-417 the loop of `getGroup`: the final `start`. The range halves, so its length is fuel enough. -/
def getGroupLoop (groups : List Group) (groupMSB : Nat) : Nat → Nat → Nat → Py Nat
  | 0, _, _ => .error .diverges
  | fuel + 1, start, limit =>
    if start + 1 < limit then
      let midpoint := (start + limit) / 2
      match groups[midpoint]? with
      | none => .error .indexError
      | some g =>
        if groupMSB < g.msb then getGroupLoop groups groupMSB fuel start midpoint
        else getGroupLoop groups groupMSB fuel midpoint limit
    else .ok start

/-- CharNames.py:406-419 `getGroup`. -/
def getGroup (groups : List Group) (code : Nat) : Py (Option Group) := do
  let groupMSB := code / 2 ^ GROUP_SHIFT
  let start ← getGroupLoop groups groupMSB (groups.length + 1) 0 groups.length
  match groups[start]? with
  | none => .error .indexError
  | some g => .ok (if g.msb = groupMSB then some g else none)

/-- CharNames.py:20 and GeneralCategories.py:72 `GC_CATEFORY_COUNT`. -/
def GC_NONCHARACTER_CODEPOINT : Nat := 30
/-- CharNames.py:21 -/
def GC_LEAD_SURROGATE : Nat := 31
/-- CharNames.py:22 -/
def GC_TRAIL_SURROGATE : Nat := 32
/-- GeneralCategories.py:48 `GC_SURROGATE`. -/
def GC_SURROGATE : Nat := 18

/-- CharNames.py:24-58 `charCatNames`. -/
def charCatNames : List String := [
  "unassigned", "uppercase letter", "lowercase letter", "titlecase letter", "modifier letter", "other letter",
  "non spacing mark", "enclosing mark", "combining spacing mark", "decimal digit number", "letter number", "other number",
  "space separator", "line separator", "paragraph separator", "control", "format", "private use area", "surrogate",
  "dash punctuation", "start punctuation", "end punctuation", "connector punctuation", "other punctuation", "math symbol",
  "currency symbol", "modifier symbol", "other symbol", "initial punctuation", "final punctuation", "noncharacter",
  "lead surrogate", "trail surrogate"]

/-- The code points of a text. -/
def codes (s : String) : Str := s.toList.map Char.toNat

/-- CharNames.py:422-431 `getCharCat`. -/
noncomputable def getCharCat (code : Nat) : Py Nat :=
  if isUnicodeNoncharacter code then .ok GC_NONCHARACTER_CODEPOINT
  else do
    let cat ← getGeneralCategory code
    if cat = GC_SURROGATE then .ok (if isLead code then GC_LEAD_SURROGATE else GC_TRAIL_SURROGATE) else .ok cat

/-- CharNames.py:433-437 `getCharCatName`. -/
noncomputable def getCharCatName (code : Nat) : Py Str := do
  let cat ← getCharCat code
  .ok (codes (if cat ≥ charCatNames.length then "unknown" else charCatNames.getD cat ""))

/-- CharNames.py:439-446 `_getName`. -/
def Names.groupName (N : Names) (code nameChoice : Nat) : Py Str := do
  match ← getGroup N.groups code with
  | some g => g.expandName N.tokens (code &&& GROUP_MASK) nameChoice
  | none => .ok []

/-- CharNames.py:448-457 `getCharName`. -/
noncomputable def Names.getCharName (N : Names) (code nameChoice : Nat) : Py Str :=
  match N.ranges.find? (·.charInRange code) with
  | some r => r.getName code nameChoice
  | none =>
    if nameChoice = U_EXTENDED_CHAR_NAME then do
      let cat ← getCharCatName code
      .ok (codes "<" ++ cat ++ codes "-" ++ paddedHex 4 code ++ codes ">")
    else N.groupName code nameChoice

/-- CharNames.py:464-479 the loop of `nameIterator`. `char` grows in every round, so `charLimit` rounds are enough. -/
def iterLoop (N : Names) (nameChoice charLimit : Nat) : Nat → Nat → Nat → Gen (Nat × Str)
  | 0, _, _ => .raise .diverges
  | fuel + 1, char, algRange =>
    if char < charLimit then
      match getGroup N.groups char with
      | .error e => .raise e
      | .ok group =>
        match group.filter (fun g => decide (g.start ≤ char ∧ char < g.stop)) with
        | some g => (g.names N.tokens nameChoice).append (iterLoop N nameChoice charLimit fuel g.stop algRange)
        | none =>
          match N.ranges[algRange]?.filter (·.charInRange char) with
          | some r => (r.names nameChoice).append (iterLoop N nameChoice charLimit fuel r.stop (algRange + 1))
          | none => iterLoop N nameChoice charLimit fuel (char + LINES_PER_GROUP) algRange
    else ⟨[], none⟩

/-- CharNames.py:459-479 `nameIterator`, run to its end. -/
def Names.nameIterator (N : Names) (nameChoice : Nat) : Gen (Nat × Str) :=
  match N.groups.getLast?, N.ranges.getLast? with
  | some g, some r =>
    let charLimit := max g.stop r.stop
    iterLoop N nameChoice charLimit (charLimit + 1) 0 0
  | _, _ => .raise .indexError

/-- CharNames.py:483-487 the search through what the generator yields. -/
def searchName (theName : Str) (err : Option PyErr) : List (Nat × Str) → Py Nat
  | [] => match err with | some e => .error e | none => .ok 0xFFFFFFFF
  | (code, name) :: rest => if name = theName then .ok code else searchName theName err rest

/-- CharNames.py:481-487 `charFromName`. -/
def Names.charFromName (N : Names) (theName : Str) (nameChoice : Nat) : Py Nat :=
  let g := N.nameIterator nameChoice
  searchName theName g.err g.items

end Verif.CharNames

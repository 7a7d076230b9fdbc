import Verif.Model.PyStr
/-!
# Model of the text functions of `module_builder/ModuleBuilder.py`

The class `ModuleBuilder` turns C definitions into Python text. Files are texts: reading the C source and writing the module are
not modelled, nor is the date, which is an argument. The names the builder looks for are put into the regular expressions
unquoted; the model takes them literally, which is right for names made of letters, digits and underscores.
-/
namespace Verif.ModuleText

/-! ## Regular expressions

A matcher takes the text from the current position and returns what it captured, `none` when it does not match. -/

/-- A literal text: the rest behind it. -/
def lit (p s : Str) : Option Str := p.isPrefixOf? s

/-- `(.+?)` with `re.DOTALL`, followed by `k`: the shortest non-empty text behind which `k` matches. -/
def lazyPlus {β : Type} (k : Str → Option β) : Str → Option (Str × β)
  | [] => none
  | c :: t =>
    match k t with
    | some b => some ([c], b)
    | none => (lazyPlus k t).map fun r => (c :: r.1, r.2)

/-- `(.+)` without flags, followed by `k`: the longest non-empty text without a line feed behind which `k` matches. -/
def greedyPlus {β : Type} (k : Str → Option β) : Str → Option (Str × β)
  | [] => none
  | c :: t =>
    if c = 10 then none
    else
      match greedyPlus k t with
      | some r => some (c :: r.1, r.2)
      | none => (k t).map fun b => ([c], b)

/-- The first match, scanning from left to right. -/
def search {β : Type} (m : Str → Option β) : Str → Option β
  | [] => m []
  | c :: t =>
    match m (c :: t) with
    | some b => some b
    | none => search m t

/-- `re.findall(pattern, s)[0]`. -/
def findFirst {β : Type} (m : Str → Option β) (s : Str) : Py β :=
  match search m s with
  | some b => .ok b
  | none => .error .indexError

/-! ## The builder -/

/-- The object: the C source and the lines of the module. ModuleBuilder.py:97-108. -/
structure Builder where
  source : Str
  outputLines : List Str

/-- ModuleBuilder.py:92-108 `ModuleBuilder.__init__`, with the contents of the source file, its name, the name of the tool and
the date as arguments. -/
def init (source moduleName fromName toolName today : Str) : Builder :=
  ⟨source, [txt "\"\"\"/", moduleName ++ txt ", based on " ++ fromName ++ txt " from ICU\n",
    txt "Generated by " ++ toolName ++ txt " on " ++ today, txt "\"\"\"\n"]⟩

/-- `self.outputLines.append(line)`. -/
def Builder.append (b : Builder) (line : Str) : Builder := { b with outputLines := b.outputLines ++ [line] }

/-- The pattern of ModuleBuilder.py:113. -/
def scalarAt (name s : Str) : Option Str := do
  let s ← lit name s
  let s ← lit (txt "=") s
  let r ← greedyPlus (lit (txt ";")) s
  some r.1

/-- ModuleBuilder.py:111-114 `getScalarDeclaration`. -/
def getScalarDeclaration (b : Builder) (name : Str) : Py Str := findFirst (scalarAt name) b.source

/-- The pattern of ModuleBuilder.py:117: when there is no `};` behind a `]={`, later ones are tried. -/
def arrayAt (name s : Str) : Option Str := do
  let s ← lit name s
  let s ← lit (txt "[") s
  let r ← lazyPlus (fun s => do
    let s ← lit (txt "]={") s
    lazyPlus (lit (txt "};")) s) s
  some r.2.1

/-- ModuleBuilder.py:116-118 `getArrayDeclaration`. -/
def getArrayDeclaration (b : Builder) (name : Str) : Py Str := findFirst (arrayAt name) b.source

/-- The pattern of ModuleBuilder.py:121. -/
def propsAt (name s : Str) : Option Str := do
  let s ← lit name s
  let s ← lit (txt "={\n") s
  let r ← lazyPlus (lit (txt "\n};")) s
  some r.1

/-- ModuleBuilder.py:120-122 `getPropsDeclaration`. -/
def getPropsDeclaration (b : Builder) (name : Str) : Py Str := findFirst (propsAt name) b.source

/-- ModuleBuilder.py:124-126 `scalarToPython`. -/
def scalarToPython (b : Builder) (name : Str) : Py Builder := do
  let declaration ← getScalarDeclaration b name
  .ok (b.append (name ++ txt " = " ++ declaration ++ txt "\n"))

/-- ModuleBuilder.py:130-134: the initialiser of an array, indented, and the final line feed. -/
def formatArray (array : Str) : Str :=
  let final := if 10 ∈ array then txt "\n" else []
  let array := if array.getLast? = some 10 then array.dropLast else array
  let array := if final ≠ [] then replace 10 (txt "\n    ") array else array
  array ++ final

/-- ModuleBuilder.py:128-136 `arrayToPython`. -/
def arrayToPython (b : Builder) (name : Str) : Py Builder := do
  let array ← getArrayDeclaration b name
  .ok (b.append (name ++ txt " = [" ++ formatArray array ++ txt "]\n"))

/-- `s.split(",\n")`. -/
def splitFields : Str → List Str
  | [] => [[]]
  | [c] => [[c]]
  | c :: d :: t =>
    if c = 44 ∧ d = 10 then [] :: splitFields t
    else
      match splitFields (d :: t) with
      | [] => [[c]]
      | f :: fs => (c :: f) :: fs

/-- ModuleBuilder.py:139-140: the fields of a trie the module gets. -/
def trieFields : List (Nat × Str) :=
  [(3, txt "index_length"), (5, txt "index_2_null_offset"), (6, txt "data_null_offset"), (9, txt "high_start"),
    (10, txt "high_value_index")]

/-- ModuleBuilder.py:144-145, the loop. -/
def trieLoop (splits : List Str) (pre : Str) : List (Nat × Str) → Builder → Py Builder
  | [], b => .ok b
  | (index, name) :: rest, b =>
    match splits[index]? with
    | some f => trieLoop splits pre rest (b.append (pre ++ txt "_" ++ name ++ txt " = " ++ strip f))
    | none => .error .indexError

/-- ModuleBuilder.py:138-147 `trieValues`. -/
def trieValues (b : Builder) (trie pre : Str) : Py Builder := do
  let b ← trieLoop (splitFields trie) pre trieFields b
  .ok (b.append [])

/-- The pattern of ModuleBuilder.py:151. -/
def innerAt (s : Str) : Option Str := do
  let s ← lit (txt "{\n") s
  let r ← lazyPlus (lit (txt "}")) s
  some r.1

/-- ModuleBuilder.py:149-152 `trieValuesFromPropsDeclaration`. -/
def trieValuesFromPropsDeclaration (b : Builder) (propsName pre : Str) : Py Builder := do
  let propsDeclaration ← getPropsDeclaration b propsName
  let trie ← findFirst innerAt propsDeclaration
  trieValues b trie pre

/-- ModuleBuilder.py:154-156 `trieValuesFromTrieDeclaration`. -/
def trieValuesFromTrieDeclaration (b : Builder) (trieName pre : Str) : Py Builder := do
  let trie ← getPropsDeclaration b trieName
  trieValues b trie pre

/-- ModuleBuilder.py:158-162 `writeFile`: the contents of the file. -/
def writeFile (b : Builder) : Str := join (txt "\n") b.outputLines

/-! ## `build` -/

/-- ModuleBuilder.py:189-196: the module `BidiPropsData.py` made from `common/ubidi_props_data.h`. -/
def bidiModule (source today : Str) : Py Str := do
  let b := init source (txt "BidiPropsData.py") (txt "ubidi_props_data.h") (txt "ModuleBuilder.py") today
  let b ← arrayToPython b (txt "ubidi_props_indexes")
  let b ← arrayToPython b (txt "ubidi_props_trieIndex")
  let b ← arrayToPython b (txt "ubidi_props_mirrors")
  let b ← arrayToPython b (txt "ubidi_props_jgArray")
  let b ← arrayToPython b (txt "ubidi_props_jgArray2")
  let b ← trieValuesFromPropsDeclaration b (txt "ubidi_props_singleton") (txt "ubidi_props_trie")
  .ok (writeFile b)

/-- ModuleBuilder.py:198-206: the module `CharPropsData.py` made from `common/uchar_props_data.h`. -/
def charModule (source today : Str) : Py Str := do
  let b := init source (txt "CharPropsData.py") (txt "uchar_props_data.h") (txt "ModuleBuilder.py") today
  let b ← arrayToPython b (txt "propsTrie_index")
  let b ← trieValuesFromTrieDeclaration b (txt "propsTrie") (txt "propsTrie")
  let b ← arrayToPython b (txt "propsVectorsTrie_index")
  let b ← trieValuesFromTrieDeclaration b (txt "propsVectorsTrie") (txt "propsVectorsTrie")
  let b ← arrayToPython b (txt "propsVectors")
  let b ← scalarToPython b (txt "propsVectorsColumns")
  let b ← arrayToPython b (txt "scriptExtensions")
  .ok (writeFile b)

/-- ModuleBuilder.py:208-214: the module `CasePropsData.py` made from `common/ucase_props_data.h`. -/
def caseModule (source today : Str) : Py Str := do
  let b := init source (txt "CasePropsData.py") (txt "ucase_props_data.h") (txt "ModuleBuilder.py") today
  let b ← arrayToPython b (txt "ucase_props_indexes")
  let b ← arrayToPython b (txt "ucase_props_trieIndex")
  let b ← arrayToPython b (txt "ucase_props_exceptions")
  let b ← arrayToPython b (txt "ucase_props_unfold")
  let b ← trieValuesFromPropsDeclaration b (txt "ucase_props_singleton") (txt "ucase_props_trie")
  .ok (writeFile b)

/-- `[…]+` for a class of characters, followed by `k`: the longest such text behind which `k` matches. -/
def classPlus {β : Type} (ok : Nat → Bool) (k : Str → Option β) : Str → Option (Str × β)
  | [] => none
  | c :: t =>
    if ok c then
      match classPlus ok k t with
      | some r => some (c :: r.1, r.2)
      | none => (k t).map fun b => ([c], b)
    else none

/-- The patterns of ModuleBuilder.py:235-236. -/
def versionAt (define : Str) (ok : Nat → Bool) (s : Str) : Option Str := do
  let s ← lit (txt "#define " ++ define ++ txt " \"") s
  let r ← classPlus ok (lit (txt "\"")) s
  some r.1

/-- `[0-9]`. -/
def isDigit (c : Nat) : Bool := 48 ≤ c && c ≤ 57

/-- ModuleBuilder.py:232-240: the version of ICU, its short version and the name of the data file that is copied. -/
def icuVersions (uvData : Str) : Py (Str × Str × Str) := do
  let icuVersion ← findFirst (versionAt (txt "U_ICU_VERSION") fun c => isDigit c || c == 46) uvData
  let icuVersionShort ← findFirst (versionAt (txt "U_ICU_VERSION_SHORT") isDigit) uvData
  .ok (icuVersion, icuVersionShort, txt "data/out/icudt" ++ icuVersionShort ++ txt "l.dat")

/-- ModuleBuilder.py:253-255: the contents of `UnicodeVersion.py`. -/
def unicodeVersionFile (ucdVersion : Str) : Str := txt "unicodeVersion = \"" ++ ucdVersion ++ txt "\"\n"

end Verif.ModuleText

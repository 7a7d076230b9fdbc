import Verif.Model.PyStr
/-!
# Model of `module_builder/HeaderToPtyhon.py`

A file is the list of its lines as `readline` returns them. `\w` is modelled for ASCII. Python's `eval` is an argument; a
value is an `int`. The lines that hold the date (42-44) are an argument.
-/
namespace Verif.Header

/-- `line.startswith(p)`. -/
abbrev startsWith (p line : Str) : Bool := p.isPrefixOf line
/-- `line.endswith(p)`. -/
abbrev endsWith (p line : Str) : Bool := p.isSuffixOf line

/-- HeaderToPtyhon.py:17 the end of `cCommentRE`: the shortest text without newline before `*/`. -/
def lazyClose : Str → Option Str
  | [] => none
  | c :: cs =>
    if startsWith (txt "*/") (c :: cs) then some []
    else if c = 10 then none
    else (lazyClose cs).map (c :: ·)

/-- HeaderToPtyhon.py:17 `(.+?)\*/`: as `lazyClose`, with at least one character. -/
def someClose : Str → Option Str
  | [] => none
  | c :: cs => if c = 10 then none else (lazyClose cs).map (c :: ·)

/-- HeaderToPtyhon.py:17 `cCommentRE` at the start of a text: group 1. The second star is tried first. -/
def matchC (s : Str) : Option Str :=
  if startsWith (txt "/*") s then
    let t := s.drop 2
    if startsWith (txt "*") t then
      match someClose (t.drop 1) with
      | some g => some g
      | none => someClose t
    else someClose t
  else none

/-- HeaderToPtyhon.py:18 `eolCommentRE` at the start of a text: group 1. -/
def matchEol (s : Str) : Option Str :=
  if startsWith (txt "//") s then
    let t := s.drop 2
    if t = [] ∨ 36 ∈ t then none
    else
      let u := t.dropWhile isSpace
      if u = [] then some [t.getLastD 32] else some u
  else none

/-- `re.search`: the text before the leftmost match, and its group 1. -/
def search (m : Str → Option Str) : Str → Option (Str × Str)
  | [] => none
  | c :: cs =>
    match m (c :: cs) with
    | some g => some ([], g)
    | none => (search m cs).map (fun r => (c :: r.1, r.2))

/-- HeaderToPtyhon.py:55-62 `getTrailingComment`. -/
def getTrailingComment (line : Str) : Str × Str :=
  match search matchC line with
  | some (p, g) => (strip p, g)
  | none =>
    match search matchEol line with
    | some (p, g) => (strip p, g)
    | none => (line, [])

/-- HeaderToPtyhon.py:65-68 the local variables of `nextLine`. -/
structure Flags where
  inComment : Bool
  inConditional : Bool
  inMacro : Bool
  macroLine : Str
  deriving DecidableEq

/-- HeaderToPtyhon.py:65-68 their initial values. -/
def Flags.initial : Flags := ⟨false, false, false, []⟩

/-- HeaderToPtyhon.py:69-110 the loop of `nextLine`: what it returns, and the lines that are left. `guard` is
`self.guardMatch.search` (line 49). -/
def nextLineLoop (guard : Str → Bool) : Flags → List Str → Option (Str × Str) × List Str
  | _, [] => (none, [])
  | f, raw :: rest =>
    let line := strip raw
    if line = [] then nextLineLoop guard f rest
    else if startsWith (txt "//") line then nextLineLoop guard f rest
    else if startsWith (txt "/*") line then
      if endsWith (txt "*/") line then nextLineLoop guard f rest
      else nextLineLoop guard { f with inComment := true } rest
    else if f.inComment then
      nextLineLoop guard (if endsWith (txt "*/") line then { f with inComment := false } else f) rest
    else if startsWith (txt "#if") line then
      nextLineLoop guard (if guard line then f else { f with inConditional := true }) rest
    else if f.inConditional then
      nextLineLoop guard (if startsWith (txt "#endif") line then { f with inConditional := false } else f) rest
    else if startsWith (txt "#endif") line then nextLineLoop guard f rest
    else if startsWith (txt "#define") line ∧ endsWith (txt "\\") line then
      nextLineLoop guard { f with inMacro := true, macroLine := line.dropLast } rest
    else if f.inMacro then
      if endsWith (txt "\\") line then nextLineLoop guard { f with macroLine := f.macroLine ++ strip line.dropLast } rest
      else (some (getTrailingComment (f.macroLine ++ line)), rest)
    else (some (getTrailingComment line), rest)

/-- HeaderToPtyhon.py:64-110 `nextLine`. -/
def nextLine (guard : Str → Bool) (lines : List Str) : Option (Str × Str) × List Str := nextLineLoop guard .initial lines

/-- What `nextLine` returns call after call until it returns `None`; each call consumes a line. -/
def readAll (guard : Str → Bool) : Nat → List Str → List (Str × Str)
  | 0, _ => []
  | fuel + 1, lines =>
    match nextLine guard lines with
    | (none, _) => []
    | (some r, rest) => r :: readAll guard fuel rest

/-- HeaderToPtyhon.py:49 `guardMatch.search`, for a header name of word characters: `#ifndef`, spaces and the name, with or
without two underscores before and after, up to the end of the line. -/
def guardMatch (headerName : Str) : Str → Bool
  | [] => false
  | c :: cs =>
    (if startsWith (txt "#ifndef") (c :: cs) then
      let t := (c :: cs).drop 7
      let u := strip t
      (t.head?.any isSpace) && ([headerName, txt "__" ++ headerName, headerName ++ txt "__",
        txt "__" ++ headerName ++ txt "__"].contains u)
    else false) || guardMatch headerName cs

/-! ## `translate` -/

/-- `\w`. -/
def isWord (c : Nat) : Bool := (48 ≤ c && c ≤ 57) || (65 ≤ c && c ≤ 90) || c == 95 || (97 ≤ c && c ≤ 122)

/-- HeaderToPtyhon.py:16 and 51-53 `firstToken`. -/
def firstToken (line : Str) : Py Str :=
  match (line.dropWhile isSpace).takeWhile (fun c => !isSpace c) with
  | [] => .error .indexError
  | t => .ok t

/-- HeaderToPtyhon.py:19 `\(\w+(?:,\s*\w+)?\)` at the start of a text: the match and the rest. -/
def matchArgs (s : Str) : Option (Str × Str) :=
  match s with
  | 40 :: t =>
    let a := t.takeWhile isWord
    let t := t.dropWhile isWord
    if a = [] then none
    else
      match t with
      | 41 :: t => some (40 :: a ++ [41], t)
      | 44 :: t =>
        let sp := t.takeWhile isSpace
        let t := t.dropWhile isSpace
        let b := t.takeWhile isWord
        let t := t.dropWhile isWord
        if b = [] then none
        else
          match t with
          | 41 :: t => some (40 :: a ++ [44] ++ sp ++ b ++ [41], t)
          | _ => none
      | _ => none
  | _ => none

/-- HeaderToPtyhon.py:19 `(?:\s+(.+))?` on a stripped line: group 2, empty when there is none. -/
def matchValue (s : Str) : Str :=
  if (s.head?.any isSpace) then (s.dropWhile isSpace).takeWhile (· ≠ 10) else []

/-- HeaderToPtyhon.py:19 `macroDefineRE` at the start of a text: the groups. -/
def matchDefine (s : Str) : Option (Str × Str) :=
  if startsWith (txt "#define ") s then
    let t := s.drop 8
    let name := t.takeWhile isWord
    let t := t.dropWhile isWord
    if name = [] then none
    else
      match matchArgs t with
      | some (args, t) => some (name ++ args, matchValue t)
      | none => some (name, matchValue t)
  else none

/-- HeaderToPtyhon.py:119 `macroDefineRE.findall(line)[0]`. -/
def findDefine : Str → Py (Str × Str)
  | [] => .error .indexError
  | c :: cs =>
    match matchDefine (c :: cs) with
    | some r => .ok r
    | none => findDefine cs

/-- HeaderToPtyhon.py:20 and 129 `typedefEnumRE.fullmatch(line)`. -/
def isTypedefEnum (line : Str) : Bool :=
  startsWith (txt "typedef") line &&
    (let t := line.drop 7
     (t.head?.any isSpace) &&
      (let t := t.dropWhile isSpace
       startsWith (txt "enum") t &&
        (let t := (((t.drop 4).dropWhile isSpace).dropWhile isWord).dropWhile isSpace
         t = [] || t = [123])))

/-- HeaderToPtyhon.py:21 and 136 `endOfEnumRE.search(eline)`. -/
def isEndOfEnum : Str → Bool
  | [] => false
  | c :: cs =>
    (c = 125 && ((((cs.dropWhile isSpace).dropWhile isWord).dropWhile isSpace).head? = some 59)) || isEndOfEnum cs

/-- HeaderToPtyhon.py:22 the value in `enumEntryRE`, after the name: group 2, empty when there is none. -/
def entryValue (s : Str) : Str :=
  match s.dropWhile isSpace with
  | 61 :: t =>
    let u := (t.dropWhile isSpace).takeWhile (· ≠ 44)
    if u = [] then (t.takeWhile isSpace).getLast?.toList else u
  | _ => []

/-- HeaderToPtyhon.py:138 `enumEntryRE.findall(eline)[0]`. -/
def findEntry (s : Str) : Py (Str × Str) :=
  let t := s.dropWhile (fun c => !isWord c)
  match t.takeWhile isWord with
  | [] => .error .indexError
  | name => .ok (name, entryValue (t.dropWhile isWord))

/-- The decimal digits of a number, `fuel` of them at most. -/
def decLoop : Nat → Nat → Str
  | 0, _ => []
  | fuel + 1, n => if n < 10 then [48 + n] else decLoop fuel (n / 10) ++ [48 + n % 10]

/-- `str(n)`. -/
def pyStr (n : Int) : Str := if n < 0 then 45 :: decLoop (n.natAbs + 1) n.natAbs else decLoop (n.natAbs + 1) n.natAbs

/-- HeaderToPtyhon.py:125-128 and 142-145 an output line. -/
def outputLine (name value comment : Str) : Str :=
  name ++ txt " = " ++ value ++ (if comment = [] then [] else txt "  # " ++ comment)

/-- The variables of an enumeration, `variables[name] = value`: the latest assignment first. -/
abbrev Env := List (Str × Int)

/-- HeaderToPtyhon.py:133-152 the loop over the entries of an enumeration: the output and the lines that are left. Each round
consumes a line. -/
def enumLoop (guard : Str → Bool) (eval : Env → Str → Py Int) : Nat → List Str → Int → Env → List Str →
    Py (List Str × List Str)
  | 0, _, _, _, _ => .error .diverges
  | fuel + 1, lines, nextValue, variables, out =>
    match nextLine guard lines with
    | (none, rest) => .ok (out, rest)
    | (some (eline, comment), rest) =>
      if startsWith (txt "{") eline then enumLoop guard eval fuel rest nextValue variables out
      else if isEndOfEnum eline then .ok (out, rest)
      else do
        let (name, value) ← findEntry eline
        let value := if value = [] then pyStr nextValue else value
        let intValue ← eval variables value
        enumLoop guard eval fuel rest (intValue + 1) ((name, intValue) :: variables) (out ++ [outputLine name value comment])

/-- HeaderToPtyhon.py:117-128 a `#define` line: the output after it. -/
def translateDefine (ignore : List Str) (line comment : Str) (out : List Str) : Py (List Str) := do
  let (name, value) ← findDefine line
  if name ∈ ignore then .ok out
  else if value ≠ [] ∧ 40 ∉ name then .ok (out ++ [outputLine name value comment])
  else .ok out

/-- HeaderToPtyhon.py:112-152 `translate`: the output lines. Each round consumes a line. -/
def translateLoop (guard : Str → Bool) (eval : Env → Str → Py Int) (ignore : List Str) : Nat → List Str → List Str →
    Py (List Str)
  | 0, _, _ => .error .diverges
  | fuel + 1, lines, out =>
    match nextLine guard lines with
    | (none, _) => .ok out
    | (some (line, comment), rest) => do
      let token ← firstToken line
      if token = txt "#define" then
        let out ← translateDefine ignore line comment out
        translateLoop guard eval ignore fuel rest out
      else if token = txt "enum" ∨ (token = txt "typedef" ∧ isTypedefEnum line) then
        let r ← enumLoop guard eval (rest.length + 1) rest 0 [] out
        translateLoop guard eval ignore fuel r.2 r.1
      else translateLoop guard eval ignore fuel rest out

/-- HeaderToPtyhon.py:112-152 `translate` on a file, after the lines written by the constructor. -/
def translate (guard : Str → Bool) (eval : Env → Str → Py Int) (ignore : List Str) (header lines : List Str) : Py (List Str) :=
  translateLoop guard eval ignore (lines.length + 1) lines header

end Verif.Header

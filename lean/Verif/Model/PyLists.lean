import Verif.Model.PyExpr
/-!
# Python modules of numbers and lists of numbers

The modules that ModuleBuilder.py writes (`BidiPropsData.py`, `CasePropsData.py`, `CharPropsData.py`) and `Norm2NFCData.py` are imported by
the classes that look values up. Importing is done by Python, of which nothing is in `/repo`; this is a model of the part of Python that
these texts need: a docstring, comments, and assignments of a number or of a list of numbers to a name. A list may go over several lines.
Everything else is refused: `SyntaxError` and what is not modelled (for example expressions, nested lists, indented lines, letters outside
ASCII) is `valueError`.
-/
namespace Verif.PyLists

/-- Tokens. `newline` ends a statement; a line feed inside brackets is no token. -/
inductive Tok
  | num (n : Nat) | name (s : Str) | assign | lbrack | rbrack | comma | newline
  deriving DecidableEq, Repr

/-- Where the reader is: at the beginning of a line, in a line, between brackets, in a comment, in a comment between brackets. -/
inductive Mode
  | start | code | list | note | noteIn
  deriving DecidableEq, Repr

/-- The token of a word that has ended, if there is one. -/
def flush (w : Str) : Option (List Tok) :=
  if w = [] then some []
  else
    match PyExpr.wordTok w with
    | some (.num n) => some [.num n]
    | some (.name s) => some [.name s]
    | _ => none

/-- What a character that is not part of a word gives, and where the reader is then. -/
def step (m : Mode) (c : Nat) : Option (List Tok × Mode) :=
  if c = 32 ∨ c = 9 then (if m = .start then none else some ([], m))
  else if c = 10 then (if m = .list then some ([], .list) else some ([.newline], .start))
  else if c = 35 then some ([], if m = .list then .noteIn else .note)
  else if c = 61 then (if m = .code then some ([.assign], .code) else none)
  else if c = 91 then (if m = .code then some ([.lbrack], .list) else none)
  else if c = 93 then (if m = .list then some ([.rbrack], .code) else none)
  else if c = 44 then (if m = .list then some ([.comma], .list) else none)
  else none

/-- The tokens of a text; `w` is the word being read. -/
def scan : Mode → Str → Str → Option (List Tok)
  | m, w, [] => if m = .list ∨ m = .noteIn then none else flush w
  | m, w, c :: s =>
    if m = .note then
      if c = 10 then (scan .start [] s).map (.newline :: ·) else scan .note [] s
    else if m = .noteIn then scan (if c = 10 then .list else .noteIn) [] s
    else if Header.isWord c then scan (if m = .list then .list else .code) (w ++ [c]) s
    else
      match flush w, step m c with
      | some ts, some (us, m) => (scan m [] s).map fun vs => ts ++ (us ++ vs)
      | _, _ => none

/-- The statements: the tokens between the ends of lines. -/
def statements : List Tok → List (List Tok)
  | [] => [[]]
  | t :: ts =>
    if t = .newline then [] :: statements ts
    else
      match statements ts with
      | [] => [[t]]
      | l :: ls => (t :: l) :: ls

/-- The numbers of a list, up to the closing bracket at the end of the statement. -/
def elements : List Tok → Option (List Nat)
  | [.rbrack] => some []
  | [.num n, .rbrack] => some [n]
  | .num n :: .comma :: ts => (elements ts).map (n :: ·)
  | _ => none

/-- Values. -/
inductive Val
  | int (n : Nat) | list (l : List Nat)
  deriving DecidableEq, Repr

/-- One statement; the newest assignment comes first. -/
def exec (env : List (Str × Val)) : List Tok → Py (List (Str × Val))
  | [] => .ok env
  | [.name n, .assign, .num v] => .ok ((n, .int v) :: env)
  | .name n :: .assign :: .lbrack :: ts =>
    match elements ts with
    | some l => .ok ((n, .list l) :: env)
    | none => .error .valueError
  | _ => .error .valueError

/-- The statements one after the other. -/
def run : List (Str × Val) → List (List Tok) → Py (List (Str × Val))
  | env, [] => .ok env
  | env, l :: ls => do
    let env ← exec env l
    run env ls

/-- The text behind a docstring, if there is one. Nothing may follow it on its last line. -/
def body (text : Str) : Option Str :=
  match text with
  | 34 :: 34 :: 34 :: s =>
    match PyExpr.afterQuotes s with
    | some (10 :: s) => some s
    | _ => none
  | s => some s

/-- Importing a module: its names and their values. CharProps.py:4, BidiProps.py:9, CaseProps.py:9, Normalizer2.py:12. -/
def importModule (text : Str) : Py (List (Str × Val)) :=
  match (body text).bind (scan .start []) with
  | some ts => run [] (statements ts)
  | none => .error .valueError

/-- The value of a name. -/
def lookup (env : List (Str × Val)) (n : Str) : Option Val := env.lookup n

end Verif.PyLists

import Verif.Model.Header
/-!
# Python expressions and modules of constants

HeaderToPtyhon.py:147 calls `eval` on the value of an enumerator, and the modules that it writes (`uchar_h.py`, `ucase_h.py`, `uprops_h.py`,
`uscript_h.py`) are imported later. Both are done by Python, of which nothing is in `/repo`; this is a model of the part of Python that
these texts need: integer and text literals, names, calls with one argument, `+ - ~` before an operand, `* + - << >> & ^ |` between
operands, parentheses, comments, assignments to one name and one-line functions of one integer. Everything else is refused: `SyntaxError`
and what is not modelled (for example `/`, `**`, comparisons, keywords, built-in names, letters outside ASCII) is `valueError`, and
`NameError` is `keyError`.
-/
namespace Verif.PyExpr

/-- Binary operators. -/
inductive Op | bar | caret | amp | shl | shr | plus | minus | star
  deriving DecidableEq, Repr

/-- Tokens. -/
inductive Tok
  | num (n : Nat) | name (s : Str) | str (s : Str) | op (o : Op) | tilde | lpar | rpar | assign
  deriving DecidableEq, Repr

/-- A number: decimal digits without leading zeros, or `0x` and hexadecimal digits. -/
def number (s : Str) : Option Nat :=
  match s with
  | 48 :: x :: cs =>
    if x = 120 ∨ x = 88 then (digitsLoop 16 .base 0 cs).toOption
    else if (x :: cs).all (· == 48) then some 0 else none
  | _ => (digitsLoop 10 .start 0 s).toOption

/-- The keywords of Python, which are no names. -/
def keywords : List Str :=
  ["False", "None", "True", "and", "as", "assert", "async", "await", "break", "class", "continue", "def", "del", "elif", "else", "except",
   "finally", "for", "from", "global", "if", "import", "in", "is", "lambda", "nonlocal", "not", "or", "pass", "raise", "return", "try",
   "while", "with", "yield"].map txt

/-- The token for a word: a number if it begins with a digit, otherwise a name. -/
def wordTok (w : Str) : Option Tok :=
  if (w.head?.any fun c => decide (48 ≤ c ∧ c ≤ 57)) then (number w).map .num else if w ∈ keywords then none else some (.name w)

/-- Operators and parentheses of one character; `<<` and `>>` have two. -/
def symbol (c : Nat) : Option Tok :=
  if c = 40 then some .lpar
  else if c = 41 then some .rpar
  else if c = 43 then some (.op .plus)
  else if c = 45 then some (.op .minus)
  else if c = 38 then some (.op .amp)
  else if c = 94 then some (.op .caret)
  else if c = 124 then some (.op .bar)
  else if c = 126 then some .tilde
  else if c = 42 then some (.op .star)
  else if c = 61 then some .assign
  else none

/-- The tokens of a line, at most `fuel` of them. -/
def tokens : Nat → Str → Option (List Tok)
  | 0, _ => none
  | _ + 1, [] => some []
  | fuel + 1, c :: cs =>
    if c = 32 ∨ c = 9 then tokens fuel cs
    else if c = 35 then some []
    else if Header.isWord c then
      (wordTok ((c :: cs).takeWhile Header.isWord)).bind fun t => (tokens fuel ((c :: cs).dropWhile Header.isWord)).map (t :: ·)
    else if c = 34 then
      let s := cs.takeWhile (· ≠ 34)
      match cs.dropWhile (· ≠ 34) with
      | _ :: rest => if 92 ∈ s then none else (tokens fuel rest).map (.str s :: ·)
      | [] => none
    else if c = 60 ∨ c = 62 then
      match cs with
      | d :: rest => if d = c then (tokens fuel rest).map (.op (if c = 60 then .shl else .shr) :: ·) else none
      | [] => none
    else if (c = 42 ∨ c = 61) ∧ cs.head? = some c then none
    else
      match symbol c with
      | some t => (tokens fuel cs).map (t :: ·)
      | none => none

/-- Expressions. -/
inductive Expr
  | num (n : Nat) | str (s : Str) | name (s : Str) | call (f : Str) (e : Expr) | neg (e : Expr) | pos (e : Expr) | inv (e : Expr)
  | bin (o : Op) (l r : Expr)
  deriving DecidableEq, Repr

/-- How tightly an operator binds. -/
def Op.prec : Op → Nat
  | .bar => 1
  | .caret => 2
  | .amp => 3
  | .shl => 4
  | .shr => 4
  | .plus => 5
  | .minus => 5
  | .star => 6

mutual
/-- An operand with the operators before it, and the tokens that are left. -/
def operand : Nat → List Tok → Option (Expr × List Tok)
  | 0, _ => none
  | fuel + 1, ts =>
    match ts with
    | .num n :: r => some (.num n, r)
    | .str s :: r => some (.str s, r)
    | .name f :: .lpar :: r =>
      match expr fuel 1 r with
      | some (e, .rpar :: r) => some (.call f e, r)
      | _ => none
    | .name n :: r => some (.name n, r)
    | .lpar :: r =>
      match expr fuel 1 r with
      | some (e, .rpar :: r) => some (e, r)
      | _ => none
    | .op .minus :: r => (operand fuel r).map fun p => (.neg p.1, p.2)
    | .op .plus :: r => (operand fuel r).map fun p => (.pos p.1, p.2)
    | .tilde :: r => (operand fuel r).map fun p => (.inv p.1, p.2)
    | _ => none
/-- An expression of operators that bind at least as tightly as `p`. -/
def expr : Nat → Nat → List Tok → Option (Expr × List Tok)
  | 0, _, _ => none
  | fuel + 1, p, ts =>
    match operand fuel ts with
    | some (e, r) => more fuel p e r
    | none => none
/-- The operators and operands after an expression. -/
def more : Nat → Nat → Expr → List Tok → Option (Expr × List Tok)
  | 0, _, _, _ => none
  | fuel + 1, p, e, ts =>
    match ts with
    | .op o :: r =>
      if p ≤ o.prec then
        match expr fuel (o.prec + 1) r with
        | some (e', r') => more fuel p (.bin o e e') r'
        | none => none
      else some (e, ts)
    | _ => some (e, ts)
end

/-- The expression that some tokens are. -/
def parse (ts : List Tok) : Option Expr :=
  match expr (3 * ts.length + 2) 1 ts with
  | some (e, []) => some e
  | _ => none

/-- `x | y` on ints. -/
def pyOr (a b : Int) : Int := -1 - pyAnd (-1 - a) (-1 - b)
/-- `x ^ y` on ints. -/
def pyXor (a b : Int) : Int := pyAnd (pyOr a b) (-1 - pyAnd a b)

/-- A binary operator on ints; a negative shift count raises `ValueError`. -/
def Op.apply : Op → Int → Int → Py Int
  | .bar, a, b => .ok (pyOr a b)
  | .caret, a, b => .ok (pyXor a b)
  | .amp, a, b => .ok (pyAnd a b)
  | .shl, a, b => if b < 0 then .error .valueError else .ok (a * 2 ^ b.toNat)
  | .shr, a, b => if b < 0 then .error .valueError else .ok (a / 2 ^ b.toNat)
  | .plus, a, b => .ok (a + b)
  | .minus, a, b => .ok (a - b)
  | .star, a, b => .ok (a * b)

/-- Values: ints, texts and functions of one int. -/
inductive Val | int (n : Int) | str (s : Str) | fn (x : Str) (body : Expr)
  deriving DecidableEq, Repr

/-- The value of an expression; texts are not combined with anything. -/
def Expr.eval (env : Str → Option Val) (call : Val → Int → Py Int) : Expr → Py Val
  | .num n => .ok (.int n)
  | .str s => .ok (.str s)
  | .name s => match env s with
    | some v => .ok v
    | none => .error .keyError
  | .call f e => match env f with
    | none => .error .keyError
    | some g => do
      match ← e.eval env call with
      | .int a => return .int (← call g a)
      | _ => .error .typeError
  | .neg e => do
    match ← e.eval env call with
    | .int a => return .int (-a)
    | _ => .error .typeError
  | .pos e => do
    match ← e.eval env call with
    | .int a => return .int a
    | _ => .error .typeError
  | .inv e => do
    match ← e.eval env call with
    | .int a => return .int (-a - 1)
    | _ => .error .typeError
  | .bin o l r => do
    let a ← l.eval env call
    let b ← r.eval env call
    match a, b with
    | .int a, .int b => return .int (← o.apply a b)
    | _, _ => .error .typeError

/-- `env[name]`, the latest assignment first. -/
def lookup (env : List (Str × Val)) (s : Str) : Option Val := env.lookup s

/-- A call of a function, whose body must do without other functions. -/
def callIn (env : List (Str × Val)) (f : Val) (a : Int) : Py Int :=
  match f with
  | .fn x body => do
    match ← body.eval (fun s => if s = x then some (.int a) else lookup env s) (fun _ _ => .error .valueError) with
    | .int n => .ok n
    | _ => .error .typeError
  | _ => .error .typeError

/-- The tokens of a text; `none` is `SyntaxError`. -/
def tokenize (s : Str) : Option (List Tok) := tokens (s.length + 1) s

/-- HeaderToPtyhon.py:147 `eval(value, variables)`: the value must be an int, as it is used in `intValue + 1`. -/
def pyEval (variables : List (Str × Int)) (value : Str) : Py Int :=
  match (tokenize value).bind parse with
  | none => .error .valueError
  | some e => do
    match ← e.eval (fun s => (variables.lookup s).map .int) (fun _ _ => .error .typeError) with
    | .int n => .ok n
    | _ => .error .typeError

/-! ## Modules -/

/-- A function definition on one line, of one int: `def NAME(ARGUMENT: int) -> int: return EXPRESSION`. -/
def defLine (s : Str) : Option (Str × Val) :=
  if (txt "def ").isPrefixOf s then
    let s := s.drop 4
    let name := s.takeWhile Header.isWord
    match s.dropWhile Header.isWord with
    | 40 :: s =>
      let x := s.takeWhile Header.isWord
      let s := s.dropWhile Header.isWord
      let mid := txt ": int) -> int: return "
      if mid.isPrefixOf s then
        match (tokenize (s.drop mid.length)).bind parse with
        | some e => some (name, .fn x e)
        | none => none
      else none
    | _ => none
  else none

/-- One line of a module: blank or a comment, a function, or an assignment. A line must not begin with a space. -/
def execLine (env : List (Str × Val)) (line : Str) : Py (List (Str × Val)) :=
  if (txt "def ").isPrefixOf line then
    match defLine line with
    | some f => .ok (f :: env)
    | none => .error .valueError
  else
    match tokenize line with
    | none => .error .valueError
    | some [] => .ok env
    | some (.name n :: .assign :: ts) =>
      if line.head? = some 32 ∨ line.head? = some 9 then .error .valueError
      else
        match parse ts with
        | none => .error .valueError
        | some e => do
          let v ← e.eval (lookup env) (callIn env)
          .ok ((n, v) :: env)
    | _ => .error .valueError

/-- The lines of a module one after the other. -/
def execLines : List (Str × Val) → List Str → Py (List (Str × Val))
  | env, [] => .ok env
  | env, l :: ls => do
    let env ← execLine env l
    execLines env ls

/-- What follows a docstring: the text behind the next three quotation marks. A backslash takes the character after it with it; the
escapes with digits or names are not modelled. -/
def afterQuotes : Str → Option Str
  | 34 :: 34 :: 34 :: s => some s
  | 92 :: c :: s => if c ∈ txt "xuUN" then none else afterQuotes s
  | _ :: s => afterQuotes s
  | [] => none

/-- Importing a module: its docstring, if it has one, with nothing behind it on its last line, and the other lines; the result are
its names. -/
def importModule (text : Str) : Py (List (Str × Val)) :=
  match text with
  | 34 :: 34 :: 34 :: s =>
    match (afterQuotes s).map (splitOn 10) with
    | some ([] :: ls) => execLines [] ls
    | _ => .error .valueError
  | s => execLines [] (splitOn 10 s)

end Verif.PyExpr

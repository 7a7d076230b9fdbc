import Verif.Model.Lines
/-!
# The syntax of Python

The modules of the library are texts; nothing in `/repo` says what they mean. This is a model of the part of the grammar of Python
(The Python Language Reference, 2 "Lexical analysis", 6 to 8) that they use: tokens, indentation, expressions, simple and compound
statements. Annotations of parameters, results and variables are read and dropped. A text that is accepted here and refused by Python (a
keyword used as a name, for instance) is read in some way; the texts of the library are accepted by both. Files are read as bytes; characters
outside ASCII occur in comments and, as two bytes of UTF-8, in string literals.

Identifiers, keywords and operators are numbers: their characters are the digits to base 128, the first one is the highest digit. `n% "get"`
is the number of the identifier `get`.
-/
namespace Verif.PySyntax

/-- The number of a word. -/
def word (s : Str) : Nat := s.foldl (fun n c => n * 128 + c) 0

/-- `n% "get"` is the numeral for `word (txt "get")`. -/
macro "n%" s:str : term =>
  return Lean.Syntax.mkNumLit (toString (s.getString.toList.foldl (fun n c => n * 128 + c.toNat) 0))

/-- Tokens. A logical line begins with a token that has its indentation. -/
inductive Tok
  | line (indent : Nat) | num (n : Nat) | flt (n d : Nat) | str (f : Bool) (s : Str) | id (n : Nat) | op (n : Nat)
  deriving DecidableEq, Repr

/-- What the characters read last are part of. -/
inductive Mode
  | bol (k : Nat) | mid | word (n : Nat) | zero | dec (n : Nat) | hex (n : Nat) | frac (n d : Nat) | comment | back | op (n : Nat)
  | quote1 (f : Bool) (q : Nat) | quote2 (f : Bool) (q : Nat) | str (f : Bool) (q : Nat) (s : Str) | tri (f : Bool) (q n : Nat) (s : Str)
  | esc (t f : Bool) (q : Nat) (s : Str) | uni (t f : Bool) (q k v : Nat) (s : Str) | lead (t f : Bool) (q v : Nat) (s : Str)

/-- Decimal digits. -/
def isDigit (c : Nat) : Bool := Nat.ble 48 c && Nat.ble c 57
/-- Letters and the underscore. -/
def isLetter (c : Nat) : Bool := bif Nat.ble 97 c then Nat.ble c 122 else bif Nat.ble 65 c then Nat.ble c 90 || Nat.beq c 95 else false
/-- The value of a hexadecimal digit. -/
def hexValue (c : Nat) : Option Nat :=
  bif isDigit c then some (Nat.sub c 48) else bif Nat.ble 97 c && Nat.ble c 102 then some (Nat.sub c 87)
  else bif Nat.ble 65 c && Nat.ble c 70 then some (Nat.sub c 55) else none

/-- How lexing goes on: mode, number of open parentheses, and the tokens so far in reverse order. -/
abbrev Next := Mode → Nat → List Tok → Option (List Tok)

/-- A character that is not part of the token before it. -/
def midStep (next : Next) (c depth : Nat) (out : List Tok) : Option (List Tok) :=
  bif Nat.beq c 32 then next .mid depth out
  else bif isLetter c then next (.word c) depth out
  else bif Nat.beq c 10 then next (bif Nat.beq depth 0 then .bol 0 else .mid) depth out
  else bif Nat.beq c 40 || Nat.beq c 91 || Nat.beq c 123 then next .mid (Nat.succ depth) (.op c :: out)
  else bif Nat.beq c 41 || Nat.beq c 93 || Nat.beq c 125 then next .mid (Nat.pred depth) (.op c :: out)
  else bif Nat.beq c 44 || Nat.beq c 58 || Nat.beq c 126 then next .mid depth (.op c :: out)
  else bif Nat.beq c 48 then next .zero depth out
  else bif isDigit c then next (.dec (Nat.sub c 48)) depth out
  else bif Nat.beq c 35 then next .comment depth out
  else bif Nat.beq c 34 || Nat.beq c 39 then next (.quote1 false c) depth out
  else bif Nat.beq c 92 then next .back depth out
  else bif List.elem c [33, 37, 38, 42, 43, 45, 46, 47, 60, 61, 62, 64, 94, 124] then next (.op c) depth out
  else none

/-- Whether an operator goes on with `c`: `==`, `+=`, `<<`, `->`, `<<=`, `...` and the like. -/
def opMore (n c : Nat) : Bool :=
  bif Nat.ble 128 n then
    (Nat.beq c 61 && List.elem n [n% "<<", n% ">>", n% "//", n% "**"]) || (Nat.beq c 46 && Nat.beq n (n% ".."))
  else
    (Nat.beq c 61 && !Nat.beq n 46) || (Nat.beq c n && List.elem c [60, 62, 47, 42, 46]) || (Nat.beq c 62 && Nat.beq n 45)

/-- Back to the characters of a string literal, with three quotation marks or one. -/
def strMode (t f : Bool) (q : Nat) (s : Str) : Mode := bif t then .tri f q 0 s else .str f q s

/-- One character. A text is refused if a token cannot go on. -/
def step (next : Next) (c : Nat) (mode : Mode) (depth : Nat) (out : List Tok) : Option (List Tok) :=
  match mode with
  | .mid => midStep next c depth out
  | .word n =>
    bif isLetter c || isDigit c then next (.word (Nat.add (Nat.mul n 128) c)) depth out
    else bif (Nat.beq c 34 || Nat.beq c 39) && (Nat.beq n 102 || Nat.beq n 98) then next (.quote1 (Nat.beq n 102) c) depth out
    else midStep next c depth (.id n :: out)
  | .comment => bif Nat.beq c 10 then midStep next c depth out else next .comment depth out
  | .bol k =>
    bif Nat.beq c 32 then next (.bol (Nat.succ k)) depth out
    else bif Nat.beq c 10 then next (.bol 0) depth out
    else bif Nat.beq c 35 then next .comment depth out
    else midStep next c depth (.line k :: out)
  | .op n => bif opMore n c then next (.op (Nat.add (Nat.mul n 128) c)) depth out else midStep next c depth (.op n :: out)
  | .zero =>
    bif Nat.beq c 48 then next .zero depth out
    else bif Nat.beq c 120 then next (.hex 0) depth out
    else bif Nat.beq c 46 then next (.frac 0 1) depth out
    else bif isDigit c || isLetter c then none
    else midStep next c depth (.num 0 :: out)
  | .dec n =>
    bif isDigit c then next (.dec (Nat.add (Nat.mul n 10) (Nat.sub c 48))) depth out
    else bif Nat.beq c 46 then next (.frac n 1) depth out
    else bif isLetter c then none
    else midStep next c depth (.num n :: out)
  | .hex n =>
    match hexValue c with
    | some d => next (.hex (Nat.add (Nat.mul n 16) d)) depth out
    | none => bif isLetter c then none else midStep next c depth (.num n :: out)
  | .frac n d =>
    bif isDigit c then next (.frac (Nat.add (Nat.mul n 10) (Nat.sub c 48)) (Nat.mul d 10)) depth out
    else bif isLetter c || Nat.beq c 46 then none
    else midStep next c depth (.flt n d :: out)
  | .back => bif Nat.beq c 10 then next .mid depth out else none
  | .quote1 f q =>
    bif Nat.beq c q then next (.quote2 f q) depth out
    else bif Nat.beq c 92 then next (.esc false f q []) depth out
    else bif Nat.beq c 10 || Nat.ble 128 c then
      bif Nat.ble 194 c && Nat.ble c 223 then next (.lead false f q (Nat.sub c 192) []) depth out else none
    else next (.str f q [c]) depth out
  | .quote2 f q => bif Nat.beq c q then next (.tri f q 0 []) depth out else midStep next c depth (.str f [] :: out)
  | .str f q t =>
    bif Nat.beq c q then next .mid depth (.str f t.reverse :: out)
    else bif Nat.beq c 92 then next (.esc false f q t) depth out
    else bif Nat.beq c 10 || Nat.ble 128 c then
      bif Nat.ble 194 c && Nat.ble c 223 then next (.lead false f q (Nat.sub c 192) t) depth out else none
    else next (.str f q (c :: t)) depth out
  | .tri f q n t =>
    bif Nat.beq c q then
      bif Nat.beq n 2 then next .mid depth (.str f t.reverse :: out) else next (.tri f q (Nat.succ n) t) depth out
    else bif Nat.beq c 92 then next (.esc true f q (List.replicate n q ++ t)) depth out
    else bif Nat.ble 128 c then
      bif Nat.ble 194 c && Nat.ble c 223 then next (.lead true f q (Nat.sub c 192) (List.replicate n q ++ t)) depth out else none
    else next (.tri f q 0 (c :: (List.replicate n q ++ t))) depth out
  | .esc t f q r =>
    bif Nat.beq c 10 then next (strMode t f q r) depth out
    else bif Nat.beq c 110 then next (strMode t f q (10 :: r)) depth out
    else bif Nat.beq c 92 || Nat.beq c 34 || Nat.beq c 39 then next (strMode t f q (c :: r)) depth out
    else bif Nat.beq c 117 then next (.uni t f q 4 0 r) depth out
    else none
  | .uni t f q k v r =>
    match hexValue c with
    | some d =>
      bif Nat.beq k 1 then next (strMode t f q (Nat.add (Nat.mul v 16) d :: r)) depth out
      else next (.uni t f q (Nat.pred k) (Nat.add (Nat.mul v 16) d) r) depth out
    | none => none
  | .lead t f q v r =>
    bif Nat.ble 128 c && Nat.ble c 191 then next (strMode t f q (Nat.add (Nat.mul v 64) (Nat.sub c 128) :: r)) depth out else none

/-- The tokens of a text from some state on. -/
def lexFrom : Str → Next
  | [] => fun mode _ out => match mode with
    | .bol _ => some out.reverse
    | _ => none
  | c :: cs => step (lexFrom cs) c

/-- The tokens of a text, with an end of line added at its end. -/
def lex (text : Str) : Option (List Tok) := lexFrom (text ++ [10]) (.bol 0) 0 []

/-- Operators between two operands that give a number, and comparisons. -/
inductive Op
  | add | sub | mul | div | floorDiv | mod | shl | shr | and | or | xor | eq | ne | lt | le | gt | ge | in' | notIn | is | isNot
  deriving DecidableEq, Repr

/-- Expressions. Lists of arguments and elements are chains of `cons` that end with `nil`. -/
inductive Expr
  | num (n : Nat) | flt (n d : Nat) | str (s : Str) | fstr (s : Str) | name (x : Nat) | ellipsis
  | neg (e : Expr) | pos (e : Expr) | inv (e : Expr) | not (e : Expr)
  | bin (op : Op) (l r : Expr) | and (l r : Expr) | or (l r : Expr)
  | cond (c t e : Expr) | lam (x : Nat) (e : Expr)
  | attr (e : Expr) (x : Nat) | index (e i : Expr) | slice (e a b : Expr) | call (f args : Expr)
  | tuple (es : Expr) | list (es : Expr) | dict (es : Expr) | comp (e : Expr) (x : Expr) (it : Expr)
  | nil | cons (e es : Expr) | kwarg (x : Nat) (e : Expr) | star (e : Expr) | dstar (e : Expr) | item (k v : Expr)
  deriving DecidableEq, Repr

/-- Statements. Blocks are chains of `seq` that end with `skip`. -/
inductive Stmt
  | expr (e : Expr) | assign (x e : Expr) | aug (op : Op) (x e : Expr) | decl (x : Expr)
  | ret (e : Expr) | yield (e : Expr) | raise (e : Expr) | assert (e : Expr) | del (e : Expr)
  | ifs (c : Expr) (t e : Stmt) | while (c : Expr) (b : Stmt) | for (x it : Expr) (b : Stmt) | brk | cont | pass
  | defn (x : Nat) (params : Expr) (b : Stmt) | cls (x : Nat) (bases : Expr) (b : Stmt) | deco (e : Expr) (s : Stmt)
  | imp (x : Nat) | imps (m : Nat) (names : Expr)
  | skip | seq (s t : Stmt)
  deriving DecidableEq, Repr

/-- How tightly the operators between two operands bind. -/
def level (t : Tok) : Nat :=
  match t with
  | .op n =>
    bif Nat.ble 128 n then
      bif Nat.beq n (n% "==") || Nat.beq n (n% "!=") || Nat.beq n (n% "<=") || Nat.beq n (n% ">=") then 4
      else bif Nat.beq n (n% "<<") || Nat.beq n (n% ">>") then 8
      else bif Nat.beq n (n% "//") then 10
      else 0
    else
      bif Nat.beq n (n% "+") || Nat.beq n (n% "-") then 9
      else bif Nat.beq n (n% "*") || Nat.beq n (n% "/") || Nat.beq n (n% "%") then 10
      else bif Nat.beq n (n% "<") || Nat.beq n (n% ">") then 4
      else bif Nat.beq n (n% "&") then 7
      else bif Nat.beq n (n% "^") then 6
      else bif Nat.beq n (n% "|") then 5
      else 0
  | .id n =>
    bif Nat.beq n (n% "or") then 1
    else bif Nat.beq n (n% "and") then 2
    else bif Nat.beq n (n% "in") || Nat.beq n (n% "not") || Nat.beq n (n% "is") then 4
    else 0
  | _ => 0

/-- The operators written with signs. -/
def sign (n : Nat) : Option Op :=
  bif Nat.ble 128 n then
    bif Nat.beq n (n% "==") then some .eq else bif Nat.beq n (n% "!=") then some .ne
    else bif Nat.beq n (n% "<=") then some .le else bif Nat.beq n (n% ">=") then some .ge
    else bif Nat.beq n (n% "<<") then some .shl else bif Nat.beq n (n% ">>") then some .shr
    else bif Nat.beq n (n% "//") then some .floorDiv else none
  else
    bif Nat.beq n (n% "+") then some .add else bif Nat.beq n (n% "-") then some .sub
    else bif Nat.beq n (n% "*") then some .mul else bif Nat.beq n (n% "/") then some .div
    else bif Nat.beq n (n% "%") then some .mod else bif Nat.beq n (n% "<") then some .lt
    else bif Nat.beq n (n% ">") then some .gt else bif Nat.beq n (n% "&") then some .and
    else bif Nat.beq n (n% "|") then some .or else bif Nat.beq n (n% "^") then some .xor else none

/-- The operator at the beginning of the tokens and the tokens after it; `not in` and `is not` are two. -/
def operator (t : Tok) (r : List Tok) : Option (Op × List Tok) :=
  match t, r with
  | .id n, .id m :: r' =>
    bif Nat.beq n (n% "not") then bif Nat.beq m (n% "in") then some (.notIn, r') else none
    else bif Nat.beq n (n% "is") then bif Nat.beq m (n% "not") then some (.isNot, r') else some (.is, r)
    else bif Nat.beq n (n% "in") then some (.in', r) else none
  | .id n, _ => bif Nat.beq n (n% "is") then some (.is, r) else bif Nat.beq n (n% "in") then some (.in', r) else none
  | .op n, _ => (sign n).map fun o => (o, r)
  | _, _ => none

/-- Whether a token is this word. -/
def isWord (n : Nat) : Tok → Bool
  | .id m => Nat.beq m n
  | _ => false

/-- Expect a word. -/
def expect (n : Nat) (ts : List Tok) : Option (List Tok) :=
  match ts with
  | t :: r => bif isWord n t then some r else none
  | [] => none

mutual
/-- An operand: atom, prefix operators, and what follows an atom. -/
def operand : Nat → List Tok → Option (Expr × List Tok)
  | 0, _ => none
  | fuel + 1, ts =>
    match ts with
    | .id n :: r =>
      bif Nat.beq n (n% "not") then (expr fuel 3 r).map fun p => (.not p.1, p.2)
      else bif Nat.beq n (n% "lambda") then
        match r with
        | .id x :: .op 58 :: r => (expr fuel 0 r).map fun p => (.lam x p.1, p.2)
        | _ => none
      else suffix fuel (.name n) r
    | .num n :: r => some (.num n, r)
    | .flt n d :: r => some (.flt n d, r)
    | .str f s :: r => suffix fuel (bif f then .fstr s else .str s) r
    | .op n :: r =>
      bif Nat.beq n 40 then
        match elements fuel 41 r with
        | some (.cons e .nil, false, r) => suffix fuel e r
        | some (es, _, r) => suffix fuel (.tuple es) r
        | none => none
      else bif Nat.beq n 91 then
        match elements fuel 93 r with
        | some (.cons (.comp e x it) .nil, _, r) => suffix fuel (.comp e x it) r
        | some (es, _, r) => suffix fuel (.list es) r
        | none => none
      else bif Nat.beq n 123 then
        match elements fuel 125 r with
        | some (es, _, r) => suffix fuel (.dict es) r
        | none => none
      else bif Nat.beq n 45 then (operand fuel r).map fun p => (.neg p.1, p.2)
      else bif Nat.beq n 43 then (operand fuel r).map fun p => (.pos p.1, p.2)
      else bif Nat.beq n 126 then (operand fuel r).map fun p => (.inv p.1, p.2)
      else bif Nat.beq n (n% "...") then some (.ellipsis, r)
      else none
    | _ => none
/-- Calls, subscripts and attributes behind `e`. -/
def suffix : Nat → Expr → List Tok → Option (Expr × List Tok)
  | 0, _, _ => none
  | fuel + 1, e, ts =>
    match ts with
    | .op n :: r =>
      bif Nat.beq n 40 then
        match elements fuel 41 r with
        | some (es, _, r) => suffix fuel (.call e es) r
        | none => none
      else bif Nat.beq n 46 then
        match r with
        | .id x :: r => suffix fuel (.attr e x) r
        | _ => none
      else bif Nat.beq n 91 then
        match r with
        | .op 58 :: r =>
          match expr fuel 0 r with
          | some (b, .op 93 :: r) => suffix fuel (.slice e .nil b) r
          | _ => none
        | r =>
          match elements fuel 93 r with
          | some (.cons (.slice .nil a b) .nil, false, r) => suffix fuel (.slice e a b) r
          | some (.cons i .nil, false, r) => suffix fuel (.index e i) r
          | some (es, _, r) => suffix fuel (.index e (.tuple es)) r
          | none => none
      else some (e, ts)
    | _ => some (e, ts)
/-- Elements between commas up to the closing token `q`, and whether a comma was read: expressions, `name=value`, `key: value`, bounds
of a slice, `*e`, `**e`, `e for x in y`. -/
def elements : Nat → Nat → List Tok → Option (Expr × Bool × List Tok)
  | 0, _, _ => none
  | fuel + 1, q, ts =>
    match ts with
    | .op n :: r => bif Nat.beq n q then some (.nil, false, r) else element fuel q ts
    | ts => element fuel q ts
/-- At least one element. -/
def element : Nat → Nat → List Tok → Option (Expr × Bool × List Tok)
  | 0, _, _ => none
  | fuel + 1, q, ts =>
    let first : Option (Expr × List Tok) :=
      match ts with
      | .id x :: .op 61 :: r => (expr fuel 0 r).map fun p => (.kwarg x p.1, p.2)
      | .op 42 :: r => (expr fuel 0 r).map fun p => (.star p.1, p.2)
      | .op 5418 :: r => (expr fuel 0 r).map fun p => (.dstar p.1, p.2)
      | ts => expr fuel 0 ts
    match first with
    | none => none
    | some (e, r) =>
      let whole : Option (Expr × List Tok) :=
        match r with
        | .op 58 :: .op 93 :: r => some (.slice .nil e .nil, .op 93 :: r)
        | .op 58 :: r =>
          (expr fuel 0 r).map fun p => (bif Nat.beq q 93 then .slice .nil e p.1 else .item e p.1, p.2)
        | .id n :: r' =>
          bif Nat.beq n (n% "for") then
            match expr fuel 5 r' with
            | some (x, .id m :: r) =>
              bif Nat.beq m (n% "in") then (expr fuel 1 r).map fun p => (.comp e x p.1, p.2) else none
            | _ => none
          else some (e, r)
        | r => some (e, r)
      match whole with
      | none => none
      | some (e, r) =>
        match r with
        | .op n :: r =>
          bif Nat.beq n q then some (.cons e .nil, false, r)
          else bif Nat.beq n 44 then (elements fuel q r).map fun p => (.cons e p.1, true, p.2.2)
          else none
        | _ => none
/-- An expression of operators that bind at least as tightly as `p`. -/
def expr : Nat → Nat → List Tok → Option (Expr × List Tok)
  | 0, _, _ => none
  | fuel + 1, p, ts =>
    match operand fuel ts with
    | some (e, r) => more fuel p e r
    | none => none
/-- The operators and operands after an expression. Comparisons are not chained. -/
def more : Nat → Nat → Expr → List Tok → Option (Expr × List Tok)
  | 0, _, _, _ => none
  | fuel + 1, p, e, ts =>
    match ts with
    | [] => some (e, ts)
    | t :: r =>
      let lv := level t
      bif Nat.beq lv 0 then
        bif Nat.beq p 0 && isWord (n% "if") t then
          match expr fuel 1 r with
          | some (c, r) =>
            match expect (n% "else") r with
            | some r => (expr fuel 0 r).map fun q => (.cond c e q.1, q.2)
            | none => none
          | none => none
        else some (e, ts)
      else bif Nat.ble p lv then
        bif Nat.ble lv 2 then
          match expr fuel (lv + 1) r with
          | some (e', r') => more fuel p (bif Nat.beq lv 1 then .or e e' else .and e e') r'
          | none => none
        else
          match operator t r with
          | some (o, r) =>
            match expr fuel (lv + 1) r with
            | some (e', r') =>
              bif Nat.beq lv 4 && Nat.beq (level (r'.headD (.line 0))) 4 then none else more fuel p (.bin o e e') r'
            | none => none
          | none => none
      else some (e, ts)
end

/-- Expressions between commas, without parentheses: one alone is itself, otherwise they are a tuple. -/
def exprs : Nat → List Tok → Option (Expr × List Tok)
  | fuel, ts =>
    match expr fuel 0 ts with
    | some (e, .op 44 :: r) => (rest fuel r).map fun p => (.tuple (.cons e p.1), p.2)
    | o => o
where
  /-- The expressions after a comma; there may be none. -/
  rest : Nat → List Tok → Option (Expr × List Tok)
    | 0, _ => none
    | fuel + 1, ts =>
      match expr (fuel + 1) 0 ts with
      | some (e, .op 44 :: r) => (rest fuel r).map fun p => (.cons e p.1, p.2)
      | some (e, r) => some (.cons e .nil, r)
      | none => some (.nil, ts)

/-- Parameters up to the closing parenthesis; annotations are dropped. -/
def params : Nat → List Tok → Option (Expr × List Tok)
  | 0, _ => none
  | _ + 1, .op 41 :: r => some (.nil, r)
  | fuel + 1, ts =>
    let first : Option (Nat × Nat × List Tok) :=
      match ts with
      | .op 42 :: .id x :: r => some (1, x, r)
      | .op 5418 :: .id x :: r => some (2, x, r)
      | .id x :: r => some (0, x, r)
      | _ => none
    match first with
    | none => none
    | some (k, x, r) =>
      let typed : Option (List Tok) :=
        match r with
        | .op 58 :: r => (expr fuel 0 r).map Prod.snd
        | r => some r
      match typed with
      | none => none
      | some r =>
        let whole : Option (Expr × List Tok) :=
          match r with
          | .op 61 :: r => (expr fuel 0 r).map fun p => (.kwarg x p.1, p.2)
          | r => some (bif Nat.beq k 0 then .name x else bif Nat.beq k 1 then .star (.name x) else .dstar (.name x), r)
        match whole with
        | some (e, .op 44 :: r) => (params fuel r).map fun p => (.cons e p.1, p.2)
        | some (e, .op 41 :: r) => some (.cons e .nil, r)
        | _ => none

/-- Names between commas. -/
def names : Nat → List Tok → Option (Expr × List Tok)
  | 0, _ => none
  | _ + 1, .op 42 :: r => some (.nil, r)
  | fuel + 1, .id x :: .op 44 :: r => (names fuel r).map fun p => (.cons (.name x) p.1, p.2)
  | _ + 1, .id x :: r => some (.cons (.name x) .nil, r)
  | _, _ => none

/-- The operator of `+=` and the like. -/
def augOp (n : Nat) : Option Op := bif Nat.beq (n % 128) 61 then sign (n / 128) else none

/-- Assignments and expressions as statements. -/
def assignment (fuel : Nat) (ts : List Tok) : Option (Stmt × List Tok) :=
  match exprs fuel ts with
  | none => none
  | some (x, r) =>
    match r with
    | .op n :: r' =>
      bif Nat.beq n 61 then (exprs fuel r').map fun p => (.assign x p.1, p.2)
      else bif Nat.beq n 58 then
        match expr fuel 0 r' with
        | some (_, .op 61 :: r) => (exprs fuel r).map fun p => (.assign x p.1, p.2)
        | some (_, r) => some (.decl x, r)
        | none => none
      else
        match augOp n with
        | some o => (exprs fuel r').map fun p => (.aug o x p.1, p.2)
        | none => none
    | r => some (.expr x, r)

/-- Whether a line ends here. -/
def atEnd : List Tok → Bool
  | [] => true
  | .line _ :: _ => true
  | _ => false

/-- Statements on one line. -/
def simple (fuel : Nat) (ts : List Tok) : Option (Stmt × List Tok) :=
  match ts with
  | .id n :: r =>
    bif Nat.beq n (n% "return") then
      bif atEnd r then some (.ret (.name (n% "None")), r) else (exprs fuel r).map fun p => (.ret p.1, p.2)
    else bif Nat.beq n (n% "yield") then (exprs fuel r).map fun p => (.yield p.1, p.2)
    else bif Nat.beq n (n% "assert") then (exprs fuel r).map fun p => (.assert p.1, p.2)
    else bif Nat.beq n (n% "raise") then (exprs fuel r).map fun p => (.raise p.1, p.2)
    else bif Nat.beq n (n% "del") then (exprs fuel r).map fun p => (.del p.1, p.2)
    else bif Nat.beq n (n% "pass") then some (.pass, r)
    else bif Nat.beq n (n% "break") then some (.brk, r)
    else bif Nat.beq n (n% "continue") then some (.cont, r)
    else bif Nat.beq n (n% "import") then
      match r with
      | .id m :: r => some (.imp m, r)
      | _ => none
    else bif Nat.beq n (n% "from") then
      match r with
      | .op 46 :: .id m :: .id i :: r => bif Nat.beq i (n% "import") then (names fuel r).map fun p => (.imps m p.1, p.2) else none
      | .id _ :: .op 46 :: .id m :: .id i :: r => bif Nat.beq i (n% "import") then (names fuel r).map fun p => (.imp m, p.2) else none
      | .id m :: .id i :: r => bif Nat.beq i (n% "import") then (names fuel r).map fun p => (.imp m, p.2) else none
      | _ => none
    else assignment fuel ts
  | ts => assignment fuel ts

mutual
/-- A statement that begins a line with indentation `k`. -/
def stmt : Nat → Nat → List Tok → Option (Stmt × List Tok)
  | 0, _, _ => none
  | fuel + 1, k, ts =>
    match ts with
    | .op 64 :: r =>
      match expr fuel 0 r with
      | some (e, .line _ :: r) => (stmt fuel k r).map fun p => (.deco e p.1, p.2)
      | _ => none
    | .id n :: r =>
      bif Nat.beq n (n% "def") then
        match r with
        | .id x :: .op 40 :: r =>
          match params fuel r with
          | some (ps, .op 58 :: r) => (suite fuel k r).map fun p => (.defn x ps p.1, p.2)
          | some (ps, .op 5822 :: r) =>
            match expr fuel 0 r with
            | some (_, .op 58 :: r) => (suite fuel k r).map fun p => (.defn x ps p.1, p.2)
            | _ => none
          | _ => none
        | _ => none
      else bif Nat.beq n (n% "if") then ifs fuel k r
      else bif Nat.beq n (n% "while") then
        match expr fuel 0 r with
        | some (c, .op 58 :: r) => (suite fuel k r).map fun p => (.while c p.1, p.2)
        | _ => none
      else bif Nat.beq n (n% "for") then
        match targets fuel r with
        | some (x, r) =>
          match exprs fuel r with
          | some (it, .op 58 :: r) => (suite fuel k r).map fun p => (.for x it p.1, p.2)
          | _ => none
        | none => none
      else bif Nat.beq n (n% "class") then
        match r with
        | .id x :: .op 58 :: r => (suite fuel k r).map fun p => (.cls x .nil p.1, p.2)
        | .id x :: .op 40 :: r =>
          match elements fuel 41 r with
          | some (bs, _, .op 58 :: r) => (suite fuel k r).map fun p => (.cls x bs p.1, p.2)
          | _ => none
        | _ => none
      else simple fuel ts
    | ts => simple fuel ts
/-- The variables of a loop, up to `in`. -/
def targets : Nat → List Tok → Option (Expr × List Tok)
  | 0, _ => none
  | fuel + 1, ts =>
    match expr fuel 5 ts with
    | some (x, .op 44 :: r) =>
      match targets fuel r with
      | some (.tuple xs, r) => some (.tuple (.cons x xs), r)
      | some (y, r) => some (.tuple (.cons x (.cons y .nil)), r)
      | none => none
    | some (x, r) => (expect (n% "in") r).map fun r => (x, r)
    | none => none
/-- `if` and `elif`. -/
def ifs : Nat → Nat → List Tok → Option (Stmt × List Tok)
  | 0, _, _ => none
  | fuel + 1, k, ts =>
    match expr fuel 0 ts with
    | some (c, .op 58 :: r) =>
      match suite fuel k r with
      | some (t, r) =>
        match r with
        | .line j :: .id n :: r' =>
          bif Nat.beq j k && Nat.beq n (n% "elif") then (ifs fuel k r').map fun p => (.ifs c t (.seq p.1 .skip), p.2)
          else bif Nat.beq j k && Nat.beq n (n% "else") then
            match r' with
            | .op 58 :: r' => (suite fuel k r').map fun p => (.ifs c t p.1, p.2)
            | _ => none
          else some (.ifs c t .skip, r)
        | r => some (.ifs c t .skip, r)
      | none => none
    | _ => none
/-- What follows the colon of a compound statement with indentation `k`. -/
def suite : Nat → Nat → List Tok → Option (Stmt × List Tok)
  | 0, _, _ => none
  | fuel + 1, k, ts =>
    match ts with
    | .line j :: _ => bif Nat.ble j k then none else block fuel j ts
    | ts => (simple fuel ts).map fun p => (.seq p.1 .skip, p.2)
/-- The lines with indentation `k`. -/
def block : Nat → Nat → List Tok → Option (Stmt × List Tok)
  | 0, _, _ => none
  | fuel + 1, k, ts =>
    match ts with
    | .line j :: r =>
      bif Nat.beq j k then
        match stmt fuel k r with
        | some (s, r) => bif atEnd r then (block fuel k r).map fun p => (.seq s p.1, p.2) else none
        | none => none
      else some (.skip, ts)
    | ts => some (.skip, ts)
end

/-- The statements of a module. -/
def parse (text : Str) : Option Stmt :=
  match lex text with
  | none => none
  | some ts =>
    match block (ts.length + 8) 0 ts with
    | some (s, []) => some s
    | _ => none

end Verif.PySyntax

import Verif.Model.AnyInt
import Verif.Model.PyLists
import Verif.Model.PySyntax
/-!
# What Python does with the statements of a module

A model of the execution of the part of Python that the modules of the library use (The Python Language Reference, 4 "Execution model", 6 to 8),
on the syntax of `Model/PySyntax`. What is not modelled makes the execution `stuck`, so that nothing can be proved about it. Simplifications:

- Lists and objects are values: two variables never share one. (A list that a function of the library changes is bound to one variable.)
- A name that a function assigns to later, and reads before, is looked up in the module; Python raises `UnboundLocalError`.
- A default value of a parameter is evaluated at the call.
- A generator function returns the list of all values that it yields.
- The long lists of numbers of the data modules are kept outside of the values, as in `Model/Table`.
- Calls are nested at most as deep, and a `while` loop runs at most as often, as the first argument of `run` says; otherwise the execution
  is `stuck`.
- A method of something that is not modelled (`other`) returns something that is not modelled. (Only `sstruct.calcsize`.)
- A `bytes` object is the list of its bytes, a literal with the prefix `b` a text. A range with a step is the list of its numbers.
- In the braces of an f-string are a variable with a text, a variable with an int and the format `04X`, `05X` or `06X`, or `x.f(y)` for
  variables `x` and `y`.
- No class has a method `__bool__` or `__len__`.
- Floats are written as the operations that gave them; `Flt.value` is the number, for any way of rounding.
-/
namespace Verif.PyRun
open Verif.PySyntax

/-- Why there is no result: an exception, or something that is not modelled. -/
inductive Err | raised (e : PyErr) | stuck
  deriving DecidableEq, Repr

/-- Results. -/
abbrev R (α : Type) := Except Err α

/-- A result of the other models. -/
def lift {α : Type} : Py α → R α
  | .ok a => .ok a
  | .error e => .error (.raised e)

/-- Floats: the float of an int, that of a decimal number, the quotient of two ints, and products. -/
inductive Flt
  | ofInt (i : Int) | lit (n d : Nat) | quot (a b : Int) | mul (x y : Flt)
  deriving DecidableEq

/-- The number, where `rnd` rounds a number to a float. -/
def Flt.value (rnd : Rat → Rat) : Flt → Rat
  | .ofInt i => rnd i
  | .lit n d => rnd ((n : Rat) / (d : Rat))
  | .quot a b => rnd ((a : Rat) / (b : Rat))
  | .mul x y => rnd (x.value rnd * y.value rnd)

/-- Values. The elements of lists and tuples are chains of `cons`, the attributes of objects chains of `field`. `arr k a n` is the list or
tuple of the `n` numbers from index `a` on of table `k`; `other` is something that is not modelled. -/
inductive Val
  | int (i : Int) | bool (b : Bool) | none | str (s : Str) | flt (q : Flt)
  | arr (k a n : Nat) | range (a b : Int) | list (vs : Val) | tuple (vs : Val) | nil | cons (v vs : Val)
  | dict (items : Val) | item (k v : Val) | other
  | cls (m c : Nat) | obj (m c : Nat) (fields : Val) | field (x : Nat) (v rest : Val)
  deriving DecidableEq

/-- What the names of modules and classes stand for: values, functions and classes, with the module where they were defined. -/
inductive Def
  | val (v : Val) | fn (m : Nat) (params : Expr) (body : Stmt) (isClassMethod : Bool) | cls (m : Nat)
  deriving DecidableEq

/-- The names of a module. The first number is the class that a name belongs to, 0 for the module itself. The latest come first. -/
abbrev Scope := List (Nat × Nat × Def)

/-- The modules and the tables. -/
structure World where
  modules : List (Nat × Scope)
  tables : Nat → Arr

/-- A name of class `k`. -/
def Scope.find (k x : Nat) : Scope → Option Def
  | [] => .none
  | (k', x', d) :: s => if k' = k ∧ x' = x then some d else Scope.find k x s

/-- The names of a module. -/
def World.scope (w : World) (m : Nat) : Scope := (w.modules.lookup m).getD []

/-- A name of class `k` of module `m`. -/
def World.find (w : World) (m k x : Nat) : Option Def := (w.scope m).find k x

/-- The variables of a function. -/
abbrev Env := List (Nat × Val)

/-- The value of a variable. -/
def getVar (x : Nat) : Env → Option Val
  | [] => .none
  | (y, v) :: e => if y = x then some v else getVar x e

/-- Assigning to a variable. -/
def setVar (x : Nat) (v : Val) : Env → Env
  | [] => [(x, v)]
  | (y, u) :: e => if y = x then (y, v) :: e else (y, u) :: setVar x v e

/-- An attribute that is stored in an object. -/
def Val.getField (x : Nat) : Val → Option Val
  | .field y v rest => if y = x then some v else rest.getField x
  | _ => .none

/-- Storing an attribute. -/
def Val.setField (x : Nat) (v : Val) : Val → Val
  | .field y u rest => if y = x then .field y v rest else .field y u (Val.setField x v rest)
  | _ => .field x v .nil

/-- The elements of a chain. -/
def Val.elems : Val → List Val
  | .cons v vs => v :: vs.elems
  | _ => []

/-- The chain of some elements. -/
def chain : List Val → Val
  | [] => .nil
  | v :: vs => .cons v (chain vs)

/-- `bool(v)`. -/
def Val.truth : Val → R Bool
  | .int i => .ok (decide (i ≠ 0))
  | .bool b => .ok b
  | .none => .ok false
  | .str s => .ok (!s.isEmpty)
  | .list .nil => .ok false
  | .list (.cons _ _) => .ok true
  | .obj _ _ _ => .ok true
  | _ => .error .stuck

/-- Numbers as floats. -/
def Val.float : Val → Option Flt
  | .int i => some (.ofInt i)
  | .flt q => some q
  | _ => .none

/-- `a < b` -/
def intLt : Int → Int → Bool
  | .ofNat a, .ofNat b => decide (a < b)
  | .ofNat _, .negSucc _ => false
  | .negSucc _, .ofNat _ => true
  | .negSucc a, .negSucc b => decide (b < a)

/-- Operators on ints; `/` and the other operators are below. -/
def Op.ints : Op → Int → Int → R Val
  | .add, a, b => .ok (.int (a + b))
  | .sub, a, b => .ok (.int (a - b))
  | .mul, a, b => .ok (.int (a * b))
  | .floorDiv, a, b => if b = 0 then .error (.raised .zeroDivisionError) else .ok (.int (a.fdiv b))
  | .mod, a, b => if b = 0 then .error (.raised .zeroDivisionError) else .ok (.int (a.fmod b))
  | .shl, a, b => if b < 0 then .error (.raised .valueError) else .ok (.int (a * 2 ^ b.toNat))
  | .shr, a, b => if b < 0 then .error (.raised .valueError) else .ok (.int (a / 2 ^ b.toNat))
  | .and, a, b => .ok (.int (pyAnd a b))
  | .or, a, b => .ok (.int (PyExpr.pyOr a b))
  | .xor, a, b => .ok (.int (PyExpr.pyXor a b))
  | .eq, a, b => .ok (.bool (decide (a = b)))
  | .ne, a, b => .ok (.bool (decide (a ≠ b)))
  | .lt, a, b => .ok (.bool (intLt a b))
  | .le, a, b => .ok (.bool (!intLt b a))
  | .gt, a, b => .ok (.bool (intLt b a))
  | .ge, a, b => .ok (.bool (!intLt a b))
  | _, _, _ => .error .stuck

/-- Operators. -/
def Op.apply (o : Op) (l r : Val) : R Val :=
  match l, r with
  | .int a, .int b =>
    match o with
    | .div => if b = 0 then .error (.raised .zeroDivisionError) else .ok (.flt (.quot a b))
    | o => Op.ints o a b
  | .str a, .str b =>
    match o with
    | .add => .ok (.str (a ++ b))
    | .eq => .ok (.bool (decide (a = b)))
    | .ne => .ok (.bool (decide (a ≠ b)))
    | _ => .error .stuck
  | .int a, .range b c =>
    match o with
    | .in' => .ok (.bool (!intLt a b && intLt a c))
    | .notIn => .ok (.bool !(!intLt a b && intLt a c))
    | _ => .error .stuck
  | l, .none =>
    match o with
    | .is => .ok (.bool (decide (l = .none)))
    | .isNot => .ok (.bool (decide (l ≠ .none)))
    | _ => .error .stuck
  | l, r =>
    match o, l.float, r.float with
    | .mul, some a, some b => .ok (.flt (.mul a b))
    | _, _, _ => .error .stuck

/-- The value of a key; of two equal keys the later one counts. -/
def find (k : Val) : List Val → Option Val
  | [] => .none
  | .item k' v :: items => (find k items).or (if k' = k then some v else .none)
  | _ => .none

/-- `v[i]`. -/
def index (w : World) (v i : Val) : R Val :=
  match v, i with
  | .arr k a n, .int i => do
    let e ← lift (Arr.getInt ⟨n, fun j => (w.tables k).at' (a + j)⟩ i)
    .ok (.int e)
  | .list vs, .int i => lift (pyGet vs.elems i)
  | .tuple vs, .int i => lift (pyGet vs.elems i)
  | .dict items, .int i =>
    match find (.int i) items.elems with
    | some v => .ok v
    | .none => .error (.raised .keyError)
  | _, _ => .error .stuck

/-- A bound of a slice of `n` elements. -/
def bound (n : Nat) (i : Int) : Nat := if i < 0 then (n + i).toNat else min i.toNat n

/-- `v[a:b]`; a bound that is missing is `nil`. -/
def slice (v a b : Val) : R Val :=
  match v, a, b with
  | .arr k s n, .nil, .int j => .ok (.arr k s (bound n j))
  | .arr k s n, .int i, .nil => .ok (.arr k (s + bound n i) (n - bound n i))
  | .list vs, .int i, .int j => .ok (.list (chain ((vs.elems.take (bound vs.elems.length j)).drop (bound vs.elems.length i))))
  | _, _, _ => .error .stuck

/-- The characters of some texts one after the other. -/
def concat : List Val → R Str
  | [] => .ok []
  | .str s :: vs => (concat vs).map (s ++ ·)
  | _ => .error .stuck

/-- The numbers of a range with step `s`: `n` numbers from `a` on. -/
def steps (a s : Int) : Nat → List Val
  | 0 => []
  | n + 1 => .int a :: steps (a + s) s n

/-- The number of elements of a range. -/
def rangeLength (a b s : Int) : Nat := if 0 < s then ((b - a + (s - 1)) / s).toNat else ((a - b + (-s - 1)) / -s).toNat

/-- Built-in functions. -/
def builtin (x : Nat) (args : Val) : R Val :=
  match args with
  | .cons v .nil =>
    if x = n% "len" then
      match v with
      | .arr _ _ n => .ok (.int n)
      | .str s => .ok (.int s.length)
      | .list vs => .ok (.int vs.elems.length)
      | .tuple vs => .ok (.int vs.elems.length)
      | _ => .error .stuck
    else if x = n% "chr" then
      match v with
      | .int i => if 0 ≤ i ∧ i ≤ 0x10FFFF then .ok (.str [i.toNat]) else .error (.raised .valueError)
      | _ => .error .stuck
    else if x = n% "ord" then
      match v with
      | .str [c] => .ok (.int c)
      | _ => .error .stuck
    else if x = n% "range" then
      match v with
      | .int i => .ok (.range 0 i)
      | _ => .error .stuck
    else .error .stuck
  | .cons (.int a) (.cons (.int b) .nil) =>
    if x = n% "range" then .ok (.range a b)
    else if x = n% "min" then .ok (.int (if b < a then b else a))
    else if x = n% "max" then .ok (.int (if b > a then b else a))
    else .error .stuck
  | .cons (.int a) (.cons (.int b) (.cons (.int s) .nil)) =>
    if x = n% "range" then if s = 0 then .error (.raised .valueError) else .ok (.list (chain (steps a s (rangeLength a b s))))
    else .error .stuck
  | _ => .error .stuck

/-- The numbers of a range. -/
def rangeList (a b : Int) : List Val := (List.range (b - a).toNat).map fun (i : Nat) => .int (a + (i : Int))

/-- The values that a loop runs through. -/
def iter (w : World) (v : Val) : R (List Val) :=
  match v with
  | .range a b => .ok (rangeList a b)
  | .arr k a n => .ok ((List.range n).map fun j => .int ((w.tables k).at' (a + j)))
  | .list vs => .ok vs.elems
  | .tuple vs => .ok vs.elems
  | _ => .error .stuck

/-- Calling a function: its module, parameters and body and the arguments; the results are the value and the variables at the end. -/
abbrev Call := Nat → Expr → Stmt → Val → R (Val × Env)

/-- A name in a function of module `m`. -/
def nameValue (w : World) (m : Nat) (env : Env) (x : Nat) : R Val :=
  match getVar x env with
  | some v => .ok v
  | .none =>
    match w.find m 0 x with
    | some (.val v) => .ok v
    | some (.cls m') => .ok (.cls m' x)
    | some (.fn _ _ _ _) => .error .stuck
    | .none =>
      if x = n% "True" then .ok (.bool true) else if x = n% "False" then .ok (.bool false) else if x = n% "None" then .ok .none
      else .error .stuck

/-- `v.x` -/
def attr (w : World) (v : Val) (x : Nat) : R Val :=
  match v with
  | .obj m c fields =>
    match fields.getField x with
    | some v => .ok v
    | .none =>
      match w.find m c x with
      | some (.val v) => .ok v
      | _ => .error .stuck
  | .cls m c =>
    match w.find m c x with
    | some (.val v) => .ok v
    | _ => .error .stuck
  | .range a b => if x = n% "start" then .ok (.int a) else if x = n% "stop" then .ok (.int b) else .error .stuck
  | _ => .error .stuck

/-- `f(args)` for a name `f` that is not a variable. -/
def callName (w : World) (call : Call) (m : Nat) (f : Nat) (args : Val) : R Val :=
  match w.find m 0 f with
  | some (.fn m' ps body _) => (call m' ps body args).map Prod.fst
  | some (.cls m') =>
    match w.find m' f (n% "__init__") with
    | some (.fn m'' ps body _) => do
      let r ← call m'' ps body (.cons (.obj m' f .nil) args)
      match getVar (n% "self") r.2 with
      | some v => .ok v
      | .none => .error .stuck
    | _ => .error .stuck
  | some (.val _) => .error .stuck
  | .none => builtin f args

/-- `bytes.split` with one byte. -/
def splitAt (c : Val) : List Val → List (List Val)
  | [] => [[]]
  | v :: vs =>
    if v = c then [] :: splitAt c vs
    else
      match splitAt c vs with
      | [] => [[v]]
      | us :: uss => (v :: us) :: uss

/-- `v.f(args)` -/
def callMethod (w : World) (call : Call) (v : Val) (f : Nat) (args : Val) : R Val :=
  match v with
  | .obj m c _ =>
    match w.find m c f with
    | some (.fn m' ps body false) => (call m' ps body (.cons v args)).map Prod.fst
    | some (.fn m' ps body true) => (call m' ps body (.cons (.cls m c) args)).map Prod.fst
    | _ => .error .stuck
  | .cls m c =>
    match w.find m c f with
    | some (.fn m' ps body true) => (call m' ps body (.cons v args)).map Prod.fst
    | _ => .error .stuck
  | .str [] =>
    match args with
    | .cons (.list vs) .nil => if f = n% "join" then (concat vs.elems).map .str else .error .stuck
    | _ => .error .stuck
  | .list vs =>
    match args with
    | .cons (.str [c]) .nil => if f = n% "split" then .ok (.list (chain ((splitAt (.int c) vs.elems).map fun us => .list (chain us)))) else .error .stuck
    | _ => .error .stuck
  | .other => .ok .other
  | _ => .error .stuck

/-- The hexadecimal digit for a number below 16, in upper case. -/
def hexDigit (d : Nat) : Nat := if d < 10 then 48 + d else 55 + d

/-- The hexadecimal digits of a number, in front of others. -/
def hexDigits : Nat → Nat → Str → Str
  | 0, _, s => s
  | f + 1, n, s => if n < 16 then hexDigit n :: s else hexDigits f (n / 16) (hexDigit (n % 16) :: s)

/-- `format(i, "0kX")` -/
def hexFormat (k : Nat) (i : Int) : Str :=
  if 0 ≤ i then let s := hexDigits (i.toNat + 1) i.toNat []; List.replicate (k - s.length) 48 ++ s
  else let s := hexDigits ((-i).toNat + 1) (-i).toNat []; 45 :: (List.replicate (k - 1 - s.length) 48 ++ s)

/-- Up to a character that ends something. -/
def upTo (e : Nat) : Str → Str × Str
  | [] => ([], [])
  | c :: s => if c = e then ([], s) else let p := upTo e s; (c :: p.1, p.2)

/-- What stands between the braces of an f-string. -/
def format (w : World) (call : Call) (env : Env) (s : Str) : R Str :=
  match upTo 58 s with
  | (x, [48, k, 88]) =>
    match getVar (word x) env with
    | some (.int i) => if k = 52 ∨ k = 53 ∨ k = 54 then .ok (hexFormat (k - 48) i) else .error .stuck
    | _ => .error .stuck
  | (_, []) =>
    match upTo 46 s with
    | (x, []) =>
      match getVar (word x) env with
      | some (.str t) => .ok t
      | _ => .error .stuck
    | (x, t) =>
      match getVar (word x) env, getVar (word (upTo 41 (upTo 40 t).2).1) env with
      | some v, some u => do
        match ← callMethod w call v (word (upTo 40 t).1) (.cons u .nil) with
        | .str r => .ok r
        | _ => .error .stuck
      | _, _ => .error .stuck
  | _ => .error .stuck

/-- An f-string. -/
def formats (w : World) (call : Call) (env : Env) : Nat → Str → R Str
  | 0, _ => .error .stuck
  | _ + 1, [] => .ok []
  | f + 1, c :: s =>
    if c = 123 then do
      let t ← format w call env (upTo 125 s).1
      let r ← formats w call env f (upTo 125 s).2
      .ok (t ++ r)
    else (formats w call env f s).map (c :: ·)

/-- The value of an expression in a function of module `m`. -/
def eval (w : World) (call : Call) (m : Nat) (env : Env) : Expr → R Val
  | .num n => .ok (.int n)
  | .flt n d => .ok (.flt (.lit n d))
  | .str s => .ok (.str s)
  | .fstr s => (formats w call env (s.length + 1) s).map .str
  | .name x => nameValue w m env x
  | .neg e => do
    match ← eval w call m env e with
    | .int a => .ok (.int (-a))
    | _ => .error .stuck
  | .inv e => do
    match ← eval w call m env e with
    | .int a => .ok (.int (-a - 1))
    | _ => .error .stuck
  | .not e => do
    let v ← eval w call m env e
    let b ← v.truth
    .ok (.bool (!b))
  | .bin o l r => do
    let a ← eval w call m env l
    let b ← eval w call m env r
    Op.apply o a b
  | .and l r => do
    let a ← eval w call m env l
    let b ← a.truth
    if b then eval w call m env r else .ok a
  | .or l r => do
    let a ← eval w call m env l
    let b ← a.truth
    if b then .ok a else eval w call m env r
  | .cond c t e => do
    let v ← eval w call m env c
    let b ← v.truth
    if b then eval w call m env t else eval w call m env e
  | .attr e x => do
    let v ← eval w call m env e
    attr w v x
  | .index e i => do
    let v ← eval w call m env e
    let i ← eval w call m env i
    index w v i
  | .slice e a b => do
    let v ← eval w call m env e
    let a ← eval w call m env a
    let b ← eval w call m env b
    slice v a b
  | .tuple es => do
    let vs ← eval w call m env es
    .ok (.tuple vs)
  | .list es => do
    let vs ← eval w call m env es
    .ok (.list vs)
  | .dict es => do
    let vs ← eval w call m env es
    .ok (.dict vs)
  | .item e e' => do
    let k ← eval w call m env e
    let v ← eval w call m env e'
    .ok (.item k v)
  | .nil => .ok .nil
  | .cons e es => do
    let v ← eval w call m env e
    let vs ← eval w call m env es
    .ok (.cons v vs)
  | .call (.name f) args =>
    match getVar f env with
    | some _ => .error .stuck
    | .none => do
      let vs ← eval w call m env args
      callName w call m f vs
  | .call (.attr e f) args => do
    let v ← eval w call m env e
    let vs ← eval w call m env args
    callMethod w call v f vs
  | _ => .error .stuck

/-- How a statement ends. -/
inductive Flow | next | brk | cont | ret (v : Val)
  deriving DecidableEq

/-- The variables and the values that were yielded. -/
abbrev St := Env × List Val

/-- Assigning to a name, several names or an attribute of a variable. -/
def assign (x : Expr) (v : Val) (env : Env) : R Env :=
  match x with
  | .name x => .ok (setVar x v env)
  | .attr (.name y) x =>
    match getVar y env with
    | some (.obj m c fields) => .ok (setVar y (.obj m c (Val.setField x v fields)) env)
    | _ => .error .stuck
  | .tuple xs =>
    match v with
    | .tuple vs => unpack xs vs env
    | .list vs => unpack xs vs env
    | _ => .error .stuck
  | _ => .error .stuck
where
  /-- One name for each value. -/
  unpack : Expr → Val → Env → R Env
    | .nil, .nil, env => .ok env
    | .cons (.name x) xs, .cons v vs, env => unpack xs vs (setVar x v env)
    | .nil, .cons _ _, _ => .error (.raised .valueError)
    | .cons _ _, .nil, _ => .error (.raised .valueError)
    | _, _, _ => .error .stuck

/-- `while`, at most `n` times. -/
def loop (cond : Env → R Bool) (body : St → R (Flow × St)) : Nat → St → R (Flow × St)
  | 0, _ => .error .stuck
  | n + 1, s => do
    let b ← cond s.1
    if b then
      let r ← body s
      match r.1 with
      | .next => loop cond body n r.2
      | .cont => loop cond body n r.2
      | .brk => .ok (.next, r.2)
      | .ret v => .ok (.ret v, r.2)
    else .ok (.next, s)

/-- `for`. -/
def each (x : Expr) (body : St → R (Flow × St)) : List Val → St → R (Flow × St)
  | [], s => .ok (.next, s)
  | v :: vs, s => do
    let env ← assign x v s.1
    let r ← body (env, s.2)
    match r.1 with
    | .next => each x body vs r.2
    | .cont => each x body vs r.2
    | .brk => .ok (.next, r.2)
    | .ret v => .ok (.ret v, r.2)

/-- Statements as expressions: only `x.append(e)` and `x.insert(0, e)` have an effect. -/
def effect (w : World) (call : Call) (m : Nat) (e : Expr) (env : Env) : R Env :=
  match e with
  | .call (.attr (.name x) f) (.cons e .nil) =>
    if f = n% "append" then
      match getVar x env with
      | some (.list vs) => do
        let v ← eval w call m env e
        .ok (setVar x (.list (chain (vs.elems ++ [v]))) env)
      | _ => .error .stuck
    else .error .stuck
  | .call (.attr (.name x) f) (.cons (.num 0) (.cons e .nil)) =>
    if f = n% "insert" then
      match getVar x env with
      | some (.list vs) => do
        let v ← eval w call m env e
        .ok (setVar x (.list (.cons v vs)) env)
      | _ => .error .stuck
    else .error .stuck
  | e => do
    let _ ← eval w call m env e
    .ok env

/-- The condition of a loop. -/
def test (w : World) (call : Call) (m : Nat) (c : Expr) (env : Env) : R Bool := do
  let v ← eval w call m env c
  v.truth

/-- Executing a statement. -/
def exec (w : World) (call : Call) (fuel m : Nat) : Stmt → St → R (Flow × St)
  | .skip, s => .ok (.next, s)
  | .pass, s => .ok (.next, s)
  | .brk, s => .ok (.brk, s)
  | .cont, s => .ok (.cont, s)
  | .decl _, s => .ok (.next, s)
  | .seq a b, s => do
    let r ← exec w call fuel m a s
    match r.1 with
    | .next => exec w call fuel m b r.2
    | .brk => .ok (.brk, r.2)
    | .cont => .ok (.cont, r.2)
    | .ret v => .ok (.ret v, r.2)
  | .expr e, s => do
    let env ← effect w call m e s.1
    .ok (.next, (env, s.2))
  | .assign x e, s => do
    let v ← eval w call m s.1 e
    let env ← assign x v s.1
    .ok (.next, (env, s.2))
  | .aug o x e, s => do
    let u ← eval w call m s.1 x
    let v ← eval w call m s.1 e
    let r ← Op.apply o u v
    let env ← assign x r s.1
    .ok (.next, (env, s.2))
  | .ret e, s => do
    let v ← eval w call m s.1 e
    .ok (.ret v, s)
  | .yield e, s => do
    let v ← eval w call m s.1 e
    .ok (.next, (s.1, s.2 ++ [v]))
  | .assert e, s => do
    let v ← eval w call m s.1 e
    let b ← v.truth
    if b then .ok (.next, s) else .error (.raised .assertionError)
  | .ifs c t e, s => do
    let v ← eval w call m s.1 c
    let b ← v.truth
    if b then exec w call fuel m t s else exec w call fuel m e s
  | .while c b, s => loop (test w call m c) (exec w call fuel m b) fuel s
  | .for x it b, s => do
    let v ← eval w call m s.1 it
    let vs ← iter w v
    each x (exec w call fuel m b) vs s
  | _, _ => .error .stuck

/-- Whether a function is a generator. -/
def yields : Stmt → Bool
  | .yield _ => true
  | .seq a b => yields a || yields b
  | .ifs _ t e => yields t || yields e
  | .while _ b => yields b
  | .for _ _ b => yields b
  | _ => false

/-- The variables at the beginning of a call. -/
def arguments (default : Expr → R Val) : Expr → Val → R Env
  | .nil, .nil => .ok []
  | .cons (.name x) ps, .cons v vs => (arguments default ps vs).map ((x, v) :: ·)
  | .cons (.kwarg x _) ps, .cons v vs => (arguments default ps vs).map ((x, v) :: ·)
  | .cons (.kwarg x e) ps, .nil => do
    let v ← default e
    let env ← arguments default ps .nil
    .ok ((x, v) :: env)
  | .cons (.name _) _, .nil => .error (.raised .typeError)
  | .nil, .cons _ _ => .error (.raised .typeError)
  | _, _ => .error .stuck

/-- The result of a call, from how the body ended. -/
def finish (generator : Bool) (f : Flow) (s : St) : R (Val × Env) :=
  if generator then .ok (.list (chain s.2), s.1)
  else
    match f with
    | .ret v => .ok (v, s.1)
    | .next => .ok (.none, s.1)
    | .brk => .error .stuck
    | .cont => .error .stuck

/-- A call with at most `n` calls below it. -/
def run (w : World) : Nat → Call
  | 0, _, _, _, _ => .error .stuck
  | n + 1, m, ps, body, args => do
    let env ← arguments (eval w (run w n) m []) ps args
    let r ← exec w (run w n) n m body (env, [])
    finish (yields body) r.1 r.2

/-- Calling function `f` of module `m`. -/
def callFunction (w : World) (n m f : Nat) (args : List Val) : R Val := callName w (run w n) m f (chain args)

/-! ## Importing -/

/-- Whether the highest digit of the number of a name is the underscore. -/
def hidden : Nat → Nat → Bool
  | 0, _ => false
  | f + 1, x => if x < 128 then decide (x = 95) else hidden f (x / 128)

/-- Whether a name is in a list of names. -/
def wanted : Expr → Nat → Bool
  | .cons (.name y) ys, x => y == x || wanted ys x
  | _, _ => false

/-- The names that `from m import names` binds; without names all that do not begin with an underscore. -/
def imported (names : Expr) (s : Scope) : Scope :=
  match names with
  | .nil => s.filter fun d => d.1 == 0 && !hidden 64 d.2.1
  | names => s.filter fun d => d.1 == 0 && wanted names d.2.1

/-- The constants of class `k`, as variables. -/
def classEnv (k : Nat) : Scope → Env
  | [] => []
  | (k', x, .val v) :: s => if k' = k then (x, v) :: classEnv k s else classEnv k s
  | _ :: s => classEnv k s

/-- The statements of a module, or of class `k` of a module when `k` is not 0. -/
def define (w : World) (n m k : Nat) : Stmt → Scope → R Scope
  | .skip, s => .ok s
  | .seq a b, s => do
    let s ← define w n m k a s
    define w n m k b s
  | .pass, s => .ok s
  | .imp _, s => .ok s
  | .imps i names, s =>
    match w.modules.lookup i with
    | some s' => .ok (imported names s' ++ s)
    | .none => .error .stuck
  | .expr (.str _), s => .ok s
  | .assign (.name x) e, s => do
    let w' := { w with modules := (m, s) :: w.modules }
    let v ← eval w' (run w' n) m (if k = 0 then [] else classEnv k s) e
    .ok ((k, x, .val v) :: s)
  | .defn x ps b, s => .ok ((k, x, .fn m ps b false) :: s)
  | .deco (.name d) (.defn x ps b), s => if d = n% "classmethod" then .ok ((k, x, .fn m ps b true) :: s) else .error .stuck
  | .cls x _ b, s => if k = 0 then (define w n m x b s).map ((0, x, .cls m) :: ·) else .error .stuck
  | _, _ => .error .stuck

/-- Importing a module: its names are added to the world. -/
def importModule (w : World) (n m : Nat) (text : Str) : R World :=
  match parse text with
  | .none => .error .stuck
  | some b => (define w n m 0 b []).map fun s => { w with modules := (m, s) :: w.modules }

/-- The statements before the one that assigns to `x`. -/
def before (x : Nat) : Stmt → Stmt
  | .seq (.assign (.name y) e) b => if y = x then .skip else .seq (.assign (.name y) e) (before x b)
  | .seq a b => .seq a (before x b)
  | s => s

/-- Importing a module that uses names that are not modelled, up to the statement that assigns to `x`; the names of `rest` are added. -/
def importPart (w : World) (n m : Nat) (names : List Nat) (x : Nat) (rest : Scope) (text : Str) : R World :=
  match parse text with
  | .none => .error .stuck
  | some b => (define w n m 0 (before x b) (names.map fun y => (0, y, .val .other))).map fun s =>
    { w with modules := (m, rest ++ s) :: w.modules }

/-- A name with the value that a module of constants gives it. -/
def constant (d : Str × PyExpr.Val) : Nat × Nat × Def :=
  (0, word d.1, .val (match d.2 with | .int i => .int i | .str s => .str s | .fn _ _ => .other))

/-- Importing a module of constants, with the model in Model/PyExpr. -/
def importConstants (w : World) (m : Nat) (text : Str) : R World := do
  let env ← lift (PyExpr.importModule text)
  .ok { w with modules := (m, env.map constant) :: w.modules }

/-- A name with the value that a module of lists gives it. The table has the number of the name. -/
def table (d : Str × PyLists.Val) : Nat × Nat × Def :=
  (0, word d.1, .val (match d.2 with | .int i => .int i | .list l => .arr (word d.1) 0 l.length))

/-- The lists of a module of lists. -/
def tablesOf : List (Str × PyLists.Val) → (Nat → Arr) → Nat → Arr
  | [], f, k => f k
  | (x, .list l) :: env, f, k => if k = word x then Arr.ofList l else tablesOf env f k
  | _ :: env, f, k => tablesOf env f k

/-- Importing a module of lists, with the model in Model/PyLists. -/
def importData (w : World) (m : Nat) (text : Str) : R World := do
  let env ← lift (PyLists.importModule text)
  .ok { w with modules := (m, env.map table) :: w.modules, tables := tablesOf env w.tables }

end Verif.PyRun

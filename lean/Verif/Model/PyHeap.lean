import Verif.Model.PyRun
/-!
# What Python does with statements that change lists and objects

`Model/PyRun` executes the modules whose functions only compute values. This is a model of the execution of a module whose methods change
objects, with a heap: lists and objects are cells, a variable holds the number of a cell, and two variables can hold the same one (The Python
Language Reference, 3.1 "Objects, values and types", 6 to 8; the methods of lists are those of the Library Reference, 4.6 "Sequence Types"). What is
not modelled makes the execution `stuck`. Simplifications:

- The cells at the time of an exception are not part of the result; the module that is executed here catches none.
- A name that a function assigns to later, and reads before, is looked up in the module; Python raises `UnboundLocalError`.
- A default value of a parameter is evaluated at the call.
- A generator function runs to its end when it is called; the cell that it returns has all values that it yields. (`Model/UnicodeSetIter` models
  iterators that are suspended while the object changes.)
- A `for` loop over a list runs through the elements that the list has at the beginning.
- Calls are nested at most as deep, and a `while` loop runs at most as often, as the first argument of `run` says; otherwise the execution
  is `stuck`.
-/
namespace Verif.PyHeap
open Verif.PySyntax
open Verif.PyRun (R Err lift bound)

/-- Values. `range a b s` is a `range` object with step `s`, `ref r` the list or object in cell `r`, `cls` and `mod` a class and a module by name;
`other` is an instance of another type, which is not modelled. -/
inductive Val
  | int (i : Int) | bool (b : Bool) | none | str (s : Str) | range (a b s : Int) | ref (r : Nat) | cls (c : Nat) | mod (m : Nat) | other
  deriving DecidableEq, Repr

/-- Cells: lists, objects with class and attributes, and generators with what they yield. -/
inductive Cell
  | list (vs : List Val) | obj (c : Nat) (fields : List (Nat × Val)) | gen (vs : List Val)
  deriving DecidableEq, Repr

/-- The cells; those from `next` on are free. -/
structure Heap where
  next : Nat
  cell : Nat → Option Cell

/-- No cells. -/
def Heap.empty : Heap := ⟨0, fun _ => .none⟩

/-- A cell is changed. -/
def Heap.set (h : Heap) (r : Nat) (c : Cell) : Heap := ⟨h.next, fun a => if a = r then some c else h.cell a⟩

/-- A new cell, with number `h.next`. -/
def Heap.push (h : Heap) (c : Cell) : Heap := ⟨h.next + 1, fun a => if a = h.next then some c else h.cell a⟩

/-- One thing after the other. -/
def andThen {α β : Type} (x : R (α × Heap)) (f : α → Heap → R (β × Heap)) : R (β × Heap) :=
  match x with
  | .ok (a, h) => f a h
  | .error e => .error e

/-- What the names of the module and of its classes stand for. -/
inductive Def
  | val (v : Val) | fn (params : Expr) (body : Stmt) | cls
  deriving DecidableEq

/-- The names of a module. The first number is the class that a name belongs to, 0 for the module itself. The latest come first. -/
abbrev Scope := List (Nat × Nat × Def)

/-- A name of class `k`. -/
def Scope.find (k x : Nat) : Scope → Option Def
  | [] => .none
  | (k', x', d) :: s => if k' = k ∧ x' = x then some d else Scope.find k x s

/-- The variables of a function. -/
abbrev Env := List (Nat × Val)

/-- The value of a variable, or of an attribute. -/
def getVar (x : Nat) : Env → Option Val
  | [] => .none
  | (y, v) :: e => if y = x then some v else getVar x e

/-- Assigning to a variable or to an attribute. -/
def setVar (x : Nat) (v : Val) : Env → Env
  | [] => [(x, v)]
  | (y, u) :: e => if y = x then (y, v) :: e else (y, u) :: setVar x v e

/-- `bool(v)`. -/
def Val.truth : Val → R Bool
  | .int i => .ok (decide (i ≠ 0))
  | .bool b => .ok b
  | .none => .ok false
  | .str s => .ok (!s.isEmpty)
  | _ => .error .stuck

/-- Calling a function: its parameters and body and the arguments. -/
abbrev Call := Expr → Stmt → List Val → Heap → R (Val × Heap)

/-- Operators on ints. -/
def ints : Op → Int → Int → R Val
  | .add, a, b => .ok (.int (a + b))
  | .sub, a, b => .ok (.int (a - b))
  | .mul, a, b => .ok (.int (a * b))
  | .floorDiv, a, b => if b = 0 then .error (.raised .zeroDivisionError) else .ok (.int (a.fdiv b))
  | .shr, a, b => if b < 0 then .error (.raised .valueError) else .ok (.int (a / 2 ^ b.toNat))
  | .and, a, b => .ok (.int (pyAnd a b))
  | .or, a, b => .ok (.int (PyExpr.pyOr a b))
  | .xor, a, b => .ok (.int (PyExpr.pyXor a b))
  | .eq, a, b => .ok (.bool (decide (a = b)))
  | .ne, a, b => .ok (.bool (decide (a ≠ b)))
  | .lt, a, b => .ok (.bool (decide (a < b)))
  | .le, a, b => .ok (.bool (decide (a ≤ b)))
  | .gt, a, b => .ok (.bool (decide (b < a)))
  | .ge, a, b => .ok (.bool (decide (b ≤ a)))
  | _, _, _ => .error .stuck

/-- The method that an operator calls. -/
def special : Op → Nat
  | .eq => n% "__eq__"
  | .ne => n% "__ne__"
  | .or => n% "__or__"
  | .and => n% "__and__"
  | .sub => n% "__sub__"
  | .xor => n% "__xor__"
  | _ => 0

/-- The method that `|=` and the like call. -/
def inPlace : Op → Nat
  | .or => n% "__ior__"
  | .and => n% "__iand__"
  | .sub => n% "__isub__"
  | .xor => n% "__ixor__"
  | _ => 0

/-- `==` of lists of ints. -/
def listEq : List Val → List Val → R Bool
  | [], [] => .ok true
  | .int a :: us, .int b :: vs => if a = b then listEq us vs else .ok false
  | .int _ :: _, [] => .ok false
  | [], .int _ :: _ => .ok false
  | _, _ => .error .stuck

/-- `l is r` -/
def same : Val → Val → R Bool
  | .none, r => .ok (decide (r = .none))
  | l, .none => .ok (decide (l = .none))
  | .cls a, .cls b => .ok (decide (a = b))
  | .ref a, .ref b => .ok (decide (a = b))
  | _, _ => .error .stuck

/-- A method of the class of an object. -/
def method (w : Scope) (call : Call) (c f : Nat) (args : List Val) (h : Heap) : R (Val × Heap) :=
  match w.find c f with
  | some (.fn ps body) => call ps body args h
  | _ => .error .stuck

/-- `l o r` -/
def apply (w : Scope) (call : Call) (o : Op) (l r : Val) (h : Heap) : R (Val × Heap) :=
  match o with
  | .is => do
    let b ← same l r
    .ok (.bool b, h)
  | .isNot => do
    let b ← same l r
    .ok (.bool !b, h)
  | .in' =>
    match r with
    | .ref y =>
      match h.cell y with
      | some (.obj c _) => andThen (method w call c (n% "__contains__") [r, l] h) fun v h => do
        let b ← v.truth
        .ok (.bool b, h)
      | _ => .error .stuck
    | _ => .error .stuck
  | o =>
    match l, r with
    | .int a, .int b => do
      let v ← ints o a b
      .ok (v, h)
    | .ref x, r =>
      match h.cell x with
      | some (.obj c _) => method w call c (special o) [l, r] h
      | some (.list us) =>
        match o, r with
        | .eq, .ref y =>
          match h.cell y with
          | some (.list vs) => do
            let b ← listEq us vs
            .ok (.bool b, h)
          | _ => .error .stuck
        | _, _ => .error .stuck
      | _ => .error .stuck
    | _, _ => .error .stuck

/-- The index of an element. -/
def position (n : Nat) (i : Int) : Py Nat :=
  if 0 ≤ i then (if i < n then .ok i.toNat else .error .indexError)
  else if -(n : Int) ≤ i then .ok (n + i).toNat else .error .indexError

/-- `v[i]` -/
def index (v i : Val) (h : Heap) : R Val :=
  match v, i with
  | .ref r, .int i =>
    match h.cell r with
    | some (.list vs) => lift (pyGet vs i)
    | _ => .error .stuck
  | _, _ => .error .stuck

/-- `v[i] = u` -/
def setIndex (v i u : Val) (h : Heap) : R Heap :=
  match v, i with
  | .ref r, .int i =>
    match h.cell r with
    | some (.list vs) =>
      match position vs.length i with
      | .ok k => .ok (h.set r (.list (vs.set k u)))
      | .error e => .error (.raised e)
    | _ => .error .stuck
  | _, _ => .error .stuck

/-- The two bounds of a slice of `n` elements; one that is missing is `none`. -/
def bounds (n : Nat) (a b : Val) : R (Nat × Nat) :=
  match a, b with
  | .int i, .int j => .ok (bound n i, max (bound n i) (bound n j))
  | .int i, .none => .ok (bound n i, n)
  | .none, .int j => .ok (0, bound n j)
  | _, _ => .error .stuck

/-- `v[a:b]` -/
def slice (v a b : Val) (h : Heap) : R (Val × Heap) :=
  match v with
  | .ref r =>
    match h.cell r with
    | some (.list vs) => do
      let p ← bounds vs.length a b
      .ok (.ref h.next, h.push (.list ((vs.take p.2).drop p.1)))
    | _ => .error .stuck
  | _ => .error .stuck

/-- The elements between two bounds are replaced. -/
def splice (v a b : Val) (us : List Val) (h : Heap) : R Heap :=
  match v with
  | .ref r =>
    match h.cell r with
    | some (.list vs) => do
      let p ← bounds vs.length a b
      .ok (h.set r (.list (vs.take p.1 ++ us ++ vs.drop p.2)))
    | _ => .error .stuck
  | _ => .error .stuck

/-- The numbers `a`, `a + s` and so on, `n` of them. -/
def steps (a s : Int) : Nat → List Val
  | 0 => []
  | n + 1 => .int a :: steps (a + s) s n

/-- The number of elements of a range. -/
def rangeLength (a b s : Int) : Nat := if 0 < s then ((b - a + (s - 1)) / s).toNat else ((a - b + (-s - 1)) / -s).toNat

/-- The values that a loop runs through. -/
def iter (v : Val) (h : Heap) : R (List Val) :=
  match v with
  | .range a b s => .ok (steps a s (rangeLength a b s))
  | .ref r =>
    match h.cell r with
    | some (.list vs) => .ok vs
    | _ => .error .stuck
  | _ => .error .stuck

/-- `type(v)` -/
def typeOf (v : Val) (h : Heap) : R Val :=
  match v with
  | .int _ => .ok (.cls (n% "int"))
  | .bool _ => .ok (.cls (n% "bool"))
  | .none => .ok (.cls (n% "NoneType"))
  | .str _ => .ok (.cls (n% "str"))
  | .range _ _ _ => .ok (.cls (n% "range"))
  | .cls _ => .ok (.cls (n% "type"))
  | .mod _ => .ok (.cls (n% "module"))
  | .other => .ok (.cls 0)
  | .ref r =>
    match h.cell r with
    | some (.list _) => .ok (.cls (n% "list"))
    | some (.obj c _) => .ok (.cls c)
    | some (.gen _) => .ok (.cls (n% "generator"))
    | .none => .error .stuck

/-- Built-in functions. -/
def builtin (x : Nat) (args : List Val) (h : Heap) : R Val :=
  match args with
  | [v] =>
    if x = n% "len" then
      match v with
      | .ref r =>
        match h.cell r with
        | some (.list vs) => .ok (.int vs.length)
        | _ => .error .stuck
      | _ => .error .stuck
    else if x = n% "range" then
      match v with
      | .int i => .ok (.range 0 i 1)
      | _ => .error .stuck
    else if x = n% "type" then typeOf v h
    else .error .stuck
  | [.int a, .int b] =>
    if x = n% "range" then .ok (.range a b 1)
    else if x = n% "max" then .ok (.int (if b > a then b else a))
    else .error .stuck
  | [.int a, .int b, .int s] =>
    if x = n% "range" then if s = 0 then .error (.raised .valueError) else .ok (.range a b s)
    else .error .stuck
  | _ => .error .stuck

/-- A name in a function. -/
def nameValue (w : Scope) (env : Env) (x : Nat) : R Val :=
  match getVar x env with
  | some v => .ok v
  | .none =>
    match w.find 0 x with
    | some (.val v) => .ok v
    | some .cls => .ok (.cls x)
    | some (.fn _ _) => .error .stuck
    | .none =>
      if x = n% "True" then .ok (.bool true) else if x = n% "False" then .ok (.bool false) else if x = n% "None" then .ok .none
      else if x = n% "int" then .ok (.cls x) else if x = n% "range" then .ok (.cls x)
      else .error .stuck

/-- `v.x`; no value that is not an object has an attribute `list`. -/
def attr (v : Val) (x : Nat) (h : Heap) : R Val :=
  match v with
  | .ref r =>
    match h.cell r with
    | some (.obj _ fields) =>
      match getVar x fields with
      | some v => .ok v
      | .none => .error .stuck
    | _ => .error .stuck
  | .range a b _ =>
    if x = n% "start" then .ok (.int a) else if x = n% "stop" then .ok (.int b)
    else if x = n% "list" then .error (.raised .attributeError) else .error .stuck
  | .cls _ => .error .stuck
  | .mod _ => .error .stuck
  | _ => if x = n% "list" then .error (.raised .attributeError) else .error .stuck

/-- `f(args)` for a name `f` that is not a variable. -/
def callName (w : Scope) (call : Call) (f : Nat) (args : List Val) (h : Heap) : R (Val × Heap) :=
  match w.find 0 f with
  | some (.fn ps body) => call ps body args h
  | some .cls => andThen (method w call f (n% "__init__") (.ref h.next :: args) (h.push (.obj f []))) fun _ h' => .ok (.ref h.next, h')
  | some (.val _) => .error .stuck
  | .none => do
    let v ← builtin f args h
    .ok (v, h)

/-- The elements of a list as an argument. -/
def elements (v : Val) (h : Heap) : R (List Val) :=
  match v with
  | .ref r =>
    match h.cell r with
    | some (.list vs) => .ok vs
    | _ => .error .stuck
  | _ => .error .stuck

/-- The texts of a list with `s` between them. -/
def join (s : Str) : List Val → R Str
  | [] => .ok []
  | [.str t] => .ok t
  | .str t :: vs => (join s vs).map fun r => t ++ s ++ r
  | _ => .error .stuck

/-- A method of the list with the elements `vs` in cell `r`. -/
def listMethod (r : Nat) (vs : List Val) (f : Nat) (args : List Val) (h : Heap) : R (Val × Heap) :=
  match args with
  | [] =>
    if f = n% "pop" then
      match vs.getLast? with
      | some v => .ok (v, h.set r (.list vs.dropLast))
      | .none => .error (.raised .indexError)
    else if f = n% "copy" then .ok (.ref h.next, h.push (.list vs))
    else .error .stuck
  | [v] =>
    if f = n% "append" then .ok (.none, h.set r (.list (vs ++ [v])))
    else if f = n% "extend" then do
      let us ← elements v h
      .ok (.none, h.set r (.list (vs ++ us)))
    else .error .stuck
  | _ => .error .stuck

/-- `v.f(args)` -/
def callMethod (w : Scope) (call : Call) (v : Val) (f : Nat) (args : List Val) (h : Heap) : R (Val × Heap) :=
  match v with
  | .ref r =>
    match h.cell r with
    | some (.obj c _) => method w call c f (v :: args) h
    | some (.list vs) => listMethod r vs f args h
    | _ => .error .stuck
  | .mod m =>
    match args with
    | [_, v] => if m = n% "typing" ∧ f = n% "cast" then .ok (v, h) else .error .stuck
    | _ => .error .stuck
  | .str s =>
    match args with
    | [v] => if f = n% "join" then do
        let vs ← elements v h
        let t ← join s vs
        .ok (.str t, h)
      else .error .stuck
    | _ => .error .stuck
  | _ => .error .stuck

/-- The hexadecimal digit for a number below 16, in upper case. -/
def hexDigit (d : Nat) : Nat := if d < 10 then 48 + d else 55 + d

/-- The hexadecimal digits of a number, in front of others. -/
def hexDigits : Nat → Nat → Str → Str
  | 0, _, s => s
  | f + 1, n, s => if n < 16 then hexDigit n :: s else hexDigits f (n / 16) (hexDigit (n % 16) :: s)

/-- `format(i, "04X")` -/
def hex4 (i : Int) : Str :=
  if 0 ≤ i then let s := hexDigits (i.toNat + 1) i.toNat []; List.replicate (4 - s.length) 48 ++ s
  else let s := hexDigits ((-i).toNat + 1) (-i).toNat []; 45 :: (List.replicate (3 - s.length) 48 ++ s)

/-- Up to the closing brace. -/
def field : Str → Str × Str
  | [] => ([], [])
  | c :: s => if c = 125 then ([], s) else let p := field s; (c :: p.1, p.2)

/-- What stands between the braces of an f-string: a variable with a text, or one with an int and the format `04X`. -/
def format (env : Env) (s : Str) : R Str :=
  if s.drop (s.length - 4) = txt ":04X" then
    match getVar (word (s.take (s.length - 4))) env with
    | some (.int i) => .ok (hex4 i)
    | _ => .error .stuck
  else
    match getVar (word s) env with
    | some (.str t) => .ok t
    | _ => .error .stuck

/-- An f-string. -/
def formats (env : Env) : Nat → Str → R Str
  | 0, _ => .error .stuck
  | _ + 1, [] => .ok []
  | f + 1, c :: s =>
    if c = 123 then do
      let t ← format env (field s).1
      let r ← formats env f (field s).2
      .ok (t ++ r)
    else (formats env f s).map (c :: ·)

mutual
/-- The value of an expression. -/
def eval (w : Scope) (call : Call) (env : Env) : Expr → Heap → R (Val × Heap)
  | .num n, h => .ok (.int n, h)
  | .str s, h => .ok (.str s, h)
  | .fstr s, h => do
    let t ← formats env (s.length + 1) s
    .ok (.str t, h)
  | .name x, h => do
    let v ← nameValue w env x
    .ok (v, h)
  | .neg e, h => andThen (eval w call env e h) fun v h =>
    match v with
    | .int a => .ok (.int (-a), h)
    | _ => .error .stuck
  | .inv e, h => andThen (eval w call env e h) fun v h =>
    match v with
    | .int a => .ok (.int (-a - 1), h)
    | _ => .error .stuck
  | .not e, h => andThen (eval w call env e h) fun v h => do
    let b ← v.truth
    .ok (.bool (!b), h)
  | .bin o l r, h => andThen (eval w call env l h) fun a h => andThen (eval w call env r h) fun b h => apply w call o a b h
  | .and l r, h => andThen (eval w call env l h) fun a h => do
    let b ← a.truth
    if b then eval w call env r h else .ok (a, h)
  | .or l r, h => andThen (eval w call env l h) fun a h => do
    let b ← a.truth
    if b then .ok (a, h) else eval w call env r h
  | .cond c t e, h => andThen (eval w call env c h) fun a h => do
    let b ← a.truth
    if b then eval w call env t h else eval w call env e h
  | .attr e x, h => andThen (eval w call env e h) fun v h => do
    let u ← attr v x h
    .ok (u, h)
  | .index e i, h => andThen (eval w call env e h) fun v h => andThen (eval w call env i h) fun i h => do
    let u ← index v i h
    .ok (u, h)
  | .slice e a b, h => andThen (eval w call env e h) fun v h => andThen (eval w call env a h) fun a h =>
    andThen (eval w call env b h) fun b h => slice v a b h
  | .list es, h => andThen (evals w call env es h) fun vs h => .ok (.ref h.next, h.push (.list vs))
  | .nil, h => .ok (.none, h)
  | .call (.name f) args, h =>
    match getVar f env with
    | some _ => .error .stuck
    | .none => andThen (evals w call env args h) fun vs h => callName w call f vs h
  | .call (.attr e f) args, h => andThen (eval w call env e h) fun v h => andThen (evals w call env args h) fun vs h =>
    callMethod w call v f vs h
  | _, _ => .error .stuck
/-- The values of expressions. -/
def evals (w : Scope) (call : Call) (env : Env) : Expr → Heap → R (List Val × Heap)
  | .nil, h => .ok ([], h)
  | .cons e es, h => andThen (eval w call env e h) fun v h => andThen (evals w call env es h) fun vs h => .ok (v :: vs, h)
  | _, _ => .error .stuck
end

/-- How a statement ends. -/
inductive Flow | next | brk | cont | ret (v : Val)
  deriving DecidableEq

/-- The variables, the values that were yielded, and the cells. -/
structure St where
  env : Env
  out : List Val
  heap : Heap

/-- Storing an attribute. -/
def setAttr (v : Val) (x : Nat) (u : Val) (h : Heap) : R Heap :=
  match v with
  | .ref r =>
    match h.cell r with
    | some (.obj c fields) => .ok (h.set r (.obj c (setVar x u fields)))
    | _ => .error .stuck
  | _ => .error .stuck

/-- Assigning to a name, an attribute, an element or a slice. -/
def assign (w : Scope) (call : Call) (x : Expr) (v : Val) (s : St) : R St :=
  match x with
  | .name x => .ok { s with env := setVar x v s.env }
  | .attr e x => do
    let p ← eval w call s.env e s.heap
    let h ← setAttr p.1 x v p.2
    .ok { s with heap := h }
  | .index e i => do
    let p ← eval w call s.env e s.heap
    let q ← eval w call s.env i p.2
    let h ← setIndex p.1 q.1 v q.2
    .ok { s with heap := h }
  | .slice e a b => do
    let p ← eval w call s.env e s.heap
    let q ← eval w call s.env a p.2
    let r ← eval w call s.env b q.2
    let us ← elements v r.2
    let h ← splice p.1 q.1 r.1 us r.2
    .ok { s with heap := h }
  | _ => .error .stuck

/-- `+=` and the like, for values. -/
def augment (w : Scope) (call : Call) (o : Op) (u v : Val) (h : Heap) : R (Val × Heap) :=
  match u with
  | .ref x =>
    match h.cell x with
    | some (.obj c _) => method w call c (inPlace o) [u, v] h
    | _ => .error .stuck
  | u => apply w call o u v h

/-- `while`, at most `n` times. -/
def loop (cond : St → R (Bool × St)) (body : St → R (Flow × St)) : Nat → St → R (Flow × St)
  | 0, _ => .error .stuck
  | n + 1, s => do
    let p ← cond s
    if p.1 then
      let r ← body p.2
      match r.1 with
      | .next => loop cond body n r.2
      | .cont => loop cond body n r.2
      | .brk => .ok (.next, r.2)
      | .ret v => .ok (.ret v, r.2)
    else .ok (.next, p.2)

/-- `for`. -/
def each (x : Nat) (body : St → R (Flow × St)) : List Val → St → R (Flow × St)
  | [], s => .ok (.next, s)
  | v :: vs, s => do
    let r ← body { s with env := setVar x v s.env }
    match r.1 with
    | .next => each x body vs r.2
    | .cont => each x body vs r.2
    | .brk => .ok (.next, r.2)
    | .ret v => .ok (.ret v, r.2)

/-- The condition of a statement. -/
def test (w : Scope) (call : Call) (c : Expr) (s : St) : R (Bool × St) := do
  let p ← eval w call s.env c s.heap
  let b ← p.1.truth
  .ok (b, { s with heap := p.2 })

/-- Executing a statement. -/
def exec (w : Scope) (call : Call) (fuel : Nat) : Stmt → St → R (Flow × St)
  | .skip, s => .ok (.next, s)
  | .pass, s => .ok (.next, s)
  | .brk, s => .ok (.brk, s)
  | .cont, s => .ok (.cont, s)
  | .decl _, s => .ok (.next, s)
  | .seq a b, s => do
    let r ← exec w call fuel a s
    match r.1 with
    | .next => exec w call fuel b r.2
    | .brk => .ok (.brk, r.2)
    | .cont => .ok (.cont, r.2)
    | .ret v => .ok (.ret v, r.2)
  | .expr e, s => do
    let p ← eval w call s.env e s.heap
    .ok (.next, { s with heap := p.2 })
  | .assign x e, s => do
    let p ← eval w call s.env e s.heap
    let s ← assign w call x p.1 { s with heap := p.2 }
    .ok (.next, s)
  | .aug o x e, s =>
    match x with
    | .name y => do
      let p ← eval w call s.env x s.heap
      let q ← eval w call s.env e p.2
      let r ← augment w call o p.1 q.1 q.2
      .ok (.next, { s with env := setVar y r.1 s.env, heap := r.2 })
    | .index a i => do
      let p ← eval w call s.env a s.heap
      let q ← eval w call s.env i p.2
      let u ← index p.1 q.1 q.2
      let r ← eval w call s.env e q.2
      let t ← augment w call o u r.1 r.2
      let h ← setIndex p.1 q.1 t.1 t.2
      .ok (.next, { s with heap := h })
    | _ => .error .stuck
  | .ret e, s => do
    let p ← eval w call s.env e s.heap
    .ok (.ret p.1, { s with heap := p.2 })
  | .yield e, s => do
    let p ← eval w call s.env e s.heap
    .ok (.next, { s with out := s.out ++ [p.1], heap := p.2 })
  | .raise e, _ =>
    match e with
    | .call (.name x) _ => if x = n% "TypeError" then .error (.raised .typeError) else .error .stuck
    | _ => .error .stuck
  | .del e, s =>
    match e with
    | .slice e a b => do
      let p ← eval w call s.env e s.heap
      let q ← eval w call s.env a p.2
      let r ← eval w call s.env b q.2
      let h ← splice p.1 q.1 r.1 [] r.2
      .ok (.next, { s with heap := h })
    | _ => .error .stuck
  | .ifs c t e, s => do
    let p ← test w call c s
    if p.1 then exec w call fuel t p.2 else exec w call fuel e p.2
  | .while c b, s => loop (test w call c) (exec w call fuel b) fuel s
  | .for x it b, s =>
    match x with
    | .name x => do
      let p ← eval w call s.env it s.heap
      let vs ← iter p.1 p.2
      each x (exec w call fuel b) vs { s with heap := p.2 }
    | _ => .error .stuck
  | _, _ => .error .stuck

/-- The variables at the beginning of a call. -/
def arguments (default : Expr → R Val) : Expr → List Val → R Env
  | .nil, [] => .ok []
  | .cons (.name x) ps, v :: vs => (arguments default ps vs).map ((x, v) :: ·)
  | .cons (.kwarg x _) ps, v :: vs => (arguments default ps vs).map ((x, v) :: ·)
  | .cons (.kwarg x e) ps, [] => do
    let v ← default e
    let env ← arguments default ps []
    .ok ((x, v) :: env)
  | .cons (.name _) _, [] => .error (.raised .typeError)
  | .nil, _ :: _ => .error (.raised .typeError)
  | _, _ => .error .stuck

/-- The default values of parameters: ints and `None`. -/
def default : Expr → R Val
  | .num n => .ok (.int n)
  | .name x => if x = n% "None" then .ok .none else .error .stuck
  | _ => .error .stuck

/-- The result of a call, from how the body ended. -/
def finish (generator : Bool) (f : Flow) (s : St) : R (Val × Heap) :=
  if generator then .ok (.ref s.heap.next, s.heap.push (.gen s.out))
  else
    match f with
    | .ret v => .ok (v, s.heap)
    | .next => .ok (.none, s.heap)
    | .brk => .error .stuck
    | .cont => .error .stuck

/-- A call with at most `n` calls below it. -/
def run (w : Scope) : Nat → Call
  | 0, _, _, _, _ => .error .stuck
  | n + 1, ps, body, args, h => do
    let env ← arguments default ps args
    let r ← exec w (run w n) n body ⟨env, [], h⟩
    finish (PyRun.yields body) r.1 r.2

/-- The statements of a module, or of class `k` of a module when `k` is not 0. -/
def define (k : Nat) : Stmt → Scope → R Scope
  | .skip, s => .ok s
  | .seq a b, s => do
    let s ← define k a s
    define k b s
  | .imp x, s => .ok ((0, x, .val (.mod x)) :: s)
  | .expr (.str _), s => .ok s
  | .assign (.name x) (.num n), s => .ok ((k, x, .val (.int n)) :: s)
  | .defn x ps b, s => .ok ((k, x, .fn ps b) :: s)
  | .cls x _ b, s => if k = 0 then (define x b s).map ((0, x, .cls) :: ·) else .error .stuck
  | _, _ => .error .stuck

/-- Importing a module: its names. -/
def importModule (text : Str) : R Scope :=
  match parse text with
  | .none => .error .stuck
  | some b => define 0 b []

end Verif.PyHeap

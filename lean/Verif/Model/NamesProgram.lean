import Verif.Model.CharNames
import Verif.Model.Library
/-!
# CharNames.py as Python executes it

`CharNames.populateData`, which is called at the end of the import, reads the file with the data of ICU by means of `struct` and `sstruct`, which
are not executed here: what it stores in the attributes of `Tokens` and `CharNames` are the values of any `Names`, and `Model/CharNames` says which
ones the file gives. Everything else in the text is executed.
-/
namespace Verif.PyRun
open Verif.PySyntax Verif.Data

/-- The names of the module and of its classes, as `define` gives them. The names whose values are not modelled (those that `sstruct` gives, and
the object with the file) stand for `other`; the statement that calls `populateData` and the class inside of a class are left out. -/
def defineKnown (w : World) (n m k : Nat) : Stmt → Scope → R Scope
  | .seq a b, s => do
    let s ← defineKnown w n m k a s
    defineKnown w n m k b s
  | .cls x _ b, s => if k = 0 then (defineKnown w n m x b s).map ((0, x, .cls m) :: ·) else .ok s
  | .assign (.name x) e, s =>
    match define w n m k (.assign (.name x) e) s with
    | .error .stuck => .ok ((k, x, .val .other) :: s)
    | r => r
  | .expr _, s => .ok s
  | b, s => define w n m k b s

/-- Numbers as a tuple. -/
def numbers (l : List Nat) : Val := .tuple (chain (l.map fun (n : Nat) => .int (n : Int)))

/-- A `bytes` object. -/
def bytes (l : List Nat) : Val := .list (chain (l.map fun (n : Nat) => .int (n : Int)))

/-- CharNames.py:234-250 the attributes that `Group.__init__` sets. -/
def groupObject (g : CharNames.Group) : Val :=
  .obj (n% "CharNames") (n% "Group") (.field (n% "msb") (.int g.msb) (.field (n% "charRange") (.range g.start g.stop)
    (.field (n% "strings") (.list (chain (g.strings.map bytes))) .nil)))

/-- CharNames.py:267-304 the attributes that `AlgorithmicRange.__init__` sets. -/
def rangeObject (r : CharNames.AlgorithmicRange) : Val :=
  .obj (n% "CharNames") (n% "AlgorithmicRange") (.field (n% "type") (.int r.kind) (.field (n% "variant") (.int r.variant)
    (.field (n% "size") (.int r.size) (.field (n% "charRange") (.range r.start r.stop) (.field (n% "string") (.str r.string)
    (.field (n% "factors") (numbers r.factors) (.field (n% "elements") (.list (chain (r.elements.map .str))) .nil)))))))

/-- CharNames.py:367-404 what `populateData` stores. -/
def stored (N : CharNames.Names) : Scope :=
  [(n% "Tokens", n% "_tokens", .val (numbers N.tokens.tokens)), (n% "Tokens", n% "_strings", .val (bytes N.tokens.strings)),
   (n% "CharNames", n% "_groups", .val (.list (chain (N.groups.map groupObject)))),
   (n% "CharNames", n% "_algorithmicRanges", .val (.list (chain (N.ranges.map rangeObject))))]

/-- CharNames.py and what it imports, where `populateData` stores the values of `N`. -/
def charNames (N : CharNames.Names) : R World := do
  let w ← Library.charProps
  let w := { w with modules := (n% "ICUDataFile", [(0, n% "ICUData", .val .other)]) :: w.modules }
  match parse (textOf Source.CharNames) with
  | .none => .error .stuck
  | some b => do
    let s ← defineKnown w Library.depth (n% "CharNames") 0 b []
    .ok { w with modules := (n% "CharNames", stored N ++ s) :: w.modules }

end Verif.PyRun

import Verif.Model.PyStr
/-!
# Model of `ModuleBuilderArgs` (`module_builder/ModuleBuilder.py`)

`ArgumentIterator` (of FontDocTools) is not part of the repository. It is modelled as an iterator over the list whose
`nextExtra` takes the next element, or raises `ValueError` when there is none or when it is not acceptable as a value;
which elements are acceptable is the argument `okExtra`.
-/
namespace Verif.BuilderArgs

/-- ModuleBuilder.py:19-35 the fields of `ModuleBuilderArgs`. -/
structure Args where
  icuSourceDir : Str
  icuBuildDir : Str
  outputDir : Str
  deriving DecidableEq

/-- `arguments.nextExtra(...)`: the value and what is left of the arguments. -/
def nextExtra (okExtra : Str → Bool) : List Str → Py (Str × List Str)
  | [] => .error .valueError
  | v :: rest => if okExtra v then .ok (v, rest) else .error .valueError

/-- ModuleBuilder.py:56-64 `processArgument`: the fields afterwards and what is left of the arguments. -/
def processArgument (okExtra : Str → Bool) (a : Args) (argument : Str) (arguments : List Str) : Py (Args × List Str) :=
  if argument = txt "--sourceDir" then do
    let (v, rest) ← nextExtra okExtra arguments
    .ok ({ a with icuSourceDir := v }, rest)
  else if argument = txt "--buildDir" then do
    let (v, rest) ← nextExtra okExtra arguments
    .ok ({ a with icuBuildDir := v }, rest)
  else if argument = txt "--outputDir" then do
    let (v, rest) ← nextExtra okExtra arguments
    .ok ({ a with outputDir := v }, rest)
  else .error .valueError

/-- ModuleBuilder.py:66-82 `completeInit`. -/
def completeInit (a : Args) : Py Args :=
  if a.icuSourceDir = [] then .error .valueError
  else if a.icuBuildDir = [] then .error .valueError
  else if a.outputDir = [] then .error .valueError
  else .ok a

/-- ModuleBuilder.py:48-54 the loop and the call after it. Each round takes at least one argument. -/
def argLoop (okExtra : Str → Bool) : Nat → List Str → List Str → Args → Py Args
  | 0, _, _, _ => .error .diverges
  | _ + 1, [], _, a => completeInit a
  | fuel + 1, argument :: arguments, seen, a =>
    if argument ∈ seen then .error .valueError
    else do
      let (a, rest) ← processArgument okExtra a argument arguments
      argLoop okExtra fuel rest (seen ++ [argument]) a

/-- ModuleBuilder.py:38-54 `forArguments` and `processArguments`. -/
def forArguments (okExtra : Str → Bool) (argumentList : List Str) : Py Args :=
  argLoop okExtra (argumentList.length + 1) argumentList [] ⟨[], [], []⟩

end Verif.BuilderArgs

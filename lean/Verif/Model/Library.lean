import Verif.Model.PyRun
import Verif.Data.Source
import Verif.Data.Text
import Verif.Data.DataText
/-!
# The modules of the library as Python imports them

Everything is read in the texts of the files. A module is imported after those that it imports from. `typing`, `struct` and `fontTools` are
not modelled: a statement that uses them makes the execution `stuck`.
-/
namespace Verif.Library
open Verif.PySyntax Verif.PyRun Verif.Data

/-- No modules. -/
def empty : World := ⟨[], fun _ => ⟨0, fun _ => 0⟩⟩

/-- How deep calls during the imports can be. -/
def depth : Nat := 8

/-- Utilities.py and Utrie2.py. -/
def tries : R World := do
  let w ← importModule empty depth (n% "Utilities") (textOf Source.Utilities)
  importModule w depth (n% "Utrie2") (textOf Source.Utrie2)

/-- CharProps.py and what it imports. -/
def charProps : R World := do
  let w ← tries
  let w ← importData w (n% "CharPropsData") (textOf charText)
  let w ← importConstants w (n% "uprops_h") (textOf Text.uprops_h)
  let w ← importConstants w (n% "uscript_h") (textOf Text.uscript_h)
  let w ← importModule w depth (n% "Characters") (textOf Source.Characters)
  let w ← importModule w depth (n% "GeneralCategories") (textOf Source.GeneralCategories)
  importModule w depth (n% "CharProps") (textOf Source.CharProps)

/-- BidiProps.py and what it imports. -/
def bidiProps : R World := do
  let w ← tries
  let w ← importData w (n% "BidiPropsData") (textOf bidiText)
  let w ← importConstants w (n% "uchar_h") (textOf Text.uchar_h)
  importModule w depth (n% "BidiProps") (textOf Source.BidiProps)

/-- CaseProps.py and what it imports. -/
def caseProps : R World := do
  let w ← tries
  let w ← importData w (n% "CasePropsData") (textOf caseText)
  importModule w depth (n% "CaseProps") (textOf Source.CaseProps)

/-- CPTrie.py, where `sstruct` of `fontTools` is not modelled, and Normalizer2.py and what they import. The last two statements of Normalizer2.py
read the file with the data of ICU: they assign `v` and `v'` to `nfkcTrie` and `nfkc_cfTrie`. ICUDataFile.py, which they use, is not executed. -/
def normalizer2 (v v' : Val) : R World := do
  let w ← importModule empty depth (n% "Utilities") (textOf Source.Utilities)
  let w ← importPart w depth (n% "CPTrie") [n% "sstruct"] 0 [] (textOf Source.CPTrie)
  let w ← importData w (n% "Norm2NFCData") (textOf nfcText)
  let w := { w with modules := (n% "ICUDataFile", [(0, n% "ICUData", .val .other)]) :: w.modules }
  importPart w depth (n% "Normalizer2") [] (n% "nfkcTrie") [(0, n% "nfkc_cfTrie", .val v'), (0, n% "nfkcTrie", .val v)] (textOf Source.Normalizer2)

end Verif.Library

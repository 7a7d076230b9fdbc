import Verif.Model.BuilderArgs
import Verif.Model.Header
import Verif.Model.ModuleText
import Verif.Model.UCDReader
import Verif.Model.Csv
/-!
# Model of `build` in `module_builder/ModuleBuilder.py` and of `install` in `module_builder/ModuleInstaller.py`

A disk is a map from paths to the contents of files; a path is the list of its parts. Directories, permissions, links, encodings
and the end-of-line conversion of text files are not modelled: two files are the same if their paths are. What a program does
to the disk is a list of operations, so that the disk at any point in the middle can be spoken of. The date, `str.upper`,
`str.lower`, Python's `eval`, the reader of the `csv` module and the conversion of an argument to a path are arguments.
-/
namespace Verif.Build

abbrev Path := List Str
abbrev Disk := Path → Option Str

/-- Changes of the disk: `open(p, "w")`, which leaves an empty file, and writing to the end of a file. -/
inductive Op
  | create (p : Path)
  | append (p : Path) (s : Str)
  deriving DecidableEq

/-- The disk with another file. -/
def put (d : Disk) (p : Path) (s : Str) : Disk := fun q => if q = p then some s else d q

def Op.apply (d : Disk) : Op → Disk
  | .create p => put d p []
  | .append p s => put d p ((d p).getD [] ++ s)

/-- The disk after some operations. -/
def after (d : Disk) (ops : List Op) : Disk := ops.foldl Op.apply d

/-- Why a program ends early: a missing file (`FileNotFoundError`), a file copied to itself (`SameFileError`), another
exception, `exit(1)`. -/
inductive Fault
  | missing (p : Path)
  | sameFile (p : Path)
  | raised (e : PyErr)
  | exit
  deriving DecidableEq

/-- A program: what it does to a disk, and its result. -/
abbrev Prog (α : Type) := Disk → List Op × Except Fault α

/-- One program after the other. -/
def Prog.bind {α β : Type} (m : Prog α) (f : α → Prog β) : Prog β := fun d =>
  match m d with
  | (ops, .error e) => (ops, .error e)
  | (ops, .ok a) =>
    let r := f a (after d ops)
    (ops ++ r.1, r.2)

instance : Monad Prog where
  pure a := fun _ => ([], .ok a)
  bind := Prog.bind

/-- `open(p).read()`. -/
def read (p : Path) : Prog Str := fun d =>
  match d p with
  | some s => ([], .ok s)
  | none => ([], .error (.missing p))

/-- A computation that does not touch the disk. -/
def lift {α : Type} (r : Py α) : Prog α := fun _ =>
  match r with
  | .ok a => ([], .ok a)
  | .error e => ([], .error (.raised e))

/-- `open(p, "w")`. -/
def create (p : Path) : Prog Unit := fun _ => ([.create p], .ok ())
/-- `file.write(s)` and `file.close()`. -/
def write (p : Path) (s : Str) : Prog Unit := fun _ => ([.append p s], .ok ())

/-- `shutil.copy(p, q)` and `shutil.copy2(p, q)`, for the path `q` of the new file. -/
def copy (p q : Path) : Prog Unit := fun d =>
  match d p with
  | none => ([], .error (.missing p))
  | some s => if p = q then ([], .error (.sameFile p)) else ([.create q, .append q s], .ok ())

/-! ## The modules -/

/-- The lines of a file, with their line feeds: what `readline` returns. -/
def fileLines : Str → List Str
  | [] => []
  | c :: cs =>
    if c = 10 then [c] :: fileLines cs
    else
      match fileLines cs with
      | [] => [[c]]
      | l :: ls => (c :: l) :: ls

/-- What the programs get from Python. -/
structure World where
  today : Str
  upper : Str → Str
  lower : Str → Str
  eval : Header.Env → Str → Py Int
  path : Str → Path

/-- HeaderToPtyhon.py:38-39 the name of the module made from a header. -/
def headerName (w : World) (fromName : Str) : Str := w.lower (replace 46 (txt "_") fromName)

/-- HeaderToPtyhon.py:31-47 the lines that the constructor puts out. -/
def headerLines (w : World) (fromName : Str) (extraCode : List Str) : List Str :=
  [txt "\"\"\"/", headerName w fromName ++ txt ".py, based on " ++ fromName ++ txt " from ICU\n",
   txt "Generated by HeaderToPtyhon.py on " ++ w.today, txt "\"\"\"\n"] ++ extraCode

/-- HeaderToPtyhon.py:25-49, 112-155: the contents of the module made from a header. -/
def headerModule (w : World) (fromName : Str) (extraCode ignore : List Str) (source : Str) : Py Str := do
  let out ← Header.translate (Header.guardMatch (w.upper (headerName w fromName))) w.eval ignore (headerLines w fromName extraCode)
    (fileLines source)
  .ok (join (txt "\n") out)

/-- UCDReader.py:154-159 the rows of the property file. No file makes the reader raise `csv.Error` (`Csv.Props.rows_total`). -/
def propertyRows (text : Str) : List (List Str) := (Csv.rows text).getD []

/-- UCDReader.py:138-152 the lines before the dictionaries. -/
def prefixLines (w : World) : List Str :=
  [txt "\"\"\"/", txt "UCDTypeDictionaries.py, based on ppucd.txt from ICU\n", txt "Generated by UCDReader.py on " ++ w.today,
   txt "\"\"\"\n", txt "from .uchar_h import *", txt "from .uscript_h import *\n"]

/-! ## `build` -/

/-- ModuleBuilder.py:92-98 and 158-162, HeaderToPtyhon.py:26-28 and 154-158: a module made from one source. The source is read
before, and the text is made before the file is opened. -/
def makeModule (source target : Path) (make : Str → Py Str) : Prog Unit := do
  let s ← read source
  let t ← lift (make s)
  create target
  write target t

/-- HeaderToPtyhon.py:25-49 and ModuleBuilder.py:216-230: a module made from a header. -/
def makeHeader (w : World) (icuSource outDir : Path) (dir : List Str) (fromName : Str) (extraCode ignore : List Str) : Prog Unit :=
  makeModule (icuSource ++ dir ++ [fromName]) (outDir ++ [headerName w fromName ++ txt ".py"]) (headerModule w fromName extraCode ignore)

/-- ModuleBuilder.py:185-255 `build`, after the arguments have been read. -/
def build (w : World) (icuSource icuBuild outDir : Path) : Prog Unit := do
  makeModule (icuSource ++ [txt "common", txt "ubidi_props_data.h"]) (outDir ++ [txt "BidiPropsData.py"])
    (fun s => ModuleText.bidiModule s w.today)
  makeModule (icuSource ++ [txt "common", txt "uchar_props_data.h"]) (outDir ++ [txt "CharPropsData.py"])
    (fun s => ModuleText.charModule s w.today)
  makeModule (icuSource ++ [txt "common", txt "ucase_props_data.h"]) (outDir ++ [txt "CasePropsData.py"])
    (fun s => ModuleText.caseModule s w.today)
  makeHeader w icuSource outDir [txt "common"] (txt "uprops.h") [] []
  makeHeader w icuSource outDir [txt "common"] (txt "ucase.h") [] [txt "UCASECONTEXT_INITIALIZER"]
  makeHeader w icuSource outDir [txt "common", txt "unicode"] (txt "uchar.h") [txt "def U_MASK(x: int) -> int: return 1<<x\n"]
    [txt "U_NO_NUMERIC_VALUE"]
  makeHeader w icuSource outDir [txt "common", txt "unicode"] (txt "uscript.h") [] []
  let uvData ← read (icuSource ++ [txt "common", txt "unicode", txt "uvernum.h"])
  let v ← lift (ModuleText.icuVersions uvData)
  copy (icuBuild ++ [txt "data", txt "out", txt "icudt" ++ v.2.1 ++ txt "l.dat"]) (outDir ++ [txt "icudata.dat"])
  copy (icuSource.dropLast ++ [txt "LICENSE"]) (outDir ++ [txt "LICENSE"])
  let pp ← read (icuSource ++ [txt "data", txt "unidata", txt "ppucd.txt"])
  let st ← lift (UCDReader.generateDictionaries w.upper w.lower (propertyRows pp))
  create (outDir ++ [txt "UCDTypeDictionaries.py"])
  let dicts ← lift (UCDReader.fileText (prefixLines w) st)
  write (outDir ++ [txt "UCDTypeDictionaries.py"]) dicts
  create (outDir ++ [txt "UnicodeVersion.py"])
  write (outDir ++ [txt "UnicodeVersion.py"]) (ModuleText.unicodeVersionFile (st.ucdVersion.getD (txt "None")))

/-- ModuleBuilder.py:171-187 `build` from the command line: `exit(1)` without arguments and for arguments that are refused. -/
def buildMain (w : World) (okExtra : Str → Bool) (argv : List Str) : Prog Unit :=
  match argv.drop 1 with
  | [] => fun _ => ([], .error .exit)
  | arguments =>
    match BuilderArgs.forArguments okExtra arguments with
    | .error .valueError => fun _ => ([], .error .exit)
    | .error e => fun _ => ([], .error (.raised e))
    | .ok a => build w (w.path a.icuSourceDir) (w.path a.icuBuildDir) (w.path a.outputDir)

/-! ## `install` -/

/-- ModuleInstaller.py:17-18 the loop over the Python files, in the order in which `glob` returns them. -/
def copyAll (sourcePath destPath : Path) : List Str → Prog Unit
  | [] => pure ()
  | n :: ns => do
    copy (sourcePath ++ [n]) (destPath ++ [n])
    copyAll sourcePath destPath ns

/-- ModuleInstaller.py:13-21 `install`. -/
def install (sourcePath : Path) (pythonFiles : List Str) : Prog Unit := do
  copyAll sourcePath [txt "UnicodeData"] pythonFiles
  copy (sourcePath ++ [txt "icudata.dat"]) [txt "UnicodeData", txt "Data", txt "icudata.dat"]
  copy (sourcePath ++ [txt "LICENSE"]) [txt "UnicodeData", txt "Data", txt "LICENSE"]

end Verif.Build

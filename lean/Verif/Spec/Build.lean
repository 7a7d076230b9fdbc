import Verif.Model.Build
/-!
# Specification of `build` and `install`

The contents of the modules are those of the functions that C59, C77, C87 and C117 describe.
-/
namespace Verif.Build.Spec

/-- The contents of a source file. -/
def file (d : Disk) (p : Path) : Except Fault Str :=
  match d p with
  | some s => .ok s
  | none => .error (.missing p)

/-- The text that a function makes. -/
def made {α : Type} (r : Py α) : Except Fault α := r.mapError .raised

/-- The first lines of `UCDTypeDictionaries.py`. -/
def dictionaryHeader (today : Str) : List Str :=
  [txt "\"\"\"/", txt "UCDTypeDictionaries.py, based on ppucd.txt from ICU\n", txt "Generated by UCDReader.py on " ++ today,
   txt "\"\"\"\n", txt "from .uchar_h import *", txt "from .uscript_h import *\n"]

/-- The files that `build` makes, in this order: name and contents, or what is wrong with the sources on the disk `d`. -/
def outputs (w : World) (icuSource icuBuild outDir : Path) (d : Disk) : List (Str × Except Fault Str) :=
  let common := icuSource ++ [txt "common"]
  let unicode := icuSource ++ [txt "common", txt "unicode"]
  let dictionaries := do
    let pp ← file d (icuSource ++ [txt "data", txt "unidata", txt "ppucd.txt"])
    made (UCDReader.generateDictionaries w.upper w.lower ((Csv.rows pp).getD []))
  [(txt "BidiPropsData.py", do made (ModuleText.bidiModule (← file d (common ++ [txt "ubidi_props_data.h"])) w.today)),
   (txt "CharPropsData.py", do made (ModuleText.charModule (← file d (common ++ [txt "uchar_props_data.h"])) w.today)),
   (txt "CasePropsData.py", do made (ModuleText.caseModule (← file d (common ++ [txt "ucase_props_data.h"])) w.today)),
   (txt "uprops_h.py", do made (headerModule w (txt "uprops.h") [] [] (← file d (common ++ [txt "uprops.h"])))),
   (txt "ucase_h.py", do
      made (headerModule w (txt "ucase.h") [] [txt "UCASECONTEXT_INITIALIZER"] (← file d (common ++ [txt "ucase.h"])))),
   (txt "uchar_h.py", do
      made (headerModule w (txt "uchar.h") [txt "def U_MASK(x: int) -> int: return 1<<x\n"] [txt "U_NO_NUMERIC_VALUE"]
        (← file d (unicode ++ [txt "uchar.h"])))),
   (txt "uscript_h.py", do made (headerModule w (txt "uscript.h") [] [] (← file d (unicode ++ [txt "uscript.h"])))),
   (txt "icudata.dat", do
      let v ← made (ModuleText.icuVersions (← file d (unicode ++ [txt "uvernum.h"])))
      file d (icuBuild ++ [txt "data", txt "out", txt "icudt" ++ v.2.1 ++ txt "l.dat"])),
   (txt "LICENSE", do
      let s ← file d (icuSource.dropLast ++ [txt "LICENSE"])
      if outDir = icuSource.dropLast then .error (.sameFile (icuSource.dropLast ++ [txt "LICENSE"])) else .ok s),
   (txt "UCDTypeDictionaries.py", do made (UCDReader.fileText (dictionaryHeader w.today) (← dictionaries))),
   (txt "UnicodeVersion.py", do
      let st ← dictionaries
      .ok (txt "unicodeVersion = \"" ++ st.ucdVersion.getD (txt "None") ++ txt "\"\n"))]

/-- The first thing that is wrong. -/
def firstFault : List (Str × Except Fault Str) → Except Fault Unit
  | [] => .ok ()
  | (_, .error e) :: _ => .error e
  | (_, .ok _) :: os => firstFault os

/-- `str.lower` and `str.upper` for ASCII. -/
def AsciiCase (w : World) : Prop := ∀ s : Str, (∀ c ∈ s, c < 128) →
  w.lower s = s.map (fun c => if 65 ≤ c ∧ c ≤ 90 then c + 32 else c) ∧ w.upper s = s.map (fun c => if 97 ≤ c ∧ c ≤ 122 then c - 32 else c)

/-- `d'` is the disk at some moment while the operations are carried out on `d`: some are done, and of the text that is being
written only the beginning is on the disk. -/
def During (d : Disk) (ops : List Op) (d' : Disk) : Prop :=
  ∃ done rest, ops = done ++ rest ∧
    (d' = after d done ∨ ∃ p s t more, rest = .append p s :: more ∧ t <+: s ∧ d' = after d (done ++ [.append p t]))

/-- The Python files in a directory, in any order. -/
def PythonFiles (d : Disk) (dir : Path) (names : List Str) : Prop :=
  names.Nodup ∧ ∀ n, n ∈ names ↔ txt ".py" <:+ n ∧ d (dir ++ [n]) ≠ none

/-- Where `install` puts a file. -/
def place (n : Str) : Path :=
  if n = txt "icudata.dat" ∨ n = txt "LICENSE" then [txt "UnicodeData", txt "Data", n] else [txt "UnicodeData", n]

end Verif.Build.Spec

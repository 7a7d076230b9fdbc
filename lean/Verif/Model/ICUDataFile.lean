import Verif.Model.Bytes
import Verif.Model.Text
/-!
# Model of `UnicodeData/ICUDataFile.py`

The class attributes of `ICUData` are the state. The contents of the data file are an argument of the operation that reads
it. `sstruct` (of fontTools) is modelled as `struct` without a byte order character, which is what the library does.
-/
namespace Verif.ICUData

/-- A Python `dict` with `str` keys, in insertion order. -/
abbrev Dict (α : Type) := List (Str × α)

/-- `d[k]`. -/
def dictGet {α : Type} (d : Dict α) (k : Str) : Py α :=
  match d with
  | [] => .error .keyError
  | (k', v) :: rest => if k' = k then .ok v else dictGet rest k

/-- `d[k] = v`: an existing key keeps its place. -/
def dictSet {α : Type} (d : Dict α) (k : Str) (v : α) : Dict α :=
  match d with
  | [] => [(k, v)]
  | (k', v') :: rest => if k' = k then (k', v) :: rest else (k', v') :: dictSet rest k v

/-- ICUDataFile.py:66-68 the class attributes. -/
structure State where
  fileData : List Nat
  dataOffsets : Dict Nat

/-- ICUDataFile.py:67-68 the values at import. -/
def State.initial : State := ⟨[], []⟩

/-- The text before the first zero byte; running off the end is an `IndexError`. `chr` of a byte is the byte. -/
def untilNul : List Nat → Py Str
  | [] => .error .indexError
  | c :: cs => if c ≠ 0 then do let r ← untilNul cs; .ok (c :: r) else .ok []

/-- ICUDataFile.py:70-78 `getString`. -/
def State.getString (s : State) (offset : Nat) : Py Str := untilNul (s.fileData.drop offset)

/-- ICUDataFile.py:80-84 `getName`: `str.index` raises `ValueError` when there is no `/`. -/
def State.getName (s : State) (offset : Nat) : Py Str := do
  let name ← s.getString offset
  if 47 ∈ name then .ok (name.drop (name.idxOf 47 + 1)) else .error .valueError

/-- ICUDataFile.py:86-88 `getDataOffset`. -/
def State.getDataOffset (s : State) (name : Str) : Py Nat := dictGet s.dataOffsets name

/-- ICUDataFile.py:90-92 `getData`. -/
def State.getData (s : State) (startOffset limitOffset : Nat) : List Nat := slice s.fileData startOffset limitOffset

/-- ICUDataFile.py:19-35 `dataHeaderLength`. -/
def dataHeaderLength : Nat := 24

/-- ICUDataFile.py:37-56 `DataHeader`: the two-byte fields, and the single bytes (magic numbers, flags, format and versions)
in file order. No code reads anything but `headerLength`. -/
structure DataHeader where
  headerLength : Nat
  infoSize : Nat
  reservedWord : Nat
  magic : List Nat
  flags : List Nat
  deriving DecidableEq

/-- `sstruct.unpack(dataHeaderFormat, b)`. -/
def unpackHeader (b : List Nat) : Py DataHeader :=
  if b.length = dataHeaderLength then
    .ok ⟨leValue (slice b 0 2), leValue (slice b 4 6), leValue (slice b 6 8), slice b 2 4, slice b 8 24⟩
  else .error .structError

/-- ICUDataFile.py:94-99 `getDataOffsetAndHeader`. -/
def State.getDataOffsetAndHeader (s : State) (name : Str) : Py (Nat × DataHeader) := do
  let dataOffset ← dictGet s.dataOffsets name
  let header ← unpackHeader (slice s.fileData dataOffset (dataOffset + dataHeaderLength))
  .ok (dataOffset, header)

/-- ICUDataFile.py:59 `_tocEntryLength`. -/
def tocEntryLength : Nat := 8

/-- ICUDataFile.py:121-127 the loop over the table of contents, with `n` rounds to go. The state is returned also when the
loop ends by an exception. -/
def tocLoop (headerLength : Nat) : Nat → Nat → State → State × Py Unit
  | 0, _, s => (s, .ok ())
  | n + 1, tocEntryStart, s =>
    match unpack 4 2 (slice s.fileData tocEntryStart (tocEntryStart + tocEntryLength)) with
    | .error e => (s, .error e)
    | .ok te =>
      match s.getName (te.getD 0 0 + headerLength) with
      | .error e => (s, .error e)
      | .ok name =>
        tocLoop headerLength n (tocEntryStart + tocEntryLength)
          { s with dataOffsets := dictSet s.dataOffsets name (te.getD 1 0 + headerLength) }

/-- ICUDataFile.py:101-127 `_populateData`; `file` is what reading the data file gives at the time of the call. -/
def populateData (file : List Nat) (s : State) : State × Py Unit :=
  if s.fileData ≠ [] then (s, .ok ())
  else
    let s : State := { s with fileData := file }
    match unpackHeader (slice s.fileData 0 dataHeaderLength) with
    | .error e => (s, .error e)
    | .ok header =>
      let tocOffset := header.headerLength
      match unpack 4 1 (slice s.fileData tocOffset (tocOffset + 4)) with
      | .error e => (s, .error e)
      | .ok c => tocLoop header.headerLength (c.getD 0 0) (tocOffset + 4) s

/-- ICUDataFile.py:129-130 `__init__`. -/
def construct (file : List Nat) (s : State) : State × Py Unit := populateData file s

end Verif.ICUData

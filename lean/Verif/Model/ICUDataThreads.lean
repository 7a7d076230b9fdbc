import Verif.Model.ICUDataFile
/-!
# Several threads that construct `ICUData` objects

`CharNames.py:363` and `LayoutProps.py:32` make an `ICUData` object when they are imported, and Python's locks on imports are one for each
module; `Normalizer2.py:131` makes one in every call of `createFromFileData`. The class attributes are shared, and `_populateData` (ICUDataFile.py:101-127) has no lock. A step of
a thread is one of the accesses to these attributes, with the computations on local variables that go with it. The file has the
same contents at every reading.
-/
namespace Verif.ICUData

/-- Where a thread is inside `_populateData`. -/
inductive Pc
  /-- ICUDataFile.py:103, before the comparison. -/
  | check
  /-- ICUDataFile.py:106-107, before the file is read. -/
  | read
  /-- ICUDataFile.py:109-116. -/
  | header
  /-- ICUDataFile.py:121-124: `n` rounds of the loop are left, the next entry is at `p`. -/
  | entry (headerLength n p : Nat)
  /-- ICUDataFile.py:125, before an offset is stored. -/
  | store (headerLength n p : Nat) (name : Str) (offset : Nat)
  /-- The constructor has returned; `loaded` if this thread went through the loop. -/
  | returned (loaded : Bool)
  /-- The constructor has raised an exception. -/
  | failed (e : PyErr)
  deriving DecidableEq

/-- One step of a thread. -/
def stepThread (file : List Nat) (s : State) : Pc → State × Pc
  | .check => if s.fileData ≠ [] then (s, .returned false) else (s, .read)
  | .read => ({ s with fileData := file }, .header)
  | .header =>
    match unpackHeader (slice s.fileData 0 dataHeaderLength) with
    | .error e => (s, .failed e)
    | .ok header =>
      match unpack 4 1 (slice s.fileData header.headerLength (header.headerLength + 4)) with
      | .error e => (s, .failed e)
      | .ok c => (s, .entry header.headerLength (c.getD 0 0) (header.headerLength + 4))
  | .entry _ 0 _ => (s, .returned true)
  | .entry headerLength (n + 1) p =>
    match unpack 4 2 (slice s.fileData p (p + tocEntryLength)) with
    | .error e => (s, .failed e)
    | .ok te =>
      match s.getName (te.getD 0 0 + headerLength) with
      | .error e => (s, .failed e)
      | .ok name => (s, .store headerLength n (p + tocEntryLength) name (te.getD 1 0 + headerLength))
  | .store headerLength n p name offset =>
    ({ s with dataOffsets := dictSet s.dataOffsets name offset }, .entry headerLength n p)
  | .returned b => (s, .returned b)
  | .failed e => (s, .failed e)

/-- The class attributes and the threads. -/
structure Process where
  state : State
  threads : List Pc

/-- `k` threads before their first steps. -/
def Process.start (k : Nat) : Process := ⟨State.initial, List.replicate k .check⟩

/-- A step of thread number `t`. -/
def Process.step (file : List Nat) (w : Process) (t : Nat) : Process :=
  match w.threads[t]? with
  | none => w
  | some pc =>
    let (s, pc') := stepThread file w.state pc
    ⟨s, w.threads.set t pc'⟩

/-- A schedule: the numbers of the threads in the order of their steps. -/
def Process.run (file : List Nat) (w : Process) (schedule : List Nat) : Process := schedule.foldl (Process.step file) w

end Verif.ICUData

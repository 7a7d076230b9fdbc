import Verif.Model.Table
import Verif.Model.Utilities
/-!
# Model of `UnicodeData/Utrie2.py`

Code points are natural numbers: negative arguments (which Python would use as indices from the end) are not
modelled. `x >> n` is `x / 2 ^ n`, `x << n` is `x * 2 ^ n`, `x & (2 ^ n - 1)` is `x % 2 ^ n`.
-/
namespace Verif

/-- Utrie2.py:42-50 the fields `UTrie2.__init__` stores. `dataLength` (line 45) is never read and is omitted. -/
structure UTrie2 where
  index : Arr
  indexLength : Nat
  index2NullOffset : Nat
  dataNullOffset : Nat
  highStart : Nat
  highValueIndex : Nat
  initialValue : Nat := 0

namespace UTrie2

/-- Utrie2.py:14 `SHIFT_1`. -/
def SHIFT_1 : Nat := 6 + 5
/-- Utrie2.py:15 `SHIFT_2`. -/
def SHIFT_2 : Nat := 5
/-- Utrie2.py:16 `SHIFT_1_2`. -/
def SHIFT_1_2 : Nat := SHIFT_1 - SHIFT_2
/-- Utrie2.py:18 `OMITTED_BMP_INDEX_1_LENGTH`. -/
def OMITTED_BMP_INDEX_1_LENGTH : Nat := 0x10000 / 2 ^ SHIFT_1
/-- Utrie2.py:19 `CP_PER_INDEX_1_ENTRY`. -/
def CP_PER_INDEX_1_ENTRY : Nat := 2 ^ SHIFT_1
/-- Utrie2.py:21 `INDEX_2_BLOCK_LENGTH`. -/
def INDEX_2_BLOCK_LENGTH : Nat := 2 ^ SHIFT_1_2
/-- Utrie2.py:24 `DATA_BLOCK_LENGTH`. -/
def DATA_BLOCK_LENGTH : Nat := 2 ^ SHIFT_2
/-- Utrie2.py:27 `INDEX_SHIFT`. -/
def INDEX_SHIFT : Nat := 2
/-- Utrie2.py:31 `LSCP_INDEX_2_OFFSET`. -/
def LSCP_INDEX_2_OFFSET : Nat := 0x10000 / 2 ^ SHIFT_2
/-- Utrie2.py:32 `LSCP_INDEX_2_LENGTH`. -/
def LSCP_INDEX_2_LENGTH : Nat := 0x400 / 2 ^ SHIFT_2
/-- Utrie2.py:33 `INDEX_2_BMP_LENGTH`. -/
def INDEX_2_BMP_LENGTH : Nat := LSCP_INDEX_2_OFFSET + LSCP_INDEX_2_LENGTH
/-- Utrie2.py:34 `UTF8_2B_INDEX_2_OFFSET`. -/
def UTF8_2B_INDEX_2_OFFSET : Nat := INDEX_2_BMP_LENGTH
/-- Utrie2.py:35 `UTF8_2B_INDEX_2_LENGTH`. -/
def UTF8_2B_INDEX_2_LENGTH : Nat := 0x800 / 2 ^ 6
/-- Utrie2.py:37 `INDEX_1_OFFSET`. -/
def INDEX_1_OFFSET : Nat := UTF8_2B_INDEX_2_OFFSET + UTF8_2B_INDEX_2_LENGTH
/-- Utrie2.py:39 `BAD_UTF8_DATA_OFFSET`. -/
def BAD_UTF8_DATA_OFFSET : Nat := 0x80

/-- Utrie2.py:52-53 `indexRaw`; `offset` is the (possibly negative in Python, never so in the callers) constant
added to the index-2 position. `INDEX_2_MASK`/`DATA_MASK` (22, 25) are the remainders by the block lengths. -/
def indexRaw (t : UTrie2) (offset c : Nat) : Py Nat := do
  let e ← t.index.get (offset + c / 2 ^ SHIFT_2)
  return e * 2 ^ INDEX_SHIFT + c % DATA_BLOCK_LENGTH

/-- Utrie2.py:63-67 `indexFromSupp`. -/
def indexFromSupp (t : UTrie2) (c : Nat) : Py Nat := do
  let index1 := (INDEX_1_OFFSET - OMITTED_BMP_INDEX_1_LENGTH) + c / 2 ^ SHIFT_1
  let i2 ← t.index.get index1
  let index2 := i2 + c / 2 ^ SHIFT_2 % INDEX_2_BLOCK_LENGTH
  let e ← t.index.get index2
  return e * 2 ^ INDEX_SHIFT + c % DATA_BLOCK_LENGTH

/-- Utrie2.py:81-92 `indexFromCodePoint`. -/
def indexFromCodePoint (t : UTrie2) (asciiOffset c : Nat) : Py Nat :=
  if c < 0xD800 then t.indexRaw 0 c
  else if c ≤ 0xFFFF then
    t.indexRaw (if c ≥ 0xDC00 then 0 else LSCP_INDEX_2_OFFSET - 0xD800 / 2 ^ SHIFT_2) c
  else if c ≥ 0x10FFFF then .ok (asciiOffset + BAD_UTF8_DATA_OFFSET)
  else if c ≥ t.highStart then .ok t.highValueIndex
  else t.indexFromSupp c

/-- Utrie2.py:94-95 `get`. -/
def get (t : UTrie2) (c : Nat) : Py Nat := do
  let i ← t.indexFromCodePoint t.indexLength c
  t.index.get i

/-! ## The enumerator

The generator is modelled by the list of `(range, value)` pairs it yields when it is exhausted; an exception
raised on the way is the result (the pairs yielded before it are not observed). -/

/-- A yielded pair: `range(start, stop), value`. -/
structure Run (α : Type) where
  start : Nat
  stop : Nat
  value : α
  deriving DecidableEq, Repr

/-- The local variables of `enumerator` (Utrie2.py:103-110); `none` is the `-1` of lines 104-105. -/
structure EState (α : Type) where
  out : List (Run α)
  prevI2Block : Option Nat
  prevBlock : Option Nat
  prev : Nat
  prevValue : α
  c : Nat

variable {α : Type} [DecidableEq α]

/-- Utrie2.py:147-152, 183-187, 195-199, 208-212: when `value` differs from the value of the open range, yield
the open range if it is not empty and open a new one at `c`. -/
def EState.switch (s : EState α) (value : α) : EState α :=
  if value ≠ s.prevValue then
    { s with
      out := if s.prev < s.c then s.out ++ [⟨s.prev, s.c, s.prevValue⟩] else s.out
      prev := s.c
      prevValue := value }
  else s

/-- Utrie2.py:193-201: the loop over the entries `block + j`, `n` of them left. -/
def enumValues (t : UTrie2) (f : Nat → α) (block : Nat) : Nat → Nat → EState α → Py (EState α)
  | 0, _, s => .ok s
  | n + 1, j, s => do
    let v ← t.index.get (block + j)
    let s' := s.switch (f v)
    enumValues t f block n (j + 1) { s' with c := s'.c + 1 }

/-- Utrie2.py:173-201: the body of the loop over the data blocks of an index-2 block. `jLimit` (line 192) may be
negative in Python; here the truncated subtraction gives 0, and the loop is empty in both cases. -/
def enumBlock (t : UTrie2) (f : Nat → α) (tempLimit i2Block i2 : Nat) (s : EState α) : Py (EState α) := do
  let e ← t.index.get (i2Block + i2)
  let block := e * 2 ^ INDEX_SHIFT
  if s.prevBlock = some block ∧ s.c - s.prev ≥ DATA_BLOCK_LENGTH then
    return { s with c := s.c + DATA_BLOCK_LENGTH }
  else
    let s := { s with prevBlock := some block }
    if block = t.dataNullOffset then
      let s := s.switch (f t.initialValue)
      return { s with c := s.c + DATA_BLOCK_LENGTH }
    else
      let jStart := s.c % DATA_BLOCK_LENGTH
      let jLimit := min DATA_BLOCK_LENGTH (jStart + tempLimit - s.c)
      enumValues t f block (jLimit - jStart) jStart s

/-- Utrie2.py:172: the loop over `i2`, `n` blocks left. -/
def enumBlocks (t : UTrie2) (f : Nat → α) (tempLimit i2Block : Nat) : Nat → Nat → EState α → Py (EState α)
  | 0, _, s => .ok s
  | n + 1, i2, s => do
    let s ← enumBlock t f tempLimit i2Block i2 s
    enumBlocks t f tempLimit i2Block n (i2 + 1) s

/-- Utrie2.py:155-172: bounds of the loop over the data blocks of the index-2 block of `c`. The truncated
subtraction is line 164. -/
def i2Bounds (c tempLimit i2Block : Nat) : Nat × Nat :=
  if c ≤ 0xFFFF then (0, tempLimit / 2 ^ SHIFT_2 - i2Block)
  else
    (c / 2 ^ SHIFT_2 % INDEX_2_BLOCK_LENGTH,
      if c / 2 ^ SHIFT_1 ≠ tempLimit / 2 ^ SHIFT_1 then INDEX_2_BLOCK_LENGTH
      else tempLimit / 2 ^ SHIFT_2 % INDEX_2_BLOCK_LENGTH)

/-- Utrie2.py:144-201: the rest of one pass of the main loop once `i2Block` and `tempLimit` are known. -/
def enumGroup (t : UTrie2) (f : Nat → α) (tempLimit i2Block : Nat) (s : EState α) : Py (EState α) :=
  let s := { s with prevI2Block := some i2Block }
  if i2Block = t.index2NullOffset then
    let s :=
      if s.prevValue ≠ f t.initialValue then
        { s.switch (f t.initialValue) with prevBlock := some t.dataNullOffset }
      else s
    .ok { s with c := s.c + CP_PER_INDEX_1_ENTRY }
  else
    let b := i2Bounds s.c tempLimit i2Block
    enumBlocks t f tempLimit i2Block (b.2 + 1 - b.1) b.1 s

/-- Utrie2.py:112-201: one pass of the main loop. -/
def enumPass (t : UTrie2) (f : Nat → α) (limit : Nat) (s : EState α) : Py (EState α) :=
  let tempLimit := min (s.c + CP_PER_INDEX_1_ENTRY) limit
  if s.c ≤ 0xFFFF then
    if ¬ Utilities.isSurrogate s.c then
      enumGroup t f (if tempLimit > 0x10000 then 0x10000 else tempLimit) (s.c / 2 ^ SHIFT_2) s
    else if Utilities.isSurrogateLead s.c then
      enumGroup t f (min 0xDC00 limit) LSCP_INDEX_2_OFFSET s
    else
      enumGroup t f (min 0xE000 limit) (0xDC00 / 2 ^ SHIFT_2) s
  else do
    let i2Block ← t.index.get ((INDEX_1_OFFSET - OMITTED_BMP_INDEX_1_LENGTH) + s.c / 2 ^ SHIFT_1)
    if some i2Block = s.prevI2Block ∧ s.c - s.prev ≥ CP_PER_INDEX_1_ENTRY then
      return { s with c := s.c + CP_PER_INDEX_1_ENTRY }
    else enumGroup t f tempLimit i2Block s

/-- Utrie2.py:111: the main loop with fuel. -/
def enumLoop (t : UTrie2) (f : Nat → α) (limit : Nat) : Nat → EState α → Py (EState α)
  | 0, s => if s.c < limit ∧ s.c < t.highStart then .error .diverges else .ok s
  | n + 1, s =>
    if s.c < limit ∧ s.c < t.highStart then do
      let s ← enumPass t f limit s
      enumLoop t f limit n s
    else .ok s

/-- Utrie2.py:203-217: after the main loop. -/
def enumFinish (t : UTrie2) (f : Nat → α) (limit : Nat) (s : EState α) : Py (List (Run α)) := do
  let s ←
    (if s.c > limit then (.ok { s with c := limit } : Py (EState α))
     else if s.c < limit then do
       let v ← t.index.get t.highValueIndex
       let s := s.switch (f v)
       return { s with c := limit }
     else .ok s)
  return if s.prev < s.c then s.out ++ [⟨s.prev, s.c, s.prevValue⟩] else s.out

/-- Utrie2.py:97-217 `enumerator(start, limit, valueFunction)`. The value function is a pure total function of
the entry; its keyword arguments are part of it. -/
def enumerator (t : UTrie2) (f : Nat → α) (start limit : Nat) : Py (List (Run α)) := do
  let s ← enumLoop t f limit (limit - start) ⟨[], none, none, start, f 0, start⟩
  enumFinish t f limit s

end UTrie2
end Verif

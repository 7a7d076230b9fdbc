import Verif.Model.Utrie2
/-!
# Model of `UnicodeData/CPTrie.py`

Code points are natural numbers: negative arguments (which Python would use as indices from the end) are not
modelled. `x >> n` is `x / 2 ^ n`, `x << n` is `x * 2 ^ n`, `x & (2 ^ n - 1)` is `x % 2 ^ n`. Truncated subtraction in
`dataLength - 1` and `dataLength - 2` selects the same entry as Python's negative index does on arrays that short.
-/
namespace Verif

/-- CPTrie.py:151-161 the fields `CPTrie.__init__` stores. `indexLength` (line 154, set to `index[0]` and never read)
and `dataLength` (the length of `data`) are omitted. -/
structure CPTrie where
  index : Arr
  data : Arr
  trieType : Nat
  valueWidth : Nat
  index3NullOffset : Nat
  dataNullOffset : Nat
  highStart : Nat
  shifted12HighStart : Nat

namespace CPTrie

/-- CPTrie.py:16 `UCPTRIE_FAST_SHIFT`. -/
def FAST_SHIFT : Nat := 6
/-- CPTrie.py:19 `UCPTRIE_FAST_DATA_BLOCK_LENGTH`. -/
def FAST_DATA_BLOCK_LENGTH : Nat := 2 ^ FAST_SHIFT
/-- CPTrie.py:25 `UCPTRIE_SMALL_MAX`. -/
def SMALL_MAX : Nat := 0xFFF
/-- CPTrie.py:31 `UCPTRIE_ERROR_VALUE_NEG_DATA_OFFSET`. -/
def ERROR_VALUE_NEG_DATA_OFFSET : Nat := 1
/-- CPTrie.py:37 `UCPTRIE_HIGH_VALUE_NEG_DATA_OFFSET`. -/
def HIGH_VALUE_NEG_DATA_OFFSET : Nat := 2
/-- CPTrie.py:40 `UCPTRIE_BMP_INDEX_LENGTH`. -/
def BMP_INDEX_LENGTH : Nat := 0x10000 / 2 ^ FAST_SHIFT
/-- CPTrie.py:42 `UCPTRIE_SMALL_LIMIT`. -/
def SMALL_LIMIT : Nat := 0x1000
/-- CPTrie.py:43 `UCPTRIE_SMALL_INDEX_LENGTH`. -/
def SMALL_INDEX_LENGTH : Nat := SMALL_LIMIT / 2 ^ FAST_SHIFT
/-- CPTrie.py:46 `UCPTRIE_SHIFT_3`. -/
def SHIFT_3 : Nat := 4
/-- CPTrie.py:49 `UCPTRIE_SHIFT_2`. -/
def SHIFT_2 : Nat := 5 + SHIFT_3
/-- CPTrie.py:52 `UCPTRIE_SHIFT_1`. -/
def SHIFT_1 : Nat := 5 + SHIFT_2
/-- CPTrie.py:57 `UCPTRIE_SHIFT_2_3`. -/
def SHIFT_2_3 : Nat := SHIFT_2 - SHIFT_3
/-- CPTrie.py:62 `UCPTRIE_SHIFT_1_2`. -/
def SHIFT_1_2 : Nat := SHIFT_1 - SHIFT_2
/-- CPTrie.py:67 `UCPTRIE_OMITTED_BMP_INDEX_1_LENGTH`. -/
def OMITTED_BMP_INDEX_1_LENGTH : Nat := 0x10000 / 2 ^ SHIFT_1
/-- CPTrie.py:70 `UCPTRIE_INDEX_2_BLOCK_LENGTH`. -/
def INDEX_2_BLOCK_LENGTH : Nat := 2 ^ SHIFT_1_2
/-- CPTrie.py:76 `UCPTRIE_CP_PER_INDEX_2_ENTRY`. -/
def CP_PER_INDEX_2_ENTRY : Nat := 2 ^ SHIFT_2
/-- CPTrie.py:79 `UCPTRIE_INDEX_3_BLOCK_LENGTH`. -/
def INDEX_3_BLOCK_LENGTH : Nat := 2 ^ SHIFT_2_3
/-- CPTrie.py:85 `UCPTRIE_SMALL_DATA_BLOCK_LENGTH`. -/
def SMALL_DATA_BLOCK_LENGTH : Nat := 2 ^ SHIFT_3
/-- CPTrie.py:91 `UCPTRIE_TYPE_FAST`. -/
def TYPE_FAST : Nat := 0
/-- CPTrie.py:92 `UCPTRIE_TYPE_SMALL`. -/
def TYPE_SMALL : Nat := 1
/-- CPTrie.py:95 `UCPTRIE_VALUE_BITS_16`. -/
def VALUE_BITS_16 : Nat := 0
/-- CPTrie.py:96 `UCPTRIE_VALUE_BITS_32`. -/
def VALUE_BITS_32 : Nat := 1
/-- CPTrie.py:99 `UCPTRIE_OPTIONS_DATA_LENGTH_MASK`. -/
def OPTIONS_DATA_LENGTH_MASK : Nat := 0xF000
/-- CPTrie.py:100 `UCPTRIE_OPTIONS_DATA_NULL_OFFSET_MASK`. -/
def OPTIONS_DATA_NULL_OFFSET_MASK : Nat := 0xF00
/-- CPTrie.py:102 `UCPTRIE_OPTIONS_VALUE_BITS_MASK`. -/
def OPTIONS_VALUE_BITS_MASK : Nat := 7

/-- CPTrie.py:151-161 `__init__`; line 154 reads `index[0]`, so that an empty index raises. -/
def init (index data : Arr) (trieType valueWidth index3NullOffset dataNullOffset highStart shifted12HighStart : Nat) :
    Py CPTrie := do
  let _ ← index.get 0
  return ⟨index, data, trieType, valueWidth, index3NullOffset, dataNullOffset, highStart, shifted12HighStart⟩

/-! ## Lookup -/

/-- CPTrie.py:197-198 `fastIndex`. -/
def fastIndex (t : CPTrie) (c : Nat) : Py Nat := do
  let e ← t.index.get (c / 2 ^ FAST_SHIFT)
  return e + c % FAST_DATA_BLOCK_LENGTH

/-- CPTrie.py:201-206, 265-271: the position of the index-1 entry. -/
def index1 (t : CPTrie) (c : Nat) : Nat :=
  c / 2 ^ SHIFT_1 + (if t.trieType = TYPE_FAST then BMP_INDEX_LENGTH - OMITTED_BMP_INDEX_1_LENGTH else SMALL_INDEX_LENGTH)

/-- CPTrie.py:208, 273: the index-3 block of `c`. -/
def i3BlockOf (t : CPTrie) (c : Nat) : Py Nat := do
  let i2 ← t.index.get (t.index1 c)
  t.index.get (i2 + c / 2 ^ SHIFT_2 % INDEX_2_BLOCK_LENGTH)

/-- CPTrie.py:211-219, 299-306: entry `i3` of an index-3 block, with 16-bit entries or (bit 15 set) with 18-bit
entries in groups of 9 words per 8 entries. `i3 & ~7` is `i3 / 8 * 8`. The two copies in the file
(`index[i3Block + 1 + i3]` and `index[group + gi + 1]`) read the same words. -/
def blockAt (t : CPTrie) (i3Block i3 : Nat) : Py Nat :=
  if i3Block &&& 0x8000 = 0 then t.index.get (i3Block + i3)
  else do
    let group := (i3Block &&& 0x7FFF) + i3 / 8 * 8 + i3 / 2 ^ 3
    let gi := i3 % 8
    let hi ← t.index.get group
    let lo ← t.index.get (group + gi + 1)
    return (hi * 2 ^ (2 + 2 * gi) &&& 0x30000) ||| lo

/-- CPTrie.py:200-221 `internalSmallIndex`. -/
def internalSmallIndex (t : CPTrie) (c : Nat) : Py Nat := do
  let i3Block ← t.i3BlockOf c
  let dataBlock ← t.blockAt i3Block (c / 2 ^ SHIFT_3 % INDEX_3_BLOCK_LENGTH)
  return dataBlock + c % SMALL_DATA_BLOCK_LENGTH

/-- CPTrie.py:223-226 `smallIndex`. -/
def smallIndex (t : CPTrie) (c : Nat) : Py Nat :=
  if c ≥ t.highStart then .ok (t.data.size - HIGH_VALUE_NEG_DATA_OFFSET) else t.internalSmallIndex c

/-- CPTrie.py:228-235 `cpIndex`. -/
def cpIndex (t : CPTrie) (fastMax c : Nat) : Py Nat :=
  if c ≤ fastMax then t.fastIndex c
  else if c ≤ 0x10FFFF then t.smallIndex c
  else .ok (t.data.size - ERROR_VALUE_NEG_DATA_OFFSET)

/-- CPTrie.py:237-244 `get`. -/
def get (t : CPTrie) (c : Nat) : Py Nat := do
  let dataIndex ←
    (if c ≤ 0x7F then (.ok c : Py Nat)
     else t.cpIndex (if t.trieType = TYPE_FAST then 0xFFFF else SMALL_MAX) c)
  t.data.get dataIndex

/-! ## The enumerator

As for `UTrie2`, the generator is modelled by the list of pairs it yields when it is exhausted. -/

open UTrie2 (Run)

/-- The local variables of `enumerator` (CPTrie.py:250-256); `none` is the `-1` of lines 250-251. -/
structure EState where
  out : List (Run Nat)
  prevI3Block : Option Nat
  prevBlock : Option Nat
  prev : Nat
  prevValue : Nat
  c : Nat
  deriving DecidableEq

/-- CPTrie.py:283-286, 317-320, 326-329, 335-338: when `value` differs from the value of the open range, yield
the open range if it is not empty and open a new one at `c`. -/
def EState.switch (s : EState) (value : Nat) : EState :=
  if value ≠ s.prevValue then
    { s with
      out := if s.prev < s.c then s.out ++ [⟨s.prev, s.c, s.prevValue⟩] else s.out
      prev := s.c
      prevValue := value }
  else s

/-- CPTrie.py:333-340: the loop over the rest of a data block, with fuel. `n` is the block length. -/
def enumValues (t : CPTrie) (limit n : Nat) : Nat → Nat → EState → Py EState
  | 0, _, s => if s.c < limit ∧ s.c % n ≠ 0 then .error .diverges else .ok s
  | fuel + 1, di, s =>
    if s.c < limit ∧ s.c % n ≠ 0 then do
      let v ← t.data.get di
      let s' := s.switch v
      enumValues t limit n fuel (di + 1) { s' with c := s'.c + 1 }
    else .ok s

/-- CPTrie.py:299-340: the body of the loop over the data blocks of an index-3 block; `n` is `dataBlockLength`.
`c & ~dataMask` is `c / n * n`. The fuel `n` of the inner loop always suffices. -/
def enumBlock (t : CPTrie) (start limit nullValue n i3Block i3 : Nat) (s : EState) : Py EState := do
  let block ← t.blockAt i3Block i3
  if s.prevBlock = some block ∧ s.c - start ≥ n then
    if s.c % n = 0 then return { s with c := s.c + n } else throw .assertionError
  else
    let s := { s with prevBlock := some block }
    if block = t.dataNullOffset then
      let s := s.switch nullValue
      return { s with c := (s.c + n) / n * n }
    else
      let di := block + s.c % n
      let v ← t.data.get di
      let s := s.switch v
      enumValues t limit n n (di + 1) { s with c := s.c + 1 }

/-- CPTrie.py:297-298: the loop over `i3`, `k` of its values left. -/
def enumBlocks (t : CPTrie) (start limit nullValue n i3Block : Nat) : Nat → Nat → EState → Py EState
  | 0, _, s => .ok s
  | k + 1, i3, s =>
    if s.c ≥ limit then .ok s
    else do
      let s ← enumBlock t start limit nullValue n i3Block i3 s
      enumBlocks t start limit nullValue n i3Block k (i3 + 1) s

/-- CPTrie.py:258-340: one pass of the main loop. -/
def enumPass (t : CPTrie) (start limit nullValue : Nat) (s : EState) : Py EState :=
  if s.c ≤ 0xFFFF ∧ (t.trieType = TYPE_FAST ∨ s.c ≤ SMALL_MAX) then
    let i3Start := s.c / 2 ^ FAST_SHIFT
    enumBlocks t start limit nullValue FAST_DATA_BLOCK_LENGTH 0 (FAST_DATA_BLOCK_LENGTH - i3Start) i3Start s
  else if ¬ (if t.trieType = TYPE_FAST then 0xFFFF < s.c ∧ s.c < t.highStart
      else s.c < t.highStart ∧ t.highStart > SMALL_LIMIT) then .error .assertionError
  else do
    let i3Block ← t.i3BlockOf s.c
    if some i3Block = s.prevI3Block ∧ s.c - start ≥ CP_PER_INDEX_2_ENTRY then
      if s.c % CP_PER_INDEX_2_ENTRY = 0 then return { s with c := s.c + CP_PER_INDEX_2_ENTRY }
      else throw .assertionError
    else
      let s := { s with prevI3Block := some i3Block }
      if i3Block = t.index3NullOffset then
        let s := s.switch nullValue
        return { s with
          prevBlock := some t.dataNullOffset
          c := (s.c + CP_PER_INDEX_2_ENTRY) / CP_PER_INDEX_2_ENTRY * CP_PER_INDEX_2_ENTRY }
      else
        let i3Start := s.c / 2 ^ SHIFT_3 % INDEX_3_BLOCK_LENGTH
        enumBlocks t start limit nullValue SMALL_DATA_BLOCK_LENGTH i3Block (SMALL_DATA_BLOCK_LENGTH - i3Start) i3Start s

/-- CPTrie.py:257: the main loop with fuel. -/
def enumLoop (t : CPTrie) (start limit nullValue : Nat) : Nat → EState → Py EState
  | 0, s => if s.c < limit ∧ s.c < t.highStart then .error .diverges else .ok s
  | n + 1, s =>
    if s.c < limit ∧ s.c < t.highStart then do
      let s ← enumPass t start limit nullValue s
      enumLoop t start limit nullValue n s
    else .ok s

/-- CPTrie.py:342-351: after the main loop. Lines 344-348 may yield the open range, which line 351 yields again. -/
def enumFinish (t : CPTrie) (limit : Nat) (s : EState) : Py (List (Run Nat)) := do
  let s ←
    (if s.c > limit then (.ok { s with c := limit } : Py EState)
     else if s.c < limit then do
       let highValue ← t.data.get (t.data.size - HIGH_VALUE_NEG_DATA_OFFSET)
       return if highValue ≠ s.prevValue then
         { s with out := if s.prev < s.c then s.out ++ [⟨s.prev, s.c, s.prevValue⟩] else s.out }
       else s
     else .ok s)
  return if s.prev < s.c then s.out ++ [⟨s.prev, s.c, s.prevValue⟩] else s.out

/-- CPTrie.py:246-351 `enumerator(start, limit)` with at most `fuel` passes of the main loop. -/
def enumeratorFuel (t : CPTrie) (start limit fuel : Nat) : Py (List (Run Nat)) :=
  if start ≥ 0x110000 ∨ start ≥ t.highStart then .ok []
  else do
    let nullValue ← t.data.get t.dataNullOffset
    let s ← enumLoop t start limit nullValue fuel ⟨[], none, none, start, nullValue, start⟩
    enumFinish t limit s

/-- CPTrie.py:246-351 `enumerator(start, limit)`. A pass that does not advance `c` is repeated at most once without
either raising or staying in the same state for ever, so that this fuel runs out only for an endless loop. -/
def enumerator (t : CPTrie) (start limit : Nat) : Py (List (Run Nat)) :=
  t.enumeratorFuel start limit (2 * (limit - start) + 2)

end CPTrie
end Verif

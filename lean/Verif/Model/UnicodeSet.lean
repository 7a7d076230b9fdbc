import Verif.Model.Py
/-!
# Model of `UnicodeData/UnicodeSet.py`

A set object is modelled by the value of its attribute `self.list`. Mutators return the new value of
`self.list`. (`Model/UnicodeSetHeap.lean` models the sharing of list objects.)
-/
namespace Verif.USet

/-- UnicodeSet.py:16 `UNICODE_SET_HIGH = 0x0110000`. -/
def HIGH : Int := 0x110000

/-- UnicodeSet.py:19 `UNICODE_SET_LOW = 0x0000000`. -/
def LOW : Int := 0

/-- UnicodeSet.py:23-37 `_pinCodePoint`. -/
def pinCodePoint (cp : Int) : Int :=
  if cp < LOW then LOW
  else if cp > HIGH - 1 then HIGH - 1
  else cp

/-- UnicodeSet.py:87-98, the `while True` of `_findCodePoint`, with fuel. `lo` and `hi` never become
negative, so they are `Nat` and `(lo + hi) >> 1` is `(lo + hi) / 2`. -/
def findLoop (l : List Int) (cp : Int) : Nat → Nat → Nat → Py Nat
  | 0, _, _ => .error .diverges
  | fuel + 1, lo, hi =>
    let i := (lo + hi) / 2
    if i = lo then .ok hi
    else do
      let li ← pyGet l i
      if cp < li then findLoop l cp fuel lo i
      else findLoop l cp fuel i hi

/-- UnicodeSet.py:63-98 `_findCodePoint`. The fuel handed to the loop is the length of the list;
`Props` proves it is always enough. -/
def findCodePoint (l : List Int) (cp : Int) : Py Nat := do
  let l0 ← pyGet l 0
  if cp < l0 then return 0
  let hi := l.length - 1
  if 0 ≥ hi then return hi
  let lh ← pyGet l ((hi : Int) - 1)
  if cp ≥ lh then return hi
  findLoop l cp l.length 0 hi

/-- `a = self.list[i]; i += 1` (and the same for `b`, `j`): the model carries the not yet read
suffix of the list instead of the index, so reading is taking the head. -/
def pop : List Int → Py (Int × List Int)
  | [] => .error .indexError
  | x :: xs => .ok (x, xs)

/-- UnicodeSet.py:128-208, the loop of `_retainList`. `xs = self.list[i:]`, `ys = other[j:]`,
`pa`/`pb` are bits 0 and 1 of `polarity`, `buf` is `buffer` reversed. Every iteration reads at least one
element or leaves the loop, so `xs.length + ys.length + 1` is enough fuel. -/
def retainLoop : Nat → (pa pb : Bool) → (a b : Int) → (xs ys buf : List Int) → Py (List Int)
  | 0, _, _, _, _, _, _, _ => .error .diverges
  | fuel + 1, false, false, a, b, xs, ys, buf =>          -- polarity 0: both first; drop the smaller
    if a < b then do
      let (a', xs') ← pop xs
      retainLoop fuel true false a' b xs' ys buf
    else if b < a then do
      let (b', ys') ← pop ys
      retainLoop fuel false true a b' xs ys' buf
    else if a = HIGH then .ok buf
    else do
      let (a', xs') ← pop xs
      let (b', ys') ← pop ys
      retainLoop fuel true true a' b' xs' ys' (a :: buf)
  | fuel + 1, true, true, a, b, xs, ys, buf =>            -- polarity 3: both second; take lower if unequal
    if a < b then do
      let (a', xs') ← pop xs
      retainLoop fuel false true a' b xs' ys (a :: buf)
    else if b < a then do
      let (b', ys') ← pop ys
      retainLoop fuel true false a b' xs ys' (b :: buf)
    else if a = HIGH then .ok buf
    else do
      let (a', xs') ← pop xs
      let (b', ys') ← pop ys
      retainLoop fuel false false a' b' xs' ys' (a :: buf)
  | fuel + 1, true, false, a, b, xs, ys, buf =>           -- polarity 1: a second, b first
    if a < b then do
      let (a', xs') ← pop xs
      retainLoop fuel false false a' b xs' ys buf
    else if b < a then do
      let (b', ys') ← pop ys
      retainLoop fuel true true a b' xs ys' (b :: buf)
    else if a = HIGH then .ok buf
    else do
      let (a', xs') ← pop xs
      let (b', ys') ← pop ys
      retainLoop fuel false true a' b' xs' ys' buf
  | fuel + 1, false, true, a, b, xs, ys, buf =>           -- polarity 2: a first, b second
    if b < a then do
      let (b', ys') ← pop ys
      retainLoop fuel false false a b' xs ys' buf
    else if a < b then do
      let (a', xs') ← pop xs
      retainLoop fuel true true a' b xs' ys (a :: buf)
    else if a = HIGH then .ok buf
    else do
      let (a', xs') ← pop xs
      let (b', ys') ← pop ys
      retainLoop fuel true false a' b' xs' ys' buf

/-- UnicodeSet.py:100-212 `_retainList(self, other, polarity)`; `pa`, `pb` are the bits of `polarity`. -/
def retainList (l other : List Int) (pa pb : Bool) : Py (List Int) := do
  let (a, xs) ← pop l
  let (b, ys) ← pop other
  let buf ← retainLoop (xs.length + ys.length + 1) pa pb a b xs ys []
  return buf.reverse ++ [HIGH]

/-- UnicodeSet.py:242-333, the loop of `_addList`; conventions as in `retainLoop`. `buffer[-1]` is the
head of `buf`. -/
def addLoop : Nat → (pa pb : Bool) → (a b : Int) → (xs ys buf : List Int) → Py (List Int)
  | 0, _, _, _, _, _, _, _ => .error .diverges
  | fuel + 1, false, false, a, b, xs, ys, buf =>          -- polarity 0: both first, take lower if unequal
    if a < b then
      match buf with
      | last :: buf' =>
        if a ≤ last then do                                -- back up over overlapping ranges
          let (x, xs') ← pop xs
          addLoop fuel true false (max x last) b xs' ys buf'
        else do
          let (x, xs') ← pop xs
          addLoop fuel true false x b xs' ys (a :: buf)
      | [] => do
        let (x, xs') ← pop xs
        addLoop fuel true false x b xs' ys (a :: buf)
    else if b < a then
      match buf with
      | last :: buf' =>
        if b < last then do
          let (y, ys') ← pop ys
          addLoop fuel false true a (max y last) xs ys' buf'
        else do
          let (y, ys') ← pop ys
          addLoop fuel false true a y xs ys' (b :: buf)
      | [] => do
        let (y, ys') ← pop ys
        addLoop fuel false true a y xs ys' (b :: buf)
    else if a = HIGH then .ok buf
    else
      match buf with
      | last :: buf' =>
        if a < last then do
          let (x, xs') ← pop xs
          let (y, ys') ← pop ys
          addLoop fuel true true (max x last) y xs' ys' buf'
        else do
          let (x, xs') ← pop xs
          let (y, ys') ← pop ys
          addLoop fuel true true x y xs' ys' (a :: buf)
      | [] => do
        let (x, xs') ← pop xs
        let (y, ys') ← pop ys
        addLoop fuel true true x y xs' ys' (a :: buf)
  | fuel + 1, true, true, a, b, xs, ys, buf =>            -- polarity 3: take higher, drop other
    if b ≤ a then
      if a = HIGH then .ok buf
      else do
        let (a', xs') ← pop xs
        let (b', ys') ← pop ys
        addLoop fuel false false a' b' xs' ys' (a :: buf)
    else
      if b = HIGH then .ok buf
      else do
        let (a', xs') ← pop xs
        let (b', ys') ← pop ys
        addLoop fuel false false a' b' xs' ys' (b :: buf)
  | fuel + 1, true, false, a, b, xs, ys, buf =>           -- polarity 1: a second, b first
    if a < b then do
      let (a', xs') ← pop xs
      addLoop fuel false false a' b xs' ys (a :: buf)
    else if b < a then do
      let (b', ys') ← pop ys
      addLoop fuel true true a b' xs ys' buf
    else if a = HIGH then .ok buf
    else do
      let (a', xs') ← pop xs
      let (b', ys') ← pop ys
      addLoop fuel false true a' b' xs' ys' buf
  | fuel + 1, false, true, a, b, xs, ys, buf =>           -- polarity 2: a first, b second
    if b < a then do
      let (b', ys') ← pop ys
      addLoop fuel false false a b' xs ys' (b :: buf)
    else if a < b then do
      let (a', xs') ← pop xs
      addLoop fuel true true a' b xs' ys buf
    else if a = HIGH then .ok buf
    else do
      let (a', xs') ← pop xs
      let (b', ys') ← pop ys
      addLoop fuel true false a' b' xs' ys' buf

/-- UnicodeSet.py:214-337 `_addList(self, other)` with the default `polarity = 0`, the only value
any caller passes. -/
def addList (l other : List Int) : Py (List Int) := do
  let (a, xs) ← pop l
  let (b, ys) ← pop other
  let buf ← addLoop (xs.length + ys.length + 1) false false a b xs ys []
  return buf.reverse ++ [HIGH]

/-- UnicodeSet.py:372-388, the loop of `_exclusiveOrList`. -/
def xorLoop : Nat → (a b : Int) → (xs ys buf : List Int) → Py (List Int)
  | 0, _, _, _, _, _ => .error .diverges
  | fuel + 1, a, b, xs, ys, buf =>
    if a < b then do
      let (a', xs') ← pop xs
      xorLoop fuel a' b xs' ys (a :: buf)
    else if b < a then do
      let (b', ys') ← pop ys
      xorLoop fuel a b' xs ys' (b :: buf)
    else if a ≠ HIGH then do
      let (a', xs') ← pop xs
      let (b', ys') ← pop ys
      xorLoop fuel a' b' xs' ys' buf
    else .ok (HIGH :: buf)

/-- UnicodeSet.py:339-391 `_exclusiveOrList(self, other)` with the default `polarity = 0`, the only
value any caller passes (so line 369 `b = other[0]` applies). -/
def exclusiveOrList (l other : List Int) : Py (List Int) := do
  let (a, xs) ← pop l
  let (b, ys) ← pop other
  let buf ← xorLoop (xs.length + ys.length + 1) a b xs ys []
  return buf.reverse

/-- UnicodeSet.py:393-419 `add`. -/
def add (l : List Int) (cp : Int) : Py (List Int) := do
  let i ← findCodePoint l (pinCodePoint cp)
  if i % 2 ≠ 0 then return l
  let li ← pyGet l i
  if cp = li - 1 then
    let l1 := l.set i cp
    let l2 := if cp = HIGH - 1 then l1 ++ [HIGH] else l1
    if i > 0 then
      let p ← pyGet l2 ((i : Int) - 1)
      if cp = p then return l2.take (i - 1) ++ l2.drop (i + 1)
      else return l2
    else return l2
  else if i > 0 then
    let p ← pyGet l ((i : Int) - 1)
    if cp = p then return l.set (i - 1) (p + 1)
    else return l.take i ++ [cp, cp + 1] ++ l.drop i
  else return l.take i ++ [cp, cp + 1] ++ l.drop i

/-- UnicodeSet.py:421-456 `addRange`. The second component tells whether the call returns `self`
(`true`) or `None` (`false`, line 447). -/
def addRangeRet (l : List Int) (start stop : Int) : Py (List Int × Bool) := do
  if pinCodePoint start < pinCodePoint stop then
    let limit := stop + 1
    let slow : Py (List Int × Bool) := do
      let l' ← addList l [start, limit, HIGH]
      return (l', true)
    if l.length % 2 ≠ 0 then
      let lastLimit ← if l.length = 1 then pure (-2) else pyGet l (-2)
      if lastLimit ≤ start then
        if lastLimit = start then
          -- `self.list[-2] = limit`
          if l.length < 2 then throw .indexError
          let l1 := l.set (l.length - 2) limit
          return (if limit = HIGH then l1.dropLast else l1, false)
        else
          -- `self.list[-1] = start`
          let l1 := l.set (l.length - 1) start
          return (if limit < HIGH then l1 ++ [limit, HIGH] else l1 ++ [HIGH], false)
      else slow
    else slow
  else if start = stop then
    let l' ← add l start
    return (l', true)
  else return (l, true)

/-- The effect of `addRange` on `self.list`. -/
def addRange (l : List Int) (start stop : Int) : Py (List Int) := do
  let r ← addRangeRet l start stop
  return r.1

/-- UnicodeSet.py:458-465 `addAll`. -/
def addAll (l other : List Int) : Py (List Int) := addList l other

/-- UnicodeSet.py:467-479 `removeRange`. -/
def removeRange (l : List Int) (start stop : Int) : Py (List Int) :=
  if pinCodePoint start < pinCodePoint stop then
    retainList l [start, stop + 1, HIGH] false true
  else .ok l

/-- UnicodeSet.py:481-488 `remove`. -/
def remove (l : List Int) (cp : Int) : Py (List Int) := removeRange l cp cp

/-- UnicodeSet.py:490-497 `removeAll`. -/
def removeAll (l other : List Int) : Py (List Int) := retainList l other false true

/-- UnicodeSet.py:499-511 `retainRange`. -/
def retainRange (l : List Int) (start stop : Int) : Py (List Int) :=
  if pinCodePoint start < pinCodePoint stop then
    retainList l [start, stop + 1, HIGH] false false
  else .ok l

/-- UnicodeSet.py:513-520 `retain`. -/
def retain (l : List Int) (cp : Int) : Py (List Int) := retainRange l cp cp

/-- UnicodeSet.py:522-529 `retainAll`. -/
def retainAll (l other : List Int) : Py (List Int) := retainList l other false false

/-- UnicodeSet.py:531-546 `complementRange`. -/
def complementRange (l : List Int) (start stop : Int) : Py (List Int) :=
  if pinCodePoint start < pinCodePoint stop then
    exclusiveOrList l [start, stop + 1, HIGH]
  else .ok l

/-- UnicodeSet.py:559-563 `complement()` with no argument. -/
def complement (l : List Int) : Py (List Int) := do
  let l0 ← pyGet l 0
  if l0 = LOW then return l.drop 1
  else return LOW :: l

/-- UnicodeSet.py:564-565 `complement(cp)`. -/
def complementInt (l : List Int) (cp : Int) : Py (List Int) := complementRange l cp cp

/-- UnicodeSet.py:566-567 `complement(range(start, stop))`; the step of the range is ignored by the code. -/
def complementPyRange (l : List Int) (start stop : Int) : Py (List Int) :=
  complementRange l start (stop - 1)

/-- UnicodeSet.py:573-580 `complementAll`. -/
def complementAll (l other : List Int) : Py (List Int) := exclusiveOrList l other

/-- UnicodeSet.py:582-585 `clear`. -/
def clear (_l : List Int) : List Int := [HIGH]

/-- UnicodeSet.py:597-599 `contains(cp)`. -/
def contains (l : List Int) (cp : Int) : Py Bool := do
  let i ← findCodePoint l cp
  return i % 2 ≠ 0

/-- UnicodeSet.py:600-604 `contains(range(start, stop))`; the step of the range is ignored by the code. -/
def containsRange (l : List Int) (start stop : Int) : Py Bool := do
  let e := stop - 1
  let i ← findCodePoint l start
  if i % 2 ≠ 0 then
    let li ← pyGet l i
    return decide (e < li)
  else return false

/-- UnicodeSet.py:699-700 `UnicodeSet()`. -/
def new : List Int := [HIGH]

/-- UnicodeSet.py:701-702 `UnicodeSet(otherSet)`. -/
def newCopy (l : List Int) : List Int := l

/-- UnicodeSet.py:703-704 `UnicodeSet(cp)`. -/
def newInt (cp : Int) : List Int := [cp, cp + 1, HIGH]

/-- UnicodeSet.py:705-706 `UnicodeSet(range(start, stop))`; the step of the range is ignored by the code. -/
def newRange (start stop : Int) : List Int := [start, stop, HIGH]

/-- UnicodeSet.py:609-617 `union`, 656-658 `__or__`. -/
def union (l other : List Int) : Py (List Int) := addAll (newCopy l) other

/-- UnicodeSet.py:619-627 `intersection`, 660-662 `__and__`. -/
def intersection (l other : List Int) : Py (List Int) := retainAll (newCopy l) other

/-- UnicodeSet.py:629-637 `difference`, 664-666 `__sub__`. -/
def difference (l other : List Int) : Py (List Int) := removeAll (newCopy l) other

/-- UnicodeSet.py:639-647 `symmetric_difference`, 668-670 `__xor__`. -/
def symmetricDifference (l other : List Int) : Py (List Int) := complementAll (newCopy l) other

/-- UnicodeSet.py:649-651 `__eq__`. -/
def eq (l other : List Int) : Bool := l = other

/-- UnicodeSet.py:653-654 `__ne__`. -/
def ne (l other : List Int) : Bool := !(eq l other)

/-- UnicodeSet.py:721-723 `getRangeCount`. -/
def getRangeCount (l : List Int) : Nat := l.length / 2

/-- UnicodeSet.py:725-732 `getRangeStart`. -/
def getRangeStart (l : List Int) (index : Int) : Py Int := pyGet l (index * 2)

/-- UnicodeSet.py:734-741 `getRangeEnd`. -/
def getRangeEnd (l : List Int) (index : Int) : Py Int := do
  let x ← pyGet l (index * 2 + 1)
  return x - 1

/-- UnicodeSet.py:714-717, the loop of `size`: indices `index, index+1, …` (`n` of them). -/
def sizeLoop (l : List Int) : (n index : Nat) → (s : Int) → Py Int
  | 0, _, s => .ok s
  | n + 1, index, s => do
    let start ← getRangeStart l index
    let stop ← getRangeEnd l index
    sizeLoop l n (index + 1) (s + (stop - start + 1))

/-- UnicodeSet.py:710-719 `size`. -/
def size (l : List Int) : Py Int := sizeLoop l (getRangeCount l) 0 0

/-- UnicodeSet.py:759-772, the loop of `indexOf` over the even indices below `len2`; the model consumes
the list two elements at a time. -/
def indexOfLoop (cp : Int) : List Int → Int → Option Int
  | start :: limit :: rest, n =>
    if cp < start then none
    else if cp < limit then some (n + cp - start)
    else indexOfLoop cp rest (n + (limit - start))
  | _, _ => none

/-- UnicodeSet.py:743-772 `indexOf`. -/
def indexOf (l : List Int) (cp : Int) : Option Int :=
  if cp < LOW ∨ cp > HIGH then none else indexOfLoop cp l 0

/-- UnicodeSet.py:786-791, the loop of `charAt`. -/
def charAtLoop : List Int → Int → Option Int
  | start :: limit :: rest, index =>
    let count := limit - start
    if index < count then some (start + index) else charAtLoop rest (index - count)
  | _, _ => none

/-- UnicodeSet.py:774-793 `charAt`. -/
def charAt (l : List Int) (index : Int) : Option Int :=
  if index ≥ 0 then charAtLoop l index else none

/-- Python `range(a, b)` with step 1, as the list of its elements. -/
def pyRange (a b : Int) : List Int := (List.range (b - a).toNat).map (fun (k : Nat) => a + (k : Int))

/-- UnicodeSet.py:811-817 `getRanges`: the `(start, stop)` of each range. The indices
`0, 2, … < len - 1` are walked two elements at a time. -/
def getRanges : List Int → List (Int × Int)
  | start :: limit :: rest => (start, limit) :: getRanges rest
  | _ => []

/-- UnicodeSet.py:819-822 `__iter__`: the list of yielded code points. -/
def iter : List Int → List Int
  | start :: limit :: rest => pyRange start limit ++ iter rest
  | _ => []

end Verif.USet

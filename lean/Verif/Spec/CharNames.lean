import Verif.Model.CharNames
/-!
# Specification of the name data

How 32 string lengths are packed in nibbles, what a tokenised string stands for, and which name tables are well formed.
-/
namespace Verif.CharNames.Spec

/-- The nibbles of a string length from 0 to 75: one nibble below 12, else two. -/
def lengthNibbles (l : Nat) : List Nat := if l < 12 then [l] else [12 + (l - 12) / 16, (l - 12) % 16]

/-- Nibbles in bytes, the first in the high half; `pad` fills the last byte when the number is odd. -/
def packNibbles (pad : Nat) : List Nat → List Nat
  | [] => []
  | [a] => [a * 16 + pad]
  | a :: b :: rest => (a * 16 + b) :: packNibbles pad rest

/-- The packed form of a list of lengths. -/
def packLengths (pad : Nat) (ls : List Nat) : List Nat := packNibbles pad (ls.flatMap lengthNibbles)

/-- Where strings of the given lengths begin when they follow each other from `o` on. -/
def offsetsFrom (o : Nat) : List Nat → List Nat
  | [] => []
  | l :: ls => o :: offsetsFrom (o + l) ls

/-- What the padding nibble adds to the decoded lengths: nothing when the last byte is full, and nothing when it is the
beginning of a two-nibble length; a length of its own otherwise. -/
def padLength (pad : Nat) (ls : List Nat) : List Nat :=
  if (ls.flatMap lengthNibbles).length % 2 = 1 ∧ pad < 12 then [pad] else []

/-- A byte that stands for itself. -/
def IsLiteral (t : Tokens) (c : Nat) : Prop := t.tokens.length ≤ c ∨ t.tokens[c]? = some 0xFFFF

/-- Token `k` stands for the word `w`: the zero-terminated text at offset `k`. -/
def WordAt (t : Tokens) (k : Nat) (w : Str) : Prop := ∃ rest, t.strings.drop k = w ++ 0 :: rest ∧ 0 ∉ w

/-- `Expands t s out`: the tokenised string `s` stands for the text `out`. A semicolon ends the field. A byte stands for
itself, for a word, or, with the byte after it, for a word; a two-byte token without a word stands for its first byte. -/
inductive Expands (t : Tokens) : List Nat → Str → Prop
  | done : Expands t [] []
  | field (rest) : IsLiteral t 59 → Expands t (59 :: rest) []
  | literal (c rest out) : IsLiteral t c → c ≠ 59 → Expands t rest out → Expands t (c :: rest) (c :: out)
  | word (c k w rest out) : t.tokens[c]? = some k → k ≠ 0xFFFE → k ≠ 0xFFFF → WordAt t k w → Expands t rest out →
      Expands t (c :: rest) (w ++ out)
  | pair (c d k w rest out) : t.tokens[c]? = some 0xFFFE → t.tokens[c * 256 + d]? = some k → k ≠ 0xFFFF → WordAt t k w →
      Expands t rest out → Expands t (c :: d :: rest) (w ++ out)
  | pairLiteral (c d rest out) : t.tokens[c]? = some 0xFFFE → t.tokens[c * 256 + d]? = some 0xFFFF → c ≠ 59 →
      Expands t rest out → Expands t (c :: d :: rest) (c :: out)
  | pairField (d rest) : t.tokens[59]? = some 0xFFFE → t.tokens[59 * 256 + d]? = some 0xFFFF → Expands t (59 :: d :: rest) []

/-- A token table is well formed: every one-byte token that stands for a word has one, and so has every two-byte token of a
lead byte, for all trail bytes. -/
structure TokensOk (t : Tokens) : Prop where
  word : ∀ c k : Nat, t.tokens[c]? = some k → k ≠ 0xFFFF → k ≠ 0xFFFE → ∃ w, WordAt t k w
  trail : ∀ c : Nat, t.tokens[c]? = some 0xFFFE → ∀ d : Nat, d < 256 →
    ∃ k, t.tokens[c * 256 + d]? = some k ∧ (k ≠ 0xFFFF → ∃ w, WordAt t k w)

/-- The code points whose names a group holds. -/
def Group.Has (g : Group) (code : Nat) : Prop := g.msb * 32 ≤ code ∧ code < g.msb * 32 + 32

/-- The code points of an algorithmic range. -/
def Range.Has (r : AlgorithmicRange) (code : Nat) : Prop := r.start ≤ code ∧ code < r.stop

/-- A name table is well formed for a name choice: groups and ranges are sorted and disjoint, except that a range may end
inside the block of a group that has no names for the codes they share; every string can be expanded; and every range is
either at least 64 long, or starts at a multiple of 32 with (unless it is the first one) a range before it that ends at a
multiple of 32 or a group in between. -/
structure WellFormed (N : Names) (nameChoice : Nat) : Prop where
  groups_ne : N.groups ≠ []
  ranges_ne : N.ranges ≠ []
  groups_sorted : N.groups.Pairwise fun a b => a.msb < b.msb
  ranges_valid : ∀ r ∈ N.ranges, r.start < r.stop
  ranges_sorted : N.ranges.Pairwise fun a b => a.stop ≤ b.start
  shared : ∀ g ∈ N.groups, ∀ r ∈ N.ranges, (∃ c, Group.Has g c ∧ Range.Has r c) →
    r.start < g.msb * 32 ∧ r.stop < g.msb * 32 + 32 ∧
      ∀ c, Group.Has g c → Range.Has r c → g.expandName N.tokens (c % 32) nameChoice = .ok []
  reach : ∀ i r, N.ranges[i]? = some r → r.start + 64 ≤ r.stop ∨ r.start % 32 = 0 ∧
    ∀ j p, i = j + 1 → N.ranges[j]? = some p → p.stop % 32 = 0 ∨
      ∃ g ∈ N.groups, p.stop < g.msb * 32 + 32 ∧ g.msb * 32 + 32 ≤ r.start
  group_names : ∀ g ∈ N.groups, ∀ line, line < 32 → ∃ n, g.expandName N.tokens line nameChoice = .ok n
  range_names : ∀ r ∈ N.ranges, ∀ c, Range.Has r c → ∃ n, r.getName c nameChoice = .ok n

/-- The numbers written in a mixed radix system, most significant first: `k` in the system with the given radices. -/
def mixedRadix : List Nat → Nat → List Nat
  | [], _ => []
  | _ :: fs, k => k / fs.foldr (· * ·) 1 :: mixedRadix fs (k % fs.foldr (· * ·) 1)

/-- One word out of every block. -/
def Choice : List (List Str) → List Str → Prop
  | [], [] => True
  | b :: bs, w :: ws => w ∈ b ∧ Choice bs ws
  | _, _ => False

end Verif.CharNames.Spec

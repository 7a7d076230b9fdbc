import Verif.Model.PyStr
/-!
# Specification: texts and where they occur

Written without reference to the model of the module builder; `isSpace` says which characters are white space.
-/
namespace Verif.Spec

/-- The words of a text: the maximal runs of characters that are not white space. `w` is the word being read. -/
def wordsFrom (w : Str) : Str → List Str
  | [] => if w = [] then [] else [w]
  | c :: t => if isSpace c then (if w = [] then wordsFrom [] t else w :: wordsFrom [] t) else wordsFrom (w ++ [c]) t

def words (s : Str) : List Str := wordsFrom [] s

/-- The text `p` occurs in `s` behind `pre` and nowhere before, and `rest` follows it. -/
def FirstIn (p : Str) (s pre rest : Str) : Prop :=
  s = pre ++ p ++ rest ∧ ∀ n, n < pre.length → ¬ p <+: s.drop n

/-- The C source defines the one-dimensional array `name` with the initialiser `body`, and `name[` does not occur before:
`… name[dims]={body}; …`. -/
def DefinesArray (source name body : Str) : Prop :=
  ∃ pre dims post, FirstIn (name ++ txt "[") source pre (dims ++ txt "]={" ++ body ++ txt "};" ++ post) ∧
    dims ≠ [] ∧ 93 ∉ dims ∧ body ≠ [] ∧ 125 ∉ body

/-- The C source defines the variable `name` with the value `v`, and `name=` does not occur before: a line
`… name=v; …` without a semicolon behind the definition. -/
def DefinesScalar (source name v : Str) : Prop :=
  ∃ pre tail rest, FirstIn (name ++ txt "=") source pre (v ++ txt ";" ++ tail ++ rest) ∧
    v ≠ [] ∧ 10 ∉ v ∧ 59 ∉ tail ∧ (rest = [] ∨ rest.head? = some 10)

/-- The fields of an initialiser, each on a line of its own; a field may be several expressions on one line. -/
def FieldTexts (fields : List Str) : Prop := ∀ f ∈ fields, ¬ txt ",\n" <:+: f ∧ 125 ∉ f

/-- The C source defines the trie `name` with these fields: `… name={` line feed, the fields separated by commas and line feeds,
line feed `}; …`. -/
def DefinesTrie (source name : Str) (fields : List Str) : Prop :=
  ∃ pre post, FirstIn (name ++ txt "={\n") source pre (join (txt ",\n") fields ++ txt "\n};" ++ post) ∧ FieldTexts fields

/-- The C source defines the structure `name`, whose first inner structure is a trie with these fields. -/
def DefinesTrieIn (source name : Str) (fields : List Str) : Prop :=
  ∃ pre before behind post,
    FirstIn (name ++ txt "={\n") source pre
      (before ++ txt "{\n" ++ join (txt ",\n") fields ++ txt "}" ++ behind ++ txt "\n};" ++ post) ∧
    ¬ txt "\n};" <:+: before ++ txt "{\n" ++ join (txt ",\n") fields ++ txt "}" ++ behind ∧
    123 ∉ before ∧ FieldTexts fields

end Verif.Spec

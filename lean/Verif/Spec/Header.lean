import Verif.Model.PyStr
/-!
# Specification of C headers that are laid out line by line

String literals are not treated specially.
-/
namespace Verif.Header.Spec

/-- `p` occurs in a text. -/
def has (p : Str) : Str → Bool
  | [] => p.isPrefixOf []
  | c :: cs => p.isPrefixOf (c :: cs) || has p cs

/-- Whether a C block comment is open after a line, given whether one was open before it. -/
def openAfter : Bool → Str → Bool
  | b, [] => b
  | true, 42 :: 47 :: cs => openAfter false cs
  | true, _ :: cs => openAfter true cs
  | false, 47 :: 42 :: cs => openAfter true cs
  | false, 47 :: 47 :: _ => false
  | false, _ :: cs => openAfter false cs

/-- Lines without code: a blank line, a `//` comment, a block comment on one line or on several lines. -/
inductive Quiet : List Str → Prop
  | blank {l : Str} : strip l = [] → Quiet [l]
  | line {l : Str} : (txt "//").isPrefixOf (strip l) → Quiet [l]
  | comment {l m : Str} : strip l = txt "/*" ++ m ++ txt "*/" → has (txt "*/") (m ++ txt "*") = false → Quiet [l]
  | block {first last r m : Str} {body : List Str} : strip first = txt "/*" ++ r → has (txt "*/") r = false → r ≠ txt "/" →
      (∀ l ∈ body, has (txt "*/") (strip l) = false) → strip last = m ++ txt "*/" → has (txt "*/") (m ++ txt "*") = false →
      (txt "//").isPrefixOf (strip last) = false → (txt "/*").isPrefixOf (strip last) = false →
      Quiet (first :: body ++ [last])

/-- A line of code: not blank, not starting with a comment, `#if` or `#endif`, and without a comment that stays open. -/
structure Plain (l : Str) : Prop where
  nonempty : strip l ≠ []
  noLine : (txt "//").isPrefixOf (strip l) = false
  noBlock : (txt "/*").isPrefixOf (strip l) = false
  noIf : (txt "#if").isPrefixOf (strip l) = false
  noEndif : (txt "#endif").isPrefixOf (strip l) = false
  closed : openAfter false (strip l) = false

/-- The lines between `#if` and `#endif`, without further conditionals. -/
inductive Inside : List Str → Prop
  | nil : Inside []
  | quiet {q ls : List Str} : Quiet q → Inside ls → Inside (q ++ ls)
  | plain {l : Str} {ls : List Str} : Plain l → Inside ls → Inside (l :: ls)

/-- A line that ends with a backslash, and the line without it. -/
def Continued (l a : Str) : Prop := Plain l ∧ strip l = a ++ txt "\\"

/-- The continuation lines of a `#define`, and their text without the backslashes and the space around it. -/
inductive Continuation : List Str → Str → Prop
  | nil : Continuation [] []
  | cons {l a t : Str} {ls : List Str} : Continued l a → (txt "#define").isPrefixOf (strip l) = false → Continuation ls t →
      Continuation (l :: ls) (strip a ++ t)

/-- A header and its lines of code: comments, conditional sections and the include guard are left out, and the lines of a
`#define` are joined. -/
inductive Reads (guard : Str → Bool) : List Str → List Str → Prop
  | nil : Reads guard [] []
  | quiet {q ls ts : List Str} : Quiet q → Reads guard ls ts → Reads guard (q ++ ls) ts
  | conditional {first last : Str} {body ls ts : List Str} : (txt "#if").isPrefixOf (strip first) → guard (strip first) = false →
      Inside body → (txt "#endif").isPrefixOf (strip last) → Reads guard ls ts →
      Reads guard (first :: body ++ last :: ls) ts
  | guard {first : Str} {ls ts : List Str} : (txt "#if").isPrefixOf (strip first) → guard (strip first) →
      Reads guard ls ts → Reads guard (first :: ls) ts
  | endif {l : Str} {ls ts : List Str} : (txt "#endif").isPrefixOf (strip l) → Reads guard ls ts → Reads guard (l :: ls) ts
  | code {l : Str} {ls ts : List Str} : Plain l →
      ¬ ((txt "#define").isPrefixOf (strip l) ∧ (txt "\\").isSuffixOf (strip l)) → Reads guard ls ts →
      Reads guard (l :: ls) (strip l :: ts)
  | define {first last a t : Str} {conts ls ts : List Str} : Continued first a → (txt "#define").isPrefixOf (strip first) →
      Continuation conts t → Plain last → (txt "\\").isSuffixOf (strip last) = false → Reads guard ls ts →
      Reads guard (first :: conts ++ last :: ls) ((a ++ t ++ strip last) :: ts)

/-! ## Translation -/

/-- A letter, a digit or an underscore, in ASCII. -/
def wordChar (c : Nat) : Bool := c ∈ txt "abcdefghijklmnopqrstuvwxyzABCDEFGHIJKLMNOPQRSTUVWXYZ0123456789_"

/-- An identifier. -/
def Name (n : Str) : Prop := n ≠ [] ∧ ∀ x ∈ n, wordChar x = true
/-- Spaces. -/
def Spaces (s : Str) : Prop := ∀ x ∈ s, isSpace x = true
/-- A text that is not empty and does not begin with a space. -/
def Begins (v : Str) : Prop := ∃ x s, v = x :: s ∧ isSpace x = false

/-- A number in decimal digits. -/
def decimal (n : Int) : Str := txt (toString n)

/-- The Python line for a constant. -/
def assignment (n v c : Str) : Str := n ++ txt " = " ++ v ++ (if c = [] then [] else txt "  # " ++ c)

/-- An enumerator, as it is written on a line. -/
structure Entry where
  name : Str
  spaces : Str
  value : Option Str
  valueSpaces : Str
  comma : Bool
  comment : Str

/-- The text of an enumerator: `name`, `name = value`, with or without a comma. -/
def Entry.text (e : Entry) : Str :=
  e.name ++ e.spaces ++
    (match e.value with
     | none => []
     | some v => txt "=" ++ e.valueSpaces ++ v) ++
    (if e.comma then txt "," else [])

/-- Well-formed enumerators: the value has neither a comma nor a closing brace. -/
structure Entry.Ok (e : Entry) : Prop where
  name : Name e.name
  spaces : Spaces e.spaces
  valueSpaces : Spaces e.valueSpaces
  value : ∀ v, e.value = some v → Begins v ∧ 44 ∉ v ∧ 125 ∉ v

/-- The value of an enumerator: that of its expression, otherwise the next one. -/
def Entry.valueOf (eval : List (Str × Int) → Str → Py Int) (next : Int) (env : List (Str × Int)) (e : Entry) : Py Int :=
  match e.value with
  | none => .ok next
  | some t => eval env t

/-- The values that C gives to the enumerators: the value of the expression, or one more than the value before; the first is 0
by default. `eval` evaluates an expression over the enumerators before it, the latest first. -/
def values (eval : List (Str × Int) → Str → Py Int) : Int → List (Str × Int) → List Entry → Py (List Int)
  | _, _, [] => .ok []
  | next, env, e :: es => do
    let v ← e.valueOf eval next env
    let vs ← values eval (v + 1) ((e.name, v) :: env) es
    .ok (v :: vs)

/-- The Python line for an enumerator and its value: the expression as it is written, otherwise the value. -/
def Entry.line (e : Entry) (v : Int) : Str := assignment e.name (e.value.getD (decimal v)) e.comment

/-- The first line of an enumeration: `enum` or `typedef enum`, an optional tag and an optional brace. -/
def EnumHead (l : Str) : Prop :=
  ∃ sp tag sp' brace, Spaces sp ∧ (∀ x ∈ tag, wordChar x = true) ∧ Spaces sp' ∧ (brace = [] ∨ brace = txt "{") ∧
    ((l = txt "enum" ++ sp ++ tag ++ sp' ++ brace ∧ (sp = [] → tag = [] ∧ sp' = [] ∧ brace = [])) ∨
      ∃ sp0, Spaces sp0 ∧ sp0 ≠ [] ∧ l = txt "typedef" ++ sp0 ++ txt "enum" ++ sp ++ tag ++ sp' ++ brace ∧ (sp = [] → tag = []))

/-- The last line of an enumeration: a brace, an optional name and a semicolon. -/
def EnumEnd (l : Str) : Prop :=
  ∃ sp n sp' r, Spaces sp ∧ (∀ x ∈ n, wordChar x = true) ∧ Spaces sp' ∧ l = txt "}" ++ sp ++ n ++ sp' ++ txt ";" ++ r

/-- A line that begins with another word than `#define`, `enum` and `typedef`. -/
def OtherLine (l : Str) : Prop :=
  ∃ k r, l = k ++ r ∧ k ≠ [] ∧ (∀ x ∈ k, isSpace x = false) ∧ (∀ x s, r = x :: s → isSpace x = true) ∧
    k ≠ txt "#define" ∧ k ≠ txt "enum" ∧ k ≠ txt "typedef"

/-- Lines of code with their comments, and the Python lines for them: one for each constant that is defined with a value
and not ignored, and one for each enumerator; none for macros with arguments and for other code. -/
inductive Translates (eval : List (Str × Int) → Str → Py Int) (ignore : List Str) : List (Str × Str) → List Str → Prop
  | nil : Translates eval ignore [] []
  | other {t c : Str} {rs : List (Str × Str)} {out : List Str} : OtherLine t → Translates eval ignore rs out →
      Translates eval ignore ((t, c) :: rs) out
  | value {n sp v c : Str} {rs : List (Str × Str)} {out : List Str} : Name n → Spaces sp → sp ≠ [] → Begins v → 10 ∉ v →
      n ∉ ignore → Translates eval ignore rs out →
      Translates eval ignore ((txt "#define " ++ n ++ sp ++ v, c) :: rs) (assignment n v c :: out)
  | ignored {n sp v c : Str} {rs : List (Str × Str)} {out : List Str} : Name n → Spaces sp → sp ≠ [] → Begins v → 10 ∉ v →
      n ∈ ignore → Translates eval ignore rs out → Translates eval ignore ((txt "#define " ++ n ++ sp ++ v, c) :: rs) out
  | flag {n c : Str} {rs : List (Str × Str)} {out : List Str} : Name n → Translates eval ignore rs out →
      Translates eval ignore ((txt "#define " ++ n, c) :: rs) out
  | function {n r c : Str} {rs : List (Str × Str)} {out : List Str} : Name n → Translates eval ignore rs out →
      Translates eval ignore ((txt "#define " ++ n ++ txt "(" ++ r, c) :: rs) out
  | enum {head fin : Str × Str} {brace rs : List (Str × Str)} {es : List Entry} {vs : List Int} {out : List Str} :
      EnumHead head.1 → (∀ b ∈ brace, (txt "{").isPrefixOf b.1) → (∀ e ∈ es, e.Ok) → values eval 0 [] es = .ok vs →
      EnumEnd fin.1 → Translates eval ignore rs out →
      Translates eval ignore (head :: (brace ++ (es.map (fun e => (e.text, e.comment)) ++ fin :: rs)))
        (es.zipWith Entry.line vs ++ out)

end Verif.Header.Spec

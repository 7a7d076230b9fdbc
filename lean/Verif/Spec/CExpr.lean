import Verif.Spec.Header
/-!
# Specification of the constants that a C header declares

Expressions are C constant expressions of type `int` with 32 bits: what overflows has no value here. `Denotes` is the grammar of C with the
value of each phrase; it is about texts, so that nothing is said about how they are read. Suffixes, octal numbers, casts, `sizeof`, `?:`,
division, comparisons and character constants are left out.
-/
namespace Verif.CHeader.Spec
open Verif.Header.Spec

/-- The range of `int`. -/
def InInt (v : Int) : Prop := -2147483648 ≤ v ∧ v < 2147483648

/-- Binary operators. -/
inductive Bin | bitOr | bitXor | bitAnd | shiftLeft | shiftRight | add | sub | mul
  deriving DecidableEq

/-- How an operator is written. -/
def Bin.text : Bin → Str
  | .bitOr => txt "|"
  | .bitXor => txt "^"
  | .bitAnd => txt "&"
  | .shiftLeft => txt "<<"
  | .shiftRight => txt ">>"
  | .add => txt "+"
  | .sub => txt "-"
  | .mul => txt "*"

/-- The levels of the grammar: inclusive or, exclusive or, and, shift, additive, multiplicative. Level 7 are unary and level 8 are
primary expressions. -/
def Bin.level : Bin → Nat
  | .bitOr => 1
  | .bitXor => 2
  | .bitAnd => 3
  | .shiftLeft => 4
  | .shiftRight => 4
  | .add => 5
  | .sub => 5
  | .mul => 6

/-- What an operator makes of two ints. Only ints that are not negative are shifted, by less than 32. -/
def Bin.Means : Bin → Int → Int → Int → Prop
  | .bitOr, a, b, v => v = (BitVec.ofInt 32 a ||| BitVec.ofInt 32 b).toInt
  | .bitXor, a, b, v => v = (BitVec.ofInt 32 a ^^^ BitVec.ofInt 32 b).toInt
  | .bitAnd, a, b, v => v = (BitVec.ofInt 32 a &&& BitVec.ofInt 32 b).toInt
  | .shiftLeft, a, b, v => 0 ≤ a ∧ 0 ≤ b ∧ b < 32 ∧ v = a * 2 ^ b.toNat
  | .shiftRight, a, b, v => 0 ≤ a ∧ 0 ≤ b ∧ b < 32 ∧ v = a / 2 ^ b.toNat
  | .add, a, b, v => v = a + b
  | .sub, a, b, v => v = a - b
  | .mul, a, b, v => v = a * b

/-- Spaces and tabs. -/
def Blanks (s : Str) : Prop := ∀ x ∈ s, x = 32 ∨ x = 9

/-- The value of a hexadecimal digit. -/
def hexDigit (c : Nat) : Nat := if c < 58 then c - 48 else if c < 71 then c - 55 else c - 87

/-- Numbers: decimal ones without leading zeros, and hexadecimal ones. -/
inductive Numeral : Str → Nat → Prop
  | dec (n : Nat) : Numeral (decimal n) n
  | hex {x : Nat} {ds : Str} : x ∈ txt "xX" → ds ≠ [] → (∀ c ∈ ds, c ∈ txt "0123456789abcdefABCDEF") →
      Numeral (48 :: x :: ds) (ds.foldl (fun n c => n * 16 + hexDigit c) 0)

/-- Identifiers. -/
def Ident (n : Str) : Prop := Name n ∧ ∀ c ∈ n.head?, c ∉ txt "0123456789"

/-- The expressions at a level and their values. `scope` are the values of the names, `fn` those of the macros with an argument.
After a sign comes no sign of the same kind without a space, since `--` and `++` are other operators. -/
inductive Denotes (scope : Str → Option Int) (fn : Str → Int → Option Int) : Nat → Str → Int → Prop
  | num {s : Str} {n : Nat} : Numeral s n → InInt n → Denotes scope fn 8 s n
  | name {n : Str} {v : Int} : Ident n → scope n = some v → Denotes scope fn 8 n v
  | paren {a s b : Str} {v : Int} : Blanks a → Denotes scope fn 1 s v → Blanks b → Denotes scope fn 8 (txt "(" ++ (a ++ (s ++ (b ++ txt ")")))) v
  | call {f a s b : Str} {v r : Int} : Ident f → Blanks a → Denotes scope fn 1 s v → Blanks b → fn f v = some r → InInt r →
      Denotes scope fn 8 (f ++ (txt "(" ++ (a ++ (s ++ (b ++ txt ")"))))) r
  | neg {a s : Str} {v : Int} : Blanks a → (a = [] → ∀ c ∈ s.head?, c ∉ txt "-") → Denotes scope fn 7 s v → InInt (-v) →
      Denotes scope fn 7 (txt "-" ++ (a ++ s)) (-v)
  | pos {a s : Str} {v : Int} : Blanks a → (a = [] → ∀ c ∈ s.head?, c ∉ txt "+") → Denotes scope fn 7 s v →
      Denotes scope fn 7 (txt "+" ++ (a ++ s)) v
  | inv {a s : Str} {v : Int} : Blanks a → Denotes scope fn 7 s v →
      Denotes scope fn 7 (txt "~" ++ (a ++ s)) (~~~ BitVec.ofInt 32 v).toInt
  | bin {o : Bin} {l a b r : Str} {x y v : Int} : Denotes scope fn o.level l x → Blanks a → Blanks b →
      (b = [] → ∀ c ∈ r.head?, c ∈ txt "+-" → c ∉ o.text) → Denotes scope fn (o.level + 1) r y → o.Means x y v → InInt v →
      Denotes scope fn o.level (l ++ (a ++ (o.text ++ (b ++ r)))) v
  | up {p : Nat} {s : Str} {v : Int} : p ≤ 7 → Denotes scope fn (p + 1) s v → Denotes scope fn p s v

/-! ## Macros -/

/-- Replacing the macros without arguments in a text, again and again. No macro occurs in its own replacement here. (C does this on tokens;
a text in which two tokens would grow together has no value in the sense of `Denotes`.) -/
inductive Expands (macros : List (Str × Str)) : Str → Str → Prop
  | nil : Expands macros [] []
  | other {c : Nat} {s s' : Str} : wordChar c = false → Expands macros s s' → Expands macros (c :: s) (c :: s')
  | word {n s s' : Str} : Name n → (∀ c ∈ s.head?, wordChar c = false) → (∀ t, (n, t) ∉ macros) → Expands macros s s' →
      Expands macros (n ++ s) (n ++ s')
  | replace {n t t' s s' : Str} : Name n → (∀ c ∈ s.head?, wordChar c = false) → (n, t) ∈ macros → Expands macros t t' →
      Expands macros s s' → Expands macros (n ++ s) (t' ++ s')

/-! ## Headers -/

/-- What a header declares: a macro with its text and its value as an int, where `primary` tells that the text is a number, a name, a
call or in parentheses; a macro that is a text in quotation marks; an enumerator; or a macro that is not translated, with its replacement
if it has no arguments. -/
inductive Item
  | define (n text : Str) (v : Int) (primary : Bool)
  | string (n s : Str)
  | enumerator (n : Str) (v : Int)
  | hidden (n : Str) (text : Option Str)
  deriving DecidableEq

/-- The name. -/
def Item.name : Item → Str
  | .define n _ _ _ => n
  | .string n _ => n
  | .enumerator n _ => n
  | .hidden n _ => n

/-- The macros without arguments among the declarations. -/
def macros (items : List Item) : List (Str × Str) := items.filterMap fun
  | .define n t _ _ => some (n, t)
  | .string n s => some (n, txt "\"" ++ s ++ txt "\"")
  | .enumerator _ _ => none
  | .hidden n t => t.map fun t => (n, t)

/-- The enumerators among the declarations. -/
def enumerators (items : List Item) : List (Str × Int) := items.filterMap fun
  | .enumerator n v => some (n, v)
  | _ => none

/-- The value that a list gives to a name. -/
def find (l : List (Str × Int)) (n : Str) : Option Int := l.lookup n

/-- The value of a name in C: that of an enumerator, or that of the text of a macro after the replacement of all macros. -/
def InC (fn : Str → Int → Option Int) (items : List Item) (n : Str) (v : Int) : Prop :=
  (n, v) ∈ enumerators items ∨
    ∃ t t', (n, t) ∈ macros items ∧ Expands (macros items) t t' ∧ Denotes (find (enumerators items)) fn 1 t' v

/-- The names that other declarations may use: enumerators, and macros that are primary expressions. -/
def usable (items : List Item) : List (Str × Int) := items.filterMap fun
  | .define n _ v true => some (n, v)
  | .enumerator n v => some (n, v)
  | _ => none

/-- A name that is new, and no keyword of Python. -/
def Fresh (items : List Item) (n : Str) : Prop := Ident n ∧ (∀ i ∈ items, i.name ≠ n) ∧ n ∉ (["False", "None", "True", "and", "as", "assert",
  "async", "await", "break", "class", "continue", "def", "del", "elif", "else", "except", "finally", "for", "from", "global", "if", "import",
  "in", "is", "lambda", "nonlocal", "not", "or", "pass", "raise", "return", "try", "while", "with", "yield"].map txt)

/-- The enumerators of an enumeration with their values: a value is an expression over the enumerators before it in the same enumeration,
or one more than the value before. `before` are the declarations before it, `own` those of the enumeration, the latest first. -/
inductive Enumerates (before : List Item) : Int → List (Str × Int) → List Entry → List Int → Prop
  | nil {next : Int} {own : List (Str × Int)} : Enumerates before next own [] []
  | next {next : Int} {own : List (Str × Int)} {e : Entry} {es : List Entry} {vs : List Int} : e.Ok → 10 ∉ e.comment → e.value = none →
      InInt next → Fresh before e.name → e.name ∉ own.map Prod.fst → Enumerates before (next + 1) ((e.name, next) :: own) es vs →
      Enumerates before next own (e :: es) (next :: vs)
  | value {next v : Int} {own : List (Str × Int)} {e : Entry} {s b : Str} {es : List Entry} {vs : List Int} : e.Ok → 10 ∉ e.comment →
      e.value = some (s ++ b) → Denotes (find own) (fun _ _ => none) 1 s v → Blanks b → Fresh before e.name → e.name ∉ own.map Prod.fst →
      Enumerates before (v + 1) ((e.name, v) :: own) es vs → Enumerates before next own (e :: es) (v :: vs)

/-- Lines of code with their comments, and what they declare in this order. `before` are the declarations before them, the latest
first. All names are different; a macro refers only to names before it that are `usable`. -/
inductive Declares (fn : Str → Int → Option Int) (ignore : List Str) : List Item → List (Str × Str) → List Item → Prop
  | nil {before : List Item} : Declares fn ignore before [] []
  | other {before items : List Item} {t c : Str} {rs : List (Str × Str)} : OtherLine t → Declares fn ignore before rs items →
      Declares fn ignore before ((t, c) :: rs) items
  | define {before items : List Item} {n sp s c : Str} {v : Int} {primary : Bool} {rs : List (Str × Str)} :
      Fresh before n → n ∉ ignore → Spaces sp → sp ≠ [] → 10 ∉ c →
      Denotes (find (usable before)) fn (if primary then 8 else 1) s v →
      Declares fn ignore (.define n s v primary :: before) rs items →
      Declares fn ignore before ((txt "#define " ++ n ++ sp ++ s, c) :: rs) (.define n s v primary :: items)
  | string {before items : List Item} {n sp s c : Str} {rs : List (Str × Str)} : Fresh before n → n ∉ ignore → Spaces sp → sp ≠ [] →
      10 ∉ c → (∀ x ∈ s, x ∉ txt "\"\\\n") → Declares fn ignore (.string n s :: before) rs items →
      Declares fn ignore before ((txt "#define " ++ n ++ sp ++ (txt "\"" ++ s ++ txt "\""), c) :: rs) (.string n s :: items)
  | ignored {before items : List Item} {n sp t c : Str} {rs : List (Str × Str)} : Fresh before n → n ∈ ignore → Spaces sp → sp ≠ [] →
      Begins t → 10 ∉ t → Declares fn ignore (.hidden n (some t) :: before) rs items →
      Declares fn ignore before ((txt "#define " ++ n ++ sp ++ t, c) :: rs) (.hidden n (some t) :: items)
  | flag {before items : List Item} {n c : Str} {rs : List (Str × Str)} : Fresh before n →
      Declares fn ignore (.hidden n (some []) :: before) rs items →
      Declares fn ignore before ((txt "#define " ++ n, c) :: rs) (.hidden n (some []) :: items)
  | function {before items : List Item} {n t c : Str} {rs : List (Str × Str)} : Fresh before n →
      Declares fn ignore (.hidden n none :: before) rs items →
      Declares fn ignore before ((txt "#define " ++ n ++ txt "(" ++ t, c) :: rs) (.hidden n none :: items)
  | enum {before items : List Item} {head fin : Str × Str} {brace rs : List (Str × Str)} {es : List Entry} {vs : List Int} :
      EnumHead head.1 → (∀ b ∈ brace, (txt "{").isPrefixOf b.1) → Enumerates before 0 [] es vs → EnumEnd fin.1 →
      Declares fn ignore ((es.zipWith (fun e v => Item.enumerator e.name v) vs).reverse ++ before) rs items →
      Declares fn ignore before (head :: (brace ++ (es.map (fun e => (e.text, e.comment)) ++ fin :: rs)))
        (es.zipWith (fun e v => Item.enumerator e.name v) vs ++ items)

end Verif.CHeader.Spec

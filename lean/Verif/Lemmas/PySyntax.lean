import Verif.Lemmas.Scan
import Verif.Model.PySyntax
/-!
# Lexing packed lines

`lex (textOf lines)` in a form that the kernel computes quickly.
-/
namespace Verif.PySyntax

/-- The characters of a line before a text. -/
noncomputable def onto (k : Nat) : Nat → Str → Str :=
  Nat.rec (fun _ s => s) (fun _ ih n s => cond (Nat.beq n 0) s (ih (Nat.div n 256) (Nat.mod n 256 :: s))) k

theorem onto_eq (k n : Nat) (s t : Str) : onto k n (s ++ t) = lineOf.go k n s ++ t := by
  induction k generalizing n s with
  | zero => rfl
  | succ k ih =>
    show cond (Nat.beq n 0) (s ++ t) (onto k (n / 256) (n % 256 :: (s ++ t))) = _
    rw [lineOf.go]
    by_cases h : n = 0
    · subst h; rfl
    · rw [if_neg h, show Nat.beq n 0 = false from by cases n with | zero => exact absurd rfl h | succ n => rfl]
      exact ih _ (_ :: s)

/-- All characters of the lines, with an end of line after each. -/
noncomputable def packed (lines : List Nat) : Str := List.rec [] (fun n _ ih => onto 320 n (10 :: ih)) lines

theorem packed_eq (a : Nat) (lines : List Nat) : packed (a :: lines) = textOf (a :: lines) ++ [10] := by
  induction lines generalizing a with
  | nil => show onto 320 a ([] ++ [10]) = _; rw [onto_eq]; simp [textOf, lineOf, join]
  | cons b ls ih =>
    show onto 320 a ([] ++ 10 :: packed (b :: ls)) = _
    rw [onto_eq, ih]
    show _ = join (txt "\n") (lineOf a :: lineOf b :: ls.map lineOf) ++ [10]
    rw [join, List.intercalate_cons_cons]
    simp [textOf, join, txt, lineOf]

/-- `lexFrom` for the kernel. -/
noncomputable def lexFast (text : Str) : Next :=
  List.rec (fun mode _ out => match mode with
    | .bol _ => some out.reverse
    | _ => none) (fun c _ next mode depth out => force c fun c => step next c mode depth out) text

theorem lexFast_eq (text : Str) : lexFast text = lexFrom text := by
  induction text with
  | nil => rfl
  | cons c cs ih =>
    funext mode depth out
    show (force c fun c => step (lexFast cs) c mode depth out) = step (lexFrom cs) c mode depth out
    rw [force_eq, ih]

/-- `parse` for the kernel. -/
noncomputable def parseFast (lines : List Nat) : Option (Stmt × List Tok) :=
  match lexFast (packed lines) (.bol 0) 0 [] with
  | some ts => force (ts.length + 8) fun n => block n 0 ts
  | none => none

theorem parse_fast {a : Nat} {lines : List Nat} {s : Stmt} (h : parseFast (a :: lines) = some (s, [])) : parse (textOf (a :: lines)) = some s := by
  unfold parseFast at h
  rw [packed_eq, lexFast_eq] at h
  unfold parse lex
  cases e : lexFrom (textOf (a :: lines) ++ [10]) (.bol 0) 0 [] with
  | none => rw [e] at h; cases h
  | some ts =>
    rw [e] at h
    simp only [force_eq] at h
    simp only [h]

end Verif.PySyntax

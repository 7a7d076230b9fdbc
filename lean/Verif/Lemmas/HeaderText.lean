import Verif.Model.Lines
import Verif.Lemmas.Import
import Verif.Data.Text
/-! # Importing the header modules -/
namespace Verif.HeaderText
open Verif PyExpr Data.Text
set_option maxRecDepth 100000

/-- The names of a table of constants, the last one first. -/
def values (t : List (Nat × Int)) : List (Str × Val) := t.reverse.map fun p => (nameOf p.1, .int p.2)

theorem values_append (a b : List (Nat × Int)) : values (a ++ b) = values b ++ values a := by
  rw [values, List.reverse_append, List.map_append]; rfl

theorem textOf_cons (a b : Nat) (ls : List Nat) : textOf (a :: b :: ls) = lineOf a ++ 10 :: textOf (b :: ls) := by
  rw [textOf, List.map_cons, List.map_cons, join, List.intercalate_cons_cons]; simp [textOf, join, txt]

/-- A file whose first five lines are a docstring. -/
theorem import_text {a b c d e l : Nat} {r : List Nat} (ha : (lineOf a).take 3 = [34, 34, 34]) (ha' : 34 ∉ (lineOf a).drop 3 ∧ 92 ∉ (lineOf a).drop 3)
    (hb : 34 ∉ lineOf b ∧ 92 ∉ lineOf b) (hc : 34 ∉ lineOf c ∧ 92 ∉ lineOf c) (hd : 34 ∉ lineOf d ∧ 92 ∉ lineOf d) (he : lineOf e = [34, 34, 34])
    (h : ∀ x ∈ l :: r, 10 ∉ lineOf x) : importModule (textOf (a :: b :: c :: d :: e :: l :: r)) = execLines [] ((l :: r).map lineOf) := by
  rw [← import_lines (d := (lineOf a).drop 3 ++ 10 :: (lineOf b ++ 10 :: (lineOf c ++ 10 :: (lineOf d ++ [10]))))
    (ls := (l :: r).map lineOf) (by simp [ha'.1, hb.1, hc.1, hd.1]) (by simp [ha'.2, hb.2, hc.2, hd.2]) (by simp) (by simpa using h)]
  congr 1
  have hq : lineOf a = 34 :: 34 :: 34 :: (lineOf a).drop 3 := by
    conv => lhs; rw [← List.take_append_drop 3 (lineOf a), ha]
    rfl
  simp only [textOf_cons, he]
  rw [hq]
  simp [textOf, txt]

theorem lineOf_plain_of {ls : List Nat} (h : (ls.all fun x => !(lineOf x).contains 10) = true) : ∀ x ∈ ls, 10 ∉ lineOf x := by
  intro x hx
  have := List.all_eq_true.mp h x hx
  simpa using this



theorem uprops : importModule (textOf uprops_h) = .ok (values upropsConstants) := by decide +kernel

theorem uscript : importModule (textOf uscript_h) = .ok (values uscriptConstants) := by decide +kernel

theorem ucase : importModule (textOf ucase_h) = .ok (values (ucaseConstants.drop 10) ++ (txt "UCASE_DATA_TYPE", .str (txt "icu")) ::
  (txt "UCASE_DATA_NAME", .str (txt "ucase")) :: values (ucaseConstants.take 10)) := by decide +kernel

theorem uchar_plain : (uchar_h.all fun x => !(lineOf x).contains 10) = true := by decide +kernel

theorem uchar_1 : execLines [] (((uchar_h.drop 5).take 214).map lineOf) = .ok (values (ucharConstants.take 210) ++
    [(txt "U_UNICODE_VERSION", .str (txt "13.0")), (txt "U_MASK", .fn (txt "x") (.bin .shl (.num 1) (.name (txt "x"))))]) := by decide +kernel

theorem uchar_2 : execLines [] (((uchar_h.drop 219).take 312).map lineOf) = .ok (values ((ucharConstants.drop 210).take 312)) := by decide +kernel

theorem uchar_3 : execLines [] ((uchar_h.drop 531).map lineOf) = .ok (values (ucharConstants.drop 522)) := by decide +kernel

theorem uchar : importModule (textOf uchar_h) = .ok (values ucharConstants ++ [(txt "U_UNICODE_VERSION", .str (txt "13.0")),
    (txt "U_MASK", .fn (txt "x") (.bin .shl (.num 1) (.name (txt "x"))))]) := by
  have h1 : uchar_h = uchar_h.take 5 ++ uchar_h.drop 5 := (List.take_append_drop _ _).symm
  have h2 : uchar_h.drop 5 = ((uchar_h.drop 5).take 214 ++ (uchar_h.drop 219).take 312) ++ uchar_h.drop 531 := by
    conv => lhs; rw [← List.take_append_drop 214 (uchar_h.drop 5), List.drop_drop,
      ← List.take_append_drop 312 (uchar_h.drop (5 + 214)), List.drop_drop, ← List.append_assoc]
  have h3 : ucharConstants = (ucharConstants.take 210 ++ (ucharConstants.drop 210).take 312) ++ ucharConstants.drop 522 := by
    conv => lhs; rw [← List.take_append_drop 210 ucharConstants, ← List.take_append_drop 312 (ucharConstants.drop 210), List.drop_drop,
      ← List.append_assoc]
  have h : importModule (textOf uchar_h) = execLines [] ((uchar_h.drop 5).map lineOf) :=
    import_text (by decide +kernel) (by decide +kernel) (by decide +kernel) (by decide +kernel) (by decide +kernel) (by decide +kernel)
      (fun x hx => lineOf_plain_of uchar_plain x (List.mem_of_mem_drop (i := 5) hx))
  rw [h, h2, List.map_append, List.map_append, execLines_pieces (execLines_pieces uchar_1 uchar_2) uchar_3]
  conv => rhs; rw [h3, values_append, values_append]
  simp

end Verif.HeaderText

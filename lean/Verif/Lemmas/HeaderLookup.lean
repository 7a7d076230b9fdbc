import Verif.Lemmas.HeaderText
import Verif.Lemmas.DictLines
/-! # Names in the tables of constants -/
namespace Verif.HeaderText
open Verif PyExpr Data.Text
set_option maxRecDepth 100000
set_option Elab.async false

/-- A number that is the number of its name. -/
def proper (k : Nat) : Bool := Nat.beq (nameNumber (nameOf k)) k

theorem nameOf_inj {a b : Nat} (ha : proper a = true) (hb : proper b = true) (h : nameOf a = nameOf b) : a = b := by
  rw [← Nat.eq_of_beq_eq_true ha, h, Nat.eq_of_beq_eq_true hb]

/-- The value in a table. -/
def find (k : Nat) : List (Nat × Int) → Option Int
  | [] => none
  | p :: t => cond (Nat.beq k p.1) (some p.2) (find k t)

theorem lookup_map {k : Nat} (hk : proper k = true) : ∀ {t : List (Nat × Int)}, (t.all fun p => proper p.1) = true → ∀ env : List (Str × Val),
    lookup (t.map (fun p => (nameOf p.1, Val.int p.2)) ++ env) (nameOf k) = ((find k t).map .int).or (lookup env (nameOf k))
  | [], _, env => rfl
  | p :: t, h, env => by
    rw [List.all_cons, Bool.and_eq_true] at h
    rw [List.map_cons, List.cons_append, lookup, List.lookup_cons, find]
    cases hb : Nat.beq k p.1 with
    | true =>
      rw [Nat.eq_of_beq_eq_true hb]; simp
    | false =>
      have : (nameOf k == nameOf p.1) = false := by
        rw [beq_eq_false_iff_ne]
        intro he
        rw [nameOf_inj hk h.1 he] at hb
        simp at hb
      rw [this]
      exact lookup_map hk h.2 env

theorem lookup_values {k : Nat} (hk : proper k = true) {t : List (Nat × Int)} (ht : (t.all fun p => proper p.1) = true) (env : List (Str × Val)) :
    lookup (values t ++ env) (nameOf k) = ((find k t.reverse).map .int).or (lookup env (nameOf k)) := by
  refine lookup_map hk ?_ env
  rw [List.all_eq_true] at ht ⊢
  exact fun x hx => ht x (List.mem_reverse.mp hx)

theorem uchar_proper : (ucharConstants.all fun p => proper p.1) = true := by decide +kernel

theorem uscript_proper : (uscriptConstants.all fun p => proper p.1) = true := by decide +kernel

theorem uprops_proper : (upropsConstants.all fun p => proper p.1) = true := by decide +kernel

/-- No name begins with an underscore. -/
def isPublic (t : List (Nat × Int)) : Bool := t.all fun p => !(Nat.beq p.1 0) && !(Nat.beq (p.1 % 256) 95)

theorem nameOf_head {k : Nat} (h : k ≠ 0) : (nameOf k).head? = some (k % 256) := by
  rw [nameOf, nameOf.go, if_neg h]; rfl

theorem values_public {t : List (Nat × Int)} (h : isPublic t = true) : (values t).filter (fun p => p.1.head? ≠ some 95) = values t := by
  rw [List.filter_eq_self]
  intro p hp
  rw [values, List.mem_map] at hp
  obtain ⟨q, hq, rfl⟩ := hp
  have := List.all_eq_true.mp h q (List.mem_reverse.mp hq)
  rw [Bool.and_eq_true] at this
  have h0 : q.1 ≠ 0 := by intro h0; rw [h0] at this; exact absurd this.1 (by decide)
  have h1 : q.1 % 256 ≠ 95 := by intro h1; rw [h1] at this; exact absurd this.2 (by decide)
  show decide ((nameOf q.1).head? ≠ some 95) = true
  rw [nameOf_head h0]
  simpa using h1

theorem uchar_public : isPublic ucharConstants = true := by decide +kernel
theorem uscript_public : isPublic uscriptConstants = true := by decide +kernel
theorem uprops_public : isPublic upropsConstants = true := by decide +kernel

/-- The check for a dictionary. -/
def okRows (t : List (Nat × Int)) (keys : List Nat) (rows : List (Nat × String)) : Bool :=
  Nat.beq keys.length rows.length && (keys.zip rows).all fun p => proper p.1 && (find p.1 t == some (p.2.1 : Int))

/-- The constants that UCDTypeDictionaries.py imports, the last one first. -/
def both : List (Nat × Int) := uscriptConstants.reverse ++ ucharConstants.reverse

theorem rows_bidiClassNames : okRows both Data.Keys.bidiClassNames Data.bidiClassNames = true := by decide +kernel

theorem rows_blockNames : okRows both Data.Keys.blockNames Data.blockNames = true := by decide +kernel

theorem rows_decompositionTypeNames : okRows both Data.Keys.decompositionTypeNames Data.decompositionTypeNames = true := by decide +kernel

theorem rows_eastAsianWidthNames : okRows both Data.Keys.eastAsianWidthNames Data.eastAsianWidthNames = true := by decide +kernel

theorem rows_generalCategoryNames : okRows both Data.Keys.generalCategoryNames Data.generalCategoryNames = true := by decide +kernel

theorem rows_graphemeClusterBreakNames : okRows both Data.Keys.graphemeClusterBreakNames Data.graphemeClusterBreakNames = true := by decide +kernel

theorem rows_hangulSyllableTypeNames : okRows both Data.Keys.hangulSyllableTypeNames Data.hangulSyllableTypeNames = true := by decide +kernel

theorem rows_indicPositionalCategoryNames : okRows both Data.Keys.indicPositionalCategoryNames Data.indicPositionalCategoryNames = true := by decide +kernel

theorem rows_indicSyllabicCategoryNames : okRows both Data.Keys.indicSyllabicCategoryNames Data.indicSyllabicCategoryNames = true := by decide +kernel

theorem rows_joiningGroupNames : okRows both Data.Keys.joiningGroupNames Data.joiningGroupNames = true := by decide +kernel

theorem rows_joiningTypeNames : okRows both Data.Keys.joiningTypeNames Data.joiningTypeNames = true := by decide +kernel

theorem rows_lineBreakNames : okRows both Data.Keys.lineBreakNames Data.lineBreakNames = true := by decide +kernel

theorem rows_numberTypeNames : okRows both Data.Keys.numberTypeNames Data.numberTypeNames = true := by decide +kernel

theorem rows_sentenceBreakNames : okRows both Data.Keys.sentenceBreakNames Data.sentenceBreakNames = true := by decide +kernel

theorem rows_scriptNames : okRows both Data.Keys.scriptNames Data.scriptNames = true := by decide +kernel

theorem rows_verticalOrientationNames : okRows both Data.Keys.verticalOrientationNames Data.verticalOrientationNames = true := by decide +kernel

theorem rows_wordBreakNames : okRows both Data.Keys.wordBreakNames Data.wordBreakNames = true := by decide +kernel

end Verif.HeaderText

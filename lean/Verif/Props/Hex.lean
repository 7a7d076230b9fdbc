import Verif.Model.Hex
import Verif.Spec.Hex
import Verif.Props.UCD
/-!
# Printed code points (C80)
-/
namespace Verif.Hex
open Verif.Spec

theorem digit_hexChar {d : Nat} (h : d < 16) : HexDigit (hexChar d) d := by
  unfold HexDigit hexChar
  split <;> omega

theorem numeral_loop : ∀ (fuel n : Nat), n < fuel → Numeral (hexLoop fuel n) n ∧ hexLoop fuel n ≠ [] ∧
    (1 < (hexLoop fuel n).length → (hexLoop fuel n).head? ≠ some 48) ∧ (n ≠ 0 → (hexLoop fuel n).head? ≠ some 48) := by
  intro fuel
  induction fuel with
  | zero => intro n h; omega
  | succ fuel ih =>
    intro n h
    unfold hexLoop
    by_cases h16 : n < 16
    · rw [if_pos h16]
      refine ⟨.one (digit_hexChar h16), by simp, by simp, fun h0 => ?_⟩
      simp only [List.head?_cons, ne_eq, Option.some.injEq]
      unfold hexChar
      split <;> omega
    · rw [if_neg h16]
      obtain ⟨h1, h2, h3, h4⟩ := ih (n / 16) (by omega)
      have hh : (hexLoop fuel (n / 16) ++ [hexChar (n % 16)]).head? = (hexLoop fuel (n / 16)).head? := by
        cases hl : hexLoop fuel (n / 16) with
        | nil => exact absurd hl h2
        | cons a l => rfl
      refine ⟨?_, by simp, fun _ => by rw [hh]; exact h4 (by omega), fun _ => by rw [hh]; exact h4 (by omega)⟩
      have := Numeral.more h1 (digit_hexChar (Nat.mod_lt n (show 0 < 16 by omega)))
      rwa [show 16 * (n / 16) + n % 16 = n by omega] at this

theorem numeral_cons_zero {t : Str} {n : Nat} (h : Numeral t n) : Numeral (48 :: t) n := by
  induction h with
  | @one c d hd =>
    have := Numeral.more (t := [48]) (n := 0) (.one (Or.inl ⟨by omega, by omega, rfl⟩)) hd
    simpa using this
  | @more t n c d _ hd ih => exact Numeral.more ih hd

theorem numeral_zeros {t : Str} {n : Nat} (h : Numeral t n) (k : Nat) : Numeral (List.replicate k 48 ++ t) n := by
  induction k with
  | zero => exact h
  | succ k ih => rw [List.replicate_succ, List.cons_append]; exact numeral_cons_zero ih

theorem padded (w n : Nat) : Padded w n (paddedHex w n) := by
  obtain ⟨h1, h2, h3, _⟩ := numeral_loop (n + 1) n (Nat.lt_succ_self n)
  unfold paddedHex upperHex
  refine ⟨numeral_zeros h1 _, by simp; omega, fun hw hl => ?_⟩
  simp only [List.length_append, List.length_replicate] at hw hl
  rw [show w - (hexLoop (n + 1) n).length = 0 by omega, List.replicate_zero, List.nil_append]
  exact h3 (by omega)

theorem numeral_bounds {t : Str} {n : Nat} (h : Numeral t n) :
    n < 16 ^ t.length ∧ (t.head? ≠ some 48 → 16 ^ (t.length - 1) ≤ n) ∧ 0 < t.length := by
  induction h with
  | @one c d h =>
    unfold HexDigit at h
    refine ⟨by simp; omega, fun h0 => ?_, by simp⟩
    have : c ≠ 48 := fun e => h0 (by simp [e])
    simp
    omega
  | @more t n c d h hd ih =>
    have hd' : d < 16 := by unfold HexDigit at hd; omega
    obtain ⟨i1, i2, i3⟩ := ih
    refine ⟨?_, fun h0 => ?_, by simp⟩
    · rw [List.length_append, List.length_singleton, Nat.pow_succ]; omega
    · have : t.head? ≠ some 48 := by
        intro e
        apply h0
        rw [List.head?_append, e]
        rfl
      have := i2 this
      rw [List.length_append, List.length_singleton, Nat.add_sub_cancel,
        show t.length = t.length - 1 + 1 by omega, Nat.pow_succ]
      omega

theorem numeral_same_length {t : Str} {n : Nat} (h : Numeral t n) : ∀ {t' : Str}, Numeral t' n → t'.length = t.length → t' = t := by
  have digit : ∀ {c d c' : Nat}, HexDigit c d → HexDigit c' d → c' = c := by
    intro c d c' h h'
    unfold HexDigit at h h'
    omega
  have small : ∀ {c d : Nat}, HexDigit c d → d < 16 := by
    intro c d h
    unfold HexDigit at h
    omega
  induction h with
  | @one c d h =>
    intro t' h' hl
    cases h' with
    | one h2 => rw [digit h h2]
    | more h2 _ => have := (numeral_bounds h2).2.2; simp only [List.length_append, List.length_singleton] at hl; omega
  | @more t n c d h hd ih =>
    intro t' h' hl
    generalize hm : 16 * n + d = m at h'
    cases h' with
    | one h2 => have := (numeral_bounds h).2.2; simp only [List.length_append, List.length_singleton] at hl; omega
    | @more t2 n2 c2 d2 h2 hd2 =>
      have h1 := small hd
      have h3 := small hd2
      have e1 : n2 = n := by omega
      have e2 : d2 = d := by omega
      subst e1; subst e2
      rw [digit hd hd2, ih h2 (by simpa using hl)]

/-- The padded numeral of a number is unique. -/
theorem padded_unique {w n : Nat} {t t' : Str} (h : Padded w n t) (h' : Padded w n t') : t = t' := by
  have key : ∀ {t t' : Str}, Padded w n t → Padded w n t' → ¬ t.length < t'.length := by
    intro t t' h h' hl
    obtain ⟨b1, _, b3⟩ := numeral_bounds h.1
    have := (numeral_bounds h'.1).2.1 (h'.2.2 (by have := h.2.1; omega) (by omega))
    have : 16 ^ t.length ≤ 16 ^ (t'.length - 1) := Nat.pow_le_pow_right (by decide) (by omega)
    omega
  exact numeral_same_length h'.1 h.1 (by have := key h h'; have := key h' h; omega)

/-- Upper case numerals are numerals. -/
theorem numeral_ucd {t : Str} {n : Nat} (h : Numeral t n) : UCD.Spec.Numeral 16 t n := by
  have hd : ∀ {c d : Nat}, HexDigit c d → UCD.Spec.IsDigit c d ∧ d < 16 := by
    intro c d h
    unfold HexDigit at h
    unfold UCD.Spec.IsDigit
    omega
  induction h with
  | one h => exact .one (hd h).1 (hd h).2
  | more _ h ih =>
    have := UCD.Spec.Numeral.snoc ih (hd h).1 (hd h).2
    rwa [Nat.mul_comm] at this

theorem numeral_chars {t : Str} {n : Nat} (h : Numeral t n) : t ≠ [] ∧ ∀ c ∈ t, 48 ≤ c ∧ c ≤ 57 ∨ 65 ≤ c ∧ c ≤ 70 := by
  induction h with
  | one h =>
    refine ⟨by simp, fun c hc => ?_⟩
    simp only [List.mem_singleton] at hc
    subst hc
    unfold HexDigit at h
    omega
  | more _ h ih =>
    refine ⟨by simp, fun c hc => ?_⟩
    rcases List.mem_append.mp hc with hc | hc
    · exact ih.2 c hc
    · simp only [List.mem_singleton] at hc
      subst hc
      unfold HexDigit at h
      omega

theorem strip_space (s : Str) : strip (32 :: s) = strip s := by
  unfold strip
  rw [List.dropWhile_cons, if_pos (by decide)]

theorem notSpace {c : Nat} (h : 48 ≤ c ∧ c ≤ 57 ∨ 65 ≤ c ∧ c ≤ 70) : isSpace c = false := by
  unfold isSpace
  simp
  omega

theorem unsigned_numeral {t : Str} {n : Nat} (h : Numeral t n) : unsigned 16 t = .ok n := by
  have h1 := UCD.Props.pyInt_numeral (numeral_ucd h)
  obtain ⟨hne, hc⟩ := numeral_chars h
  unfold pyInt at h1
  rw [UCD.Props.strip_id (fun c h => notSpace (hc c h))] at h1
  split at h1
  · have := hc 45 (by simp); omega
  · have := hc 43 (by simp); omega
  · obtain ⟨m, e1, e2⟩ := bind_ok h1
    injection e2 with e2
    rw [e1]
    congr 1
    exact Int.ofNat.inj e2

theorem unsigned_prefixed {t : Str} {n : Nat} (h : Numeral t n) : unsigned 16 (48 :: 120 :: t) = .ok n := by
  have hd : ∀ rest, digitsLoop 16 .base 0 (t ++ rest) = digitsLoop 16 .digit n rest := by
    intro rest
    exact UCD.Props.digitsLoop_append (numeral_ucd h) .base rest
  have := hd []
  rw [List.append_nil] at this
  show (if (16 : Nat) = 16 ∧ ((120 : Nat) = 120 ∨ (120 : Nat) = 88) then digitsLoop 16 .base 0 t
    else digitsLoop 16 .start 0 (48 :: 120 :: t)) = .ok n
  rw [if_pos ⟨rfl, Or.inl rfl⟩, this]
  rfl

/-- What `int` makes of the text of one code. -/
theorem pyInt_signed (c : Int) (sp : Bool) : pyInt 16 ((if sp then [32] else []) ++ signedHex 4 c) = .ok c := by
  have hs : strip ((if sp then [32] else []) ++ signedHex 4 c) = signedHex 4 c := by
    have : strip (signedHex 4 c) = signedHex 4 c := by
      apply UCD.Props.strip_id
      intro x hx
      unfold signedHex at hx
      split at hx
      · rcases List.mem_cons.mp hx with rfl | hx
        · decide
        · exact notSpace ((numeral_chars (padded _ _).1).2 x hx)
      · exact notSpace ((numeral_chars (padded _ _).1).2 x hx)
    cases sp
    · exact this
    · exact (strip_space _).trans this
  unfold pyInt
  rw [hs]
  unfold signedHex
  by_cases hc : c < 0
  · rw [if_pos hc]
    simp only [unsigned_numeral (padded _ _).1, bind, Except.bind]
    congr 1
    omega
  · rw [if_neg hc]
    have hn := (padded 4 c.natAbs).1
    obtain ⟨_, hch⟩ := numeral_chars hn
    split
    · rename_i h; have := hch 45 (by rw [h]; simp); omega
    · rename_i h; have := hch 43 (by rw [h]; simp); omega
    · simp only [unsigned_numeral hn, bind, Except.bind]
      congr 1
      omega

theorem pyInt_prefixed (c : Int) (h0 : 0 ≤ c) (sp : Bool) :
    pyInt 16 ((if sp then [32] else []) ++ (txt "0x" ++ signedHex 4 c)) = .ok c := by
  have hn := (padded 4 c.natAbs).1
  obtain ⟨_, hch⟩ := numeral_chars hn
  have he : txt "0x" ++ signedHex 4 c = 48 :: 120 :: paddedHex 4 c.natAbs := by
    unfold signedHex
    rw [if_neg (by omega)]
    rfl
  have hs : strip ((if sp then [32] else []) ++ (txt "0x" ++ signedHex 4 c)) = 48 :: 120 :: paddedHex 4 c.natAbs := by
    rw [he]
    have : strip (48 :: 120 :: paddedHex 4 c.natAbs) = 48 :: 120 :: paddedHex 4 c.natAbs := by
      apply UCD.Props.strip_id
      intro x hx
      rcases List.mem_cons.mp hx with rfl | hx
      · decide
      · rcases List.mem_cons.mp hx with rfl | hx
        · decide
        · exact notSpace (hch x hx)
    cases sp
    · exact this
    · exact (strip_space _).trans this
  unfold pyInt
  rw [hs]
  simp only [unsigned_prefixed hn, bind, Except.bind]
  congr 1
  omega

/-- Splitting at the commas. -/
theorem split_commas (x : Str) (xs : List Str) (h : ∀ y ∈ x :: xs, 44 ∉ y) :
    splitOn 44 (join (txt ", ") (x :: xs)) = x :: xs.map (32 :: ·) := by
  have e : join (txt ", ") (x :: xs) = [44].intercalate (x :: xs.map (32 :: ·)) := by
    unfold join
    show [44, 32].intercalate _ = _
    clear h
    induction xs generalizing x with
    | nil => simp [List.intercalate, List.intersperse]
    | cons y ys ih =>
      have e1 : [44, 32].intercalate (x :: y :: ys) = x ++ 44 :: 32 :: [44, 32].intercalate (y :: ys) := by
        simp [List.intercalate]
      have e2 : [44].intercalate (x :: (y :: ys).map (32 :: ·)) = x ++ 44 :: [44].intercalate ((32 :: y) :: ys.map (32 :: ·)) := by
        simp [List.intercalate]
      have e3 : [44].intercalate ((32 :: y) :: ys.map (32 :: ·)) = 32 :: [44].intercalate (y :: ys.map (32 :: ·)) := by
        cases ys <;> simp [List.intercalate]
      rw [e1, e2, e3, ih]
  rw [e]
  apply UCD.Props.splitOn_join _ (by simp)
  intro f hf
  rcases List.mem_cons.mp hf with rfl | hf
  · exact h _ (by simp)
  · obtain ⟨y, hy, rfl⟩ := List.mem_map.mp hf
    have := h y (by simp [hy])
    simp [this]

theorem mapPy_spaced {α : Type} {f : Str → Py α} {g : α → Str} (h : ∀ a, f (g a) = .ok a) (l : List α) :
    mapPy f (l.map g) = .ok l := by
  induction l with
  | nil => rfl
  | cons a l ih =>
    simp only [List.map_cons, mapPy, h a, ih, bind, Except.bind]

theorem comma_signed (w : Nat) (c : Int) : 44 ∉ signedHex w c := by
  unfold signedHex
  intro h
  split at h
  · rcases List.mem_cons.mp h with h | h
    · omega
    · have := (numeral_chars (padded _ _).1).2 44 h; omega
  · have := (numeral_chars (padded _ _).1).2 44 h; omega

/-- C80. The text of a list of codes reads back as the codes: split it at the commas and convert the parts with `int(_, 16)`.
This is for any ints, also negative ones. -/
theorem listOfCodes_reads_back (codes : List Int) (hne : codes ≠ []) :
    mapPy (pyInt 16) (splitOn 44 (Utilities.listOfCodes codes)) = .ok codes := by
  cases codes with
  | nil => exact absurd rfl hne
  | cons c cs =>
    unfold Utilities.listOfCodes
    rw [List.map_cons, split_commas _ _ (by
      intro y hy
      rw [← List.map_cons] at hy
      obtain ⟨x, _, rfl⟩ := List.mem_map.mp hy
      exact comma_signed 4 x), List.map_map]
    unfold mapPy
    rw [show pyInt 16 (signedHex 4 c) = .ok c from pyInt_signed c false,
      mapPy_spaced (g := (32 :: ·) ∘ signedHex 4) (fun a => pyInt_signed a true) cs]
    rfl

/-- C80. Every code point is written with four digits, or with as many as it needs if these are more. -/
theorem listOfCodes_format (codes : List Nat) :
    ∃ parts : List Str, Utilities.listOfCodes (codes.map Int.ofNat) = join (txt ", ") parts ∧ parts.length = codes.length ∧
      ∀ (i c : Nat), codes[i]? = some c → ∃ t, parts[i]? = some t ∧ Padded 4 c t := by
  refine ⟨codes.map (paddedHex 4), ?_, by simp, fun i c h => ⟨paddedHex 4 c, by simp [h], padded 4 c⟩⟩
  unfold Utilities.listOfCodes
  rw [List.map_map]
  rfl

example : Utilities.listOfCodes [0x41, 0x1F600, -1] = txt "0041, 1F600, -001" := by decide +kernel

/-- C80 in part. The text of a set is a bracketed list of prefixed numerals that reads back as the range boundaries of the set, as long
as there is no negative one. -/
theorem str_reads_back_partial (list : List Int) (hne : list ≠ []) (h0 : ∀ c ∈ list, 0 ≤ c) :
    ∃ inner, USet.str list = txt "[" ++ inner ++ txt "]" ∧ mapPy (pyInt 16) (splitOn 44 inner) = .ok list := by
  refine ⟨_, rfl, ?_⟩
  cases list with
  | nil => exact absurd rfl hne
  | cons c cs =>
    rw [List.map_cons, split_commas _ _ (by
      intro y hy
      rw [← List.map_cons (f := fun cp => txt "0x" ++ signedHex 4 cp)] at hy
      obtain ⟨x, _, rfl⟩ := List.mem_map.mp hy
      intro h
      rcases List.mem_append.mp h with h | h
      · revert h; decide
      · exact comma_signed 4 x h), List.map_map]
    unfold mapPy
    rw [show pyInt 16 (txt "0x" ++ signedHex 4 c) = .ok c from pyInt_prefixed c (h0 c (by simp)) false]
    have hcs : ∀ x ∈ cs, 0 ≤ x := fun x hx => h0 x (by simp [hx])
    have : mapPy (pyInt 16) (cs.map ((32 :: ·) ∘ fun cp => txt "0x" ++ signedHex 4 cp)) = .ok cs := by
      clear h0 hne
      induction cs with
      | nil => rfl
      | cons a l ih =>
        simp only [List.map_cons, mapPy]
        rw [show pyInt 16 (((32 :: ·) ∘ fun cp => txt "0x" ++ signedHex 4 cp) a) = .ok a from
          pyInt_prefixed a (hcs a (by simp)) true, ih (fun x hx => hcs x (by simp [hx]))]
        rfl
    rw [this]
    rfl

theorem drop_prefix (c : Int) (sp : Bool) :
    pyInt 16 ((((if sp then [32] else []) ++ (txt "0x" ++ signedHex 4 c)).dropWhile isSpace).drop 2) = .ok c := by
  have : (((if sp then [32] else []) ++ (txt "0x" ++ signedHex 4 c)).dropWhile isSpace).drop 2 = signedHex 4 c := by
    cases sp <;> rfl
  rw [this]
  exact pyInt_signed c false

/-- C80. Sets have the same text exactly when they have the same boundaries, also negative ones. -/
theorem str_injective (a b : List Int) (ha : a ≠ []) (hb : b ≠ []) : USet.str a = USet.str b ↔ a = b := by
  refine ⟨fun h => ?_, fun h => by rw [h]⟩
  have key : ∀ l : List Int, l ≠ [] → ∃ inner, USet.str l = txt "[" ++ inner ++ txt "]" ∧
      mapPy (fun p => pyInt 16 ((p.dropWhile isSpace).drop 2)) (splitOn 44 inner) = .ok l := by
    intro l hne
    refine ⟨_, rfl, ?_⟩
    cases l with
    | nil => exact absurd rfl hne
    | cons c cs =>
      rw [List.map_cons, split_commas _ _ (by
        intro y hy
        rw [← List.map_cons (f := fun cp => txt "0x" ++ signedHex 4 cp)] at hy
        obtain ⟨x, _, rfl⟩ := List.mem_map.mp hy
        intro h
        rcases List.mem_append.mp h with h | h
        · revert h; decide
        · exact comma_signed 4 x h), List.map_map]
      unfold mapPy
      rw [show pyInt 16 (((txt "0x" ++ signedHex 4 c).dropWhile isSpace).drop 2) = .ok c from drop_prefix c false,
        mapPy_spaced (g := (32 :: ·) ∘ fun cp => txt "0x" ++ signedHex 4 cp) (fun a => drop_prefix a true) cs]
      rfl
  obtain ⟨i, e1, e2⟩ := key a ha
  obtain ⟨j, e3, e4⟩ := key b hb
  rw [e1, e3, List.append_assoc, List.append_assoc] at h
  have := List.append_cancel_right (List.append_cancel_left h)
  rw [this, e4] at e2
  injection e2 with e2
  exact e2.symm

example : USet.str [0x41, 0x5B, 0x110000] = txt "[0x0041, 0x005B, 0x110000]" := by decide +kernel

/-- C80 fails for negative boundaries, which `UnicodeSet(range(-1, 3))` has: the text has the sign after the prefix, and
`int` rejects it. -/
theorem str_negative_refuted : USet.str [-1, 3, 0x110000] = txt "[0x-001, 0x0003, 0x110000]" ∧
    pyInt 16 (txt "0x-001") = .error .valueError := by
  constructor <;> decide +kernel

end Verif.Hex

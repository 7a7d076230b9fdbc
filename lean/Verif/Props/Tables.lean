import Verif.Data.Names
import Verif.Data.Tables
/-!
# The hand-written tables and the generated ones (C88, C89)

`Data.Hand` holds the dictionaries of the hand-written modules, `Data` those of the generated `UCDTypeDictionaries.py`.
-/
namespace Verif.Tables.Props
open Verif Verif.Data

/-- The hand-written dictionary `h` and the generated one `g` give the same name for the integer `k`. -/
def SameName (h : List (Key × String)) (g : List (Nat × String)) (k : Nat) : Prop := literalGet h (.int k) = literalGet g k

/-- The entries with natural numbers as keys. -/
def natEntries (h : List (Key × String)) : List (Nat × String) :=
  h.filterMap fun e => match e.1 with
    | .int (.ofNat n) => some (n, e.2)
    | _ => none

theorem natEntries_lookup (h : List (Key × String)) (k : Nat) : h.lookup (.int k) = (natEntries h).lookup k := by
  induction h with
  | nil => rfl
  | cons e h ih =>
    obtain ⟨x, v⟩ := e
    rw [List.lookup_cons]
    cases x with
    | tuple n =>
      have : (Key.int k == Key.tuple n) = false := by simp
      rw [this]
      simpa [natEntries] using ih
    | int i =>
      cases i with
      | negSucc n =>
        have : (Key.int k == Key.int (Int.negSucc n)) = false := by simp
        rw [this]
        simpa [natEntries] using ih
      | ofNat n =>
        have e2 : natEntries ((Key.int (Int.ofNat n), v) :: h) = (n, v) :: natEntries h := by simp [natEntries]
        rw [e2, List.lookup_cons]
        by_cases hk : k = n
        · subst hk; simp
        · have h1 : (Key.int k == Key.int (Int.ofNat n)) = false := by simp; omega
          have h2 : (k == n) = false := by simpa using hk
          rw [h1, h2]
          exact ih

/-- `lookup` with the comparison of natural numbers that the kernel computes at once. -/
def fastLookup (k : Nat) : List (Nat × String) → Option String
  | [] => none
  | (n, v) :: d => cond (Nat.beq k n) (some v) (fastLookup k d)

theorem fastLookup_eq (k : Nat) (d : List (Nat × String)) : fastLookup k d = d.lookup k := by
  induction d with
  | nil => rfl
  | cons e d ih =>
    obtain ⟨n, v⟩ := e
    rw [List.lookup_cons, fastLookup, ih]
    have : (k == n) = Nat.beq k n := by
      cases h : Nat.beq k n
      · simpa using Nat.ne_of_beq_eq_false h
      · simpa using Nat.eq_of_beq_eq_true h
    rw [this]
    cases Nat.beq k n <;> rfl

/-- The entries of `part` are found alike in `h` and in `g`, but for the keys `ex`. -/
def alikeB (part h g : List (Nat × String)) (ex : List Nat) : Bool :=
  part.all fun e => ex.contains e.1 || fastLookup e.1 h == fastLookup e.1 g

/-- The keys of `g` are keys of `h`. -/
def coveredB (h g : List (Nat × String)) : Bool := g.all fun e => (fastLookup e.1 h).isSome

theorem lookup_none {d : List (Nat × String)} {k : Nat} (h : ∀ v, (k, v) ∉ d) : d.lookup k = none := by
  rw [List.lookup_eq_none_iff]
  intro p hp
  have : k ≠ p.1 := fun he => h p.2 (by rw [he]; exact hp)
  simp [this]

theorem alike_split {n : Nat} {part h g : List (Nat × String)} {ex : List Nat} (h1 : alikeB (part.take n) h g ex = true)
    (h2 : alikeB (part.drop n) h g ex = true) : alikeB part h g ex = true := by
  unfold alikeB at *
  rw [← List.take_append_drop n part, List.all_append, h1, h2]
  rfl

theorem agree_of_check {h : List (Key × String)} {g : List (Nat × String)} {ex : List Nat}
    (h1 : alikeB (natEntries h.reverse) (natEntries h.reverse) g.reverse ex = true)
    (h2 : coveredB (natEntries h.reverse) g.reverse = true) (k : Nat) (hk : k ∉ ex) : SameName h g k := by
  simp only [alikeB, coveredB, List.all_eq_true] at h1 h2
  have hex : ex.contains k = false := by simpa using hk
  unfold SameName literalGet
  rw [natEntries_lookup]
  by_cases hh : ∃ v, (k, v) ∈ natEntries h.reverse
  · obtain ⟨v, hv⟩ := hh
    have := h1 _ hv
    simp only [hex, Bool.false_or, beq_iff_eq, fastLookup_eq] at this
    exact this
  · have hn := lookup_none (fun v hv => hh ⟨v, hv⟩)
    by_cases hg : ∃ v, (k, v) ∈ g.reverse
    · obtain ⟨v, hv⟩ := hg
      have := h2 _ hv
      simp only [fastLookup_eq] at this
      rw [hn] at this
      exact absurd this (by decide)
    · rw [hn, lookup_none (fun v hv => hg ⟨v, hv⟩)]

/-! The checks, in parts. -/

theorem block_0 : alikeB ((natEntries Hand.blockNames.reverse).take 64) (natEntries Hand.blockNames.reverse) blockNames.reverse [0, 76, 78, 109, 110] = true := by decide +kernel
theorem block_1 : alikeB (((natEntries Hand.blockNames.reverse).drop 64).take 64) (natEntries Hand.blockNames.reverse) blockNames.reverse [0, 76, 78, 109, 110] = true := by decide +kernel
theorem block_2 : alikeB ((((natEntries Hand.blockNames.reverse).drop 64).drop 64).take 64) (natEntries Hand.blockNames.reverse) blockNames.reverse [0, 76, 78, 109, 110] = true := by decide +kernel
theorem block_3 : alikeB (((((natEntries Hand.blockNames.reverse).drop 64).drop 64).drop 64).take 64) (natEntries Hand.blockNames.reverse) blockNames.reverse [0, 76, 78, 109, 110] = true := by decide +kernel
theorem block_4 : alikeB (((((natEntries Hand.blockNames.reverse).drop 64).drop 64).drop 64).drop 64) (natEntries Hand.blockNames.reverse) blockNames.reverse [0, 76, 78, 109, 110] = true := by decide +kernel

theorem script_0 : alikeB ((natEntries Hand.scriptCodes.reverse).take 52) (natEntries Hand.scriptCodes.reverse) scriptNames.reverse [] = true := by decide +kernel
theorem script_1 : alikeB (((natEntries Hand.scriptCodes.reverse).drop 52).take 52) (natEntries Hand.scriptCodes.reverse) scriptNames.reverse [] = true := by decide +kernel
theorem script_2 : alikeB ((((natEntries Hand.scriptCodes.reverse).drop 52).drop 52).take 52) (natEntries Hand.scriptCodes.reverse) scriptNames.reverse [] = true := by decide +kernel
theorem script_3 : alikeB ((((natEntries Hand.scriptCodes.reverse).drop 52).drop 52).drop 52) (natEntries Hand.scriptCodes.reverse) scriptNames.reverse [] = true := by decide +kernel

theorem group_0 : alikeB ((natEntries Hand.joiningGroups.reverse).take 52) (natEntries Hand.joiningGroups.reverse) joiningGroupNames.reverse [] = true := by decide +kernel
theorem group_1 : alikeB ((natEntries Hand.joiningGroups.reverse).drop 52) (natEntries Hand.joiningGroups.reverse) joiningGroupNames.reverse [] = true := by decide +kernel

/-- C88. For every integer, the hand-written dictionaries and the generated ones have the same name, or both have none, with six
exceptions: five block names and one word break name. -/
theorem tables_agree_partial (k : Nat) :
    SameName Hand.graphemeClusterBreakNames graphemeClusterBreakNames k ∧
    SameName Hand.sentenceBreakNames sentenceBreakNames k ∧
    SameName Hand.lineBreakNames lineBreakNames k ∧
    SameName Hand.bidiClassNames bidiClassNames k ∧
    SameName Hand.decompositionTypeNames decompositionTypeNames k ∧
    SameName Hand.eastAsianWidthNames eastAsianWidthNames k ∧
    SameName Hand.generalCategories generalCategoryNames k ∧
    SameName Hand.joiningTypes joiningTypeNames k ∧
    SameName Hand.joiningGroups joiningGroupNames k ∧
    SameName Hand.inpcNames indicPositionalCategoryNames k ∧
    SameName Hand.inscNames indicSyllabicCategoryNames k ∧
    SameName Hand.voNames verticalOrientationNames k ∧
    SameName Hand.scriptCodes scriptNames k ∧
    (k ∉ [0, 76, 78, 109, 110] → SameName Hand.blockNames blockNames k) ∧ (k ≠ 22 → SameName Hand.wordBreakNames wordBreakNames k) := by
  refine ⟨agree_of_check (ex := []) (by decide +kernel) (by decide +kernel) k (by simp),
    agree_of_check (ex := []) (by decide +kernel) (by decide +kernel) k (by simp),
    agree_of_check (ex := []) (by decide +kernel) (by decide +kernel) k (by simp),
    agree_of_check (ex := []) (by decide +kernel) (by decide +kernel) k (by simp),
    agree_of_check (ex := []) (by decide +kernel) (by decide +kernel) k (by simp),
    agree_of_check (ex := []) (by decide +kernel) (by decide +kernel) k (by simp),
    agree_of_check (ex := []) (by decide +kernel) (by decide +kernel) k (by simp),
    agree_of_check (ex := []) (by decide +kernel) (by decide +kernel) k (by simp),
    agree_of_check (alike_split group_0 group_1) (by decide +kernel) k (by simp),
    agree_of_check (ex := []) (by decide +kernel) (by decide +kernel) k (by simp),
    agree_of_check (ex := []) (by decide +kernel) (by decide +kernel) k (by simp),
    agree_of_check (ex := []) (by decide +kernel) (by decide +kernel) k (by simp),
    agree_of_check (alike_split script_0 (alike_split script_1 (alike_split script_2 script_3))) (by decide +kernel) k (by simp),
    agree_of_check (alike_split block_0 (alike_split block_1 (alike_split block_2 (alike_split block_3 block_4)))) (by decide +kernel) k,
    fun h => agree_of_check (ex := [22]) (by decide +kernel) (by decide +kernel) k (by simpa using h)⟩

example : literalGet Hand.scriptCodes (.int 25) = some "Latn" ∧ literalGet scriptNames (25 : Nat) = some "Latn" := by decide +kernel

/-- C88 fails for five blocks and one word break class. -/
theorem tables_agree_refuted :
    (literalGet Hand.blockNames (.int 0) = some "No Block" ∧ literalGet blockNames (0 : Nat) = some "NB") ∧
    (literalGet Hand.blockNames (.int 76) = some "High Private Use Surrogates" ∧ literalGet blockNames (76 : Nat) = some "High PU Surrogates") ∧
    (literalGet Hand.blockNames (.int 78) = some "Private Use Area" ∧ literalGet blockNames (78 : Nat) = some "PUA") ∧
    (literalGet Hand.blockNames (.int 109) = some "Supary Private Use Area A" ∧ literalGet blockNames (109 : Nat) = some "Sup PUA A") ∧
    (literalGet Hand.blockNames (.int 110) = some "Supary Private Use Area B" ∧ literalGet blockNames (110 : Nat) = some "Sup PUA B") ∧
    (literalGet Hand.wordBreakNames (.int 22) = some "WSEGSPACE" ∧ literalGet wordBreakNames (22 : Nat) = some "WSegSpace") := by
  decide +kernel

/-! ## Constants -/

/-- The constants that are tuples. -/
def tupleConstants : List String :=
  ["UBLOCK_PRIVATE_USE", "UBLOCK_CYRILLIC_SUPPLEMENTARY", "USCRIPT_UCAS", "USCRIPT_MANDAEAN", "USCRIPT_MEROITIC",
    "USCRIPT_PHONETIC_POLLARD", "USCRIPT_SINDHI"]

/-- C89. Each constant of the hand-written modules has the value the constant has in the modules generated from the C headers,
which is an integer, with the exception of seven aliases. -/
theorem constants_partial : ∀ c ∈ Hand.constants, c.1 ∉ tupleConstants → c.2.1 = c.2.2 ∧ ∃ n, c.2.1 = .int n := by
  have h : Hand.constants.all (fun c => (c.2.1 == c.2.2 && match c.2.1 with | .int _ => true | _ => false) || decide (c.1 ∈ tupleConstants)) = true := by
    decide +kernel
  intro c hc hn
  have := List.all_eq_true.mp h c hc
  simp only [hn, decide_false, Bool.or_false, Bool.and_eq_true, beq_iff_eq] at this
  refine ⟨this.1, ?_⟩
  cases hk : c.2.1 with
  | int n => exact ⟨n, rfl⟩
  | tuple n => rw [hk] at this; exact absurd this.2 (by simp)

example : Hand.constants.length = 890 ∧ ("USCRIPT_LATIN", Key.int 25, Key.int 25) ∈ Hand.constants := by decide +kernel

/-- C89 fails for seven aliases: they are tuples, equal to no integer, so that for example no code point has the script
`USCRIPT_UCAS` although 40 is the script of many. -/
theorem constants_refuted :
    ∀ name ∈ tupleConstants, ∃ n, (name, Key.tuple n, Key.int n) ∈ Hand.constants := by
  have h : tupleConstants.all (fun name => Hand.constants.any fun c => match c with
      | (m, .tuple a, .int b) => m == name && a == b
      | _ => false) = true := by decide +kernel
  intro name hn
  have := List.all_eq_true.mp h name hn
  rw [List.any_eq_true] at this
  obtain ⟨⟨m, x, y⟩, hc, hx⟩ := this
  cases x with
  | int => simp at hx
  | tuple a =>
    cases y with
    | tuple => simp at hx
    | int b =>
      simp only [Bool.and_eq_true, beq_iff_eq] at hx
      obtain ⟨rfl, rfl⟩ := hx
      exact ⟨a, hc⟩

end Verif.Tables.Props

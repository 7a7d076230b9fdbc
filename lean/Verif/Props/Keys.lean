import Verif.Data.Keys
import Verif.Model.UCDReader
/-!
# The tables of the dictionary generator and the shipped dictionaries (C94)

`Data.Keys` holds the names that the shipped files use.
-/
namespace Verif.Keys.Props
open Verif Verif.Data
set_option maxRecDepth 100000

/-- ASCII letters in upper case. -/
def asciiUpper (s : Str) : Str := s.map fun c => if 97 ≤ c ∧ c ≤ 122 then c - 32 else c

/-- The names of the keys of the shipped dictionary `name`. -/
def keysOf (name : Str) : List Str :=
  match Keys.dictionaries.find? (fun d => d.1 = name) with
  | some d => d.2.map nameOf
  | none => []

/-- The names that `uchar_h.py` and `uscript_h.py` assign. -/
def headerNames : List Str := (Keys.charHeader.toList ++ Keys.scriptHeader.toList).map nameOf

/-! ## Names and numbers -/

theorem number_go : ∀ (k n : Nat), n < 256 ^ k → nameNumber (nameOf.go k n) = n := by
  intro k
  induction k with
  | zero => intro n h; have : n = 0 := by simpa using h
            subst this; rfl
  | succ k ih =>
    intro n h
    unfold nameOf.go
    split
    · rename_i h0; subst h0; rfl
    · rw [nameNumber, ih (n / 256) (by rw [Nat.pow_succ] at h; omega)]
      omega

theorem number_name {n : Nat} (h : n < 256 ^ 64) : nameNumber (nameOf n) = n := number_go 64 n h

/-- The characters of `n` after those of `p`, when the digits of `n` begin with the `m` digits of `p`. -/
theorem go_append : ∀ (p : Str) (k n : Nat), p.length ≤ k → (∀ c ∈ p, c < 256) → n % 256 ^ p.length = nameNumber p → n / 256 ^ p.length ≠ 0 →
    nameOf.go k n = p ++ nameOf.go (k - p.length) (n / 256 ^ p.length) := by
  intro p
  induction p with
  | nil => intro k n _ _ _ _; simp
  | cons c p ih =>
    intro k n hk hc h1 h2
    match k, hk with
    | k + 1, hk =>
      rw [List.length_cons] at h1 h2 hk
      have hpow : (256 : Nat) ^ (p.length + 1) = 256 * 256 ^ p.length := by rw [Nat.pow_succ, Nat.mul_comm]
      rw [hpow] at h1 h2
      have hdiv : n / (256 * 256 ^ p.length) = n / 256 / 256 ^ p.length := by rw [Nat.div_div_eq_div_mul]
      have hc0 := hc c (by simp)
      have hmod : n % (256 * 256 ^ p.length) = n % 256 + 256 * (n / 256 % 256 ^ p.length) := Nat.mod_mul
      rw [hmod, nameNumber] at h1
      have hlow : n % 256 = c := by omega
      have hhigh : n / 256 % 256 ^ p.length = nameNumber p := by omega
      have hn0 : n ≠ 0 := by
        rintro rfl
        simp at h2
      rw [show nameOf.go (k + 1) n = if n = 0 then [] else n % 256 :: nameOf.go k (n / 256) from rfl]
      rw [if_neg hn0, hlow, ih k (n / 256) (by omega) (fun x hx => hc x (by simp [hx])) hhigh (by rw [← hdiv]; exact h2)]
      rw [List.length_cons, hpow, hdiv, Nat.add_sub_add_right]
      rfl

theorem go_ne_nil {k n : Nat} (hk : k ≠ 0) (hn : n ≠ 0) : nameOf.go k n ≠ [] := by
  match k, hk with
  | k + 1, _ =>
    unfold nameOf.go
    rw [if_neg hn]
    simp

/-! ## The checks -/

/-- `x` is found in the search tree. -/
noncomputable def memT (x : Nat) (t : NameTree) : Bool :=
  NameTree.rec false (fun _ n _ a b => cond (Nat.beq x n) true (cond (Nat.blt x n) a b)) t

theorem memT_mem {x : Nat} : ∀ {t : NameTree}, memT x t = true → x ∈ t.toList := by
  intro t
  induction t with
  | leaf => intro h; cases h
  | node l n r ihl ihr =>
    intro h
    have h : cond (Nat.beq x n) true (cond (Nat.blt x n) (memT x l) (memT x r)) = true := h
    rw [NameTree.toList, List.mem_append, List.mem_cons]
    cases hb : Nat.beq x n with
    | true => exact .inr (.inl (Nat.eq_of_beq_eq_true hb))
    | false =>
      rw [hb, cond_false] at h
      cases hl : Nat.blt x n with
      | true => rw [hl] at h; exact .inl (ihl h)
      | false => rw [hl] at h; exact .inr (.inr (ihr h))

/-- `x` is in the list. -/
def memN (x : Nat) (l : List Nat) : Bool := l.any (Nat.beq x)

theorem memN_iff {x : Nat} {l : List Nat} : memN x l = true ↔ x ∈ l := by
  unfold memN
  rw [List.any_eq_true]
  exact ⟨fun ⟨y, hy, h⟩ => by rw [Nat.eq_of_beq_eq_true h]; exact hy, fun h => ⟨x, h, Nat.beq_refl x⟩⟩

/-- The check of one type with the numbers of the keys. -/
noncomputable def checkType (t : UCDReader.TypeEntry) (ks : List Nat) : Bool :=
  let p := t.pre ++ txt "_"
  let m := nameNumber p
  let w := 256 ^ p.length
  and (Nat.ble p.length 63) <| and (p.all fun c => Nat.blt c 256) <|
  and (ks.all fun n => and (Nat.blt n (256 ^ 64)) (and (Nat.beq (n % w) m) (and (not (Nat.beq (n / w) 0)) (or (memT n Keys.charHeader) (memT n Keys.scriptHeader))))) <|
  t.mappings.all fun e => and (or e.2.isEmpty (and (memN (nameNumber (p ++ e.2)) ks) (nameOf (nameNumber (p ++ e.2)) == p ++ e.2)))
    (not (memN (nameNumber (p ++ asciiUpper e.1)) ks))

/-- The types beside the dictionaries of the file. -/
noncomputable def checkAll : List (Str × UCDReader.TypeEntry) → List (Str × List Nat) → Bool
  | [], [] => true
  | (_, t) :: ts, (name, ks) :: ds => and (t.name ++ txt "Names" == name) (and (checkType t ks) (checkAll ts ds))
  | _, _ => false

theorem check_ok : checkAll UCDReader.prefixes Keys.dictionaries = true := by decide +kernel

theorem names_nodup : (Keys.dictionaries.map (·.1)).Nodup := by decide +kernel

theorem checkAll_get : ∀ {ts : List (Str × UCDReader.TypeEntry)} {ds : List (Str × List Nat)}, checkAll ts ds = true →
    ts.map (fun p => p.2.name ++ txt "Names") = ds.map (·.1) ∧
    ∀ p ∈ ts, ∃ ks, (p.2.name ++ txt "Names", ks) ∈ ds ∧ checkType p.2 ks = true := by
  intro ts
  induction ts with
  | nil =>
    intro ds h
    cases ds with
    | nil => exact ⟨rfl, fun p hp => by simp at hp⟩
    | cons d ds => cases h
  | cons t ts ih =>
    intro ds h
    cases ds with
    | nil => cases h
    | cons d ds =>
      obtain ⟨ty, t⟩ := t
      obtain ⟨name, ks⟩ := d
      unfold checkAll at h
      rw [Bool.and_eq_true, Bool.and_eq_true, beq_iff_eq] at h
      obtain ⟨h1, h2, h3⟩ := h
      obtain ⟨i1, i2⟩ := ih h3
      refine ⟨by rw [List.map_cons, List.map_cons, i1, h1], fun p hp => ?_⟩
      rcases List.mem_cons.mp hp with rfl | hp
      · exact ⟨ks, by rw [← h1]; simp, h2⟩
      · obtain ⟨ks', h4, h5⟩ := i2 p hp
        exact ⟨ks', List.mem_cons_of_mem _ h4, h5⟩

theorem find_nodup {l : List (Str × List Nat)} {n : Str} {ks : List Nat} (h : (l.map (·.1)).Nodup) (hm : (n, ks) ∈ l) :
    l.find? (fun d => d.1 = n) = some (n, ks) := by
  induction l with
  | nil => simp at hm
  | cons d l ih =>
    rw [List.map_cons, List.nodup_cons] at h
    rcases List.mem_cons.mp hm with rfl | hm
    · simp
    · have : d.1 ≠ n := fun he => h.1 (he ▸ List.mem_map_of_mem (f := (·.1)) hm)
      rw [List.find?_cons]
      simp only [this, decide_false]
      exact ih h.2 hm

/-- C94. The shipped dictionaries are those of the table of property types, in its order. For each type: every key is the prefix of
the type, an underscore and a further name, and is a constant of the headers that the module imports. Every constant that the mapping
of the type gives is a key. None of the names that the mapping replaces or leaves out is one. -/
theorem tables_fit :
    Keys.dictionaries.map (·.1) = UCDReader.prefixes.map (fun p => p.2.name ++ txt "Names") ∧
    ∀ p ∈ UCDReader.prefixes,
      (∀ k ∈ keysOf (p.2.name ++ txt "Names"), (∃ rest, rest ≠ [] ∧ k = p.2.pre ++ txt "_" ++ rest) ∧ k ∈ headerNames) ∧
      (∀ e ∈ p.2.mappings, e.2 ≠ [] → p.2.pre ++ txt "_" ++ e.2 ∈ keysOf (p.2.name ++ txt "Names")) ∧
      (∀ e ∈ p.2.mappings, p.2.pre ++ txt "_" ++ asciiUpper e.1 ∉ keysOf (p.2.name ++ txt "Names")) := by
  obtain ⟨h1, h2⟩ := checkAll_get check_ok
  refine ⟨h1.symm, fun p hp => ?_⟩
  obtain ⟨ks, hks, hc⟩ := h2 p hp
  have hk : keysOf (p.2.name ++ txt "Names") = ks.map nameOf := by
    unfold keysOf
    rw [find_nodup names_nodup hks]
  rw [hk]
  unfold checkType at hc
  simp only [Bool.and_eq_true, List.all_eq_true, Nat.ble_eq, Nat.blt_eq, Nat.beq_eq, Bool.or_eq_true, Bool.not_eq_true', beq_iff_eq] at hc
  obtain ⟨c1, c2, c3, c4⟩ := hc
  refine ⟨fun k hk => ?_, fun e he hne => ?_, fun e he hm => ?_⟩
  · obtain ⟨n, hn, rfl⟩ := List.mem_map.mp hk
    obtain ⟨_, d1, d2, d3⟩ := c3 n hn
    rw [← Bool.not_eq_true, Nat.beq_eq] at d2
    refine ⟨⟨_, go_ne_nil (by omega) d2, go_append _ 64 n (by omega) c2 d1 d2⟩, List.mem_map_of_mem ?_⟩
    rw [List.mem_append]
    exact d3.imp memT_mem memT_mem
  · obtain ⟨d1, _⟩ := c4 e he
    rcases d1 with d1 | ⟨d1, d2⟩
    · exact absurd (List.isEmpty_iff.mp d1) hne
    · rw [← d2]
      exact List.mem_map_of_mem (memN_iff.mp d1)
  · obtain ⟨_, d2⟩ := c4 e he
    obtain ⟨n, hn, hx⟩ := List.mem_map.mp hm
    have := number_name (c3 n hn).1
    rw [hx] at this
    rw [← Bool.not_eq_true, memN_iff] at d2
    exact d2 (by rw [this]; exact hn)

example : txt "U_WHITE_SPACE_NEUTRAL" ∈ keysOf (txt "bidiClassNames") ∧ (keysOf (txt "blockNames")).length = 309 := by decide +kernel

end Verif.Keys.Props

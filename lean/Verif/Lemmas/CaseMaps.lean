import Verif.Lemmas.CaseData
import Verif.Spec.CaseMaps
/-! # The case data against the mappings of the standard -/
namespace Verif.Case
open Verif.Data Verif.Spec
set_option maxRecDepth 100000

/-- `CaseRun.has`, for the kernel. -/
def hasB (r : CaseRun) (c : Nat) : Bool :=
  and (Nat.ble r.first c) (and (Nat.ble c r.last) (Nat.beq (Nat.mod (Nat.sub c r.first) r.step) 0))

theorem hasB_eq (r : CaseRun) (c : Nat) : hasB r c = r.has c := by
  rw [Bool.eq_iff_iff]
  simp only [hasB, CaseRun.has, Bool.and_eq_true, Nat.ble_eq, Nat.beq_eq, decide_eq_true_eq]
  rfl

/-- Search in a group. -/
def anyRun (c : Nat) : List CaseRun → Bool
  | [] => false
  | r :: rs => or (hasB r c) (anyRun c rs)

/-- The last code point of a group. -/
def lastOf : List CaseRun → Nat
  | [] => 0
  | [r] => r.last
  | _ :: rs => lastOf rs

/-- Search among the groups, by the last code point of each. -/
def anyGroup (c : Nat) : List (List CaseRun) → Bool
  | [] => false
  | g :: gs => or (and (Nat.ble c (lastOf g)) (anyRun c g)) (anyGroup c gs)

theorem anyRun_spec {c : Nat} {g : List CaseRun} (h : anyRun c g = true) : ∃ r ∈ g, r.has c = true := by
  induction g with
  | nil => simp [anyRun] at h
  | cons r rs ih =>
    have h' : (hasB r c || anyRun c rs) = true := h
    rw [Bool.or_eq_true] at h'
    rcases h' with h' | h'
    · exact ⟨r, List.mem_cons_self, by rw [← hasB_eq]; exact h'⟩
    · obtain ⟨x, hx, hc⟩ := ih h'
      exact ⟨x, List.mem_cons_of_mem _ hx, hc⟩

theorem anyGroup_spec {c : Nat} {gs : List (List CaseRun)} (h : anyGroup c gs = true) : ∃ r ∈ gs.flatten, r.has c = true := by
  induction gs with
  | nil => simp [anyGroup] at h
  | cons g gs ih =>
    have h' : ((Nat.ble c (lastOf g) && anyRun c g) || anyGroup c gs) = true := h
    rw [Bool.or_eq_true, Bool.and_eq_true] at h'
    rcases h' with ⟨_, h'⟩ | h'
    · obtain ⟨x, hx, hc⟩ := anyRun_spec h'
      exact ⟨x, by simp [hx], hc⟩
    · obtain ⟨x, hx, hc⟩ := ih h'
      exact ⟨x, by rw [List.flatten_cons]; exact List.mem_append_right _ hx, hc⟩

/-- Every code point of the run, from the `i`-th on, is mapped as the run says. -/
noncomputable def walk (f : Nat → Py Int) (r : CaseRun) : Nat → Bool
  | 0 => true
  | i + 1 => and (okNat (f (Nat.add r.first (Nat.mul r.step i))) (Nat.beq (Nat.add r.target (Nat.mul r.step i)))) (walk f r i)

theorem walk_spec {f : Nat → Py Int} {r : CaseRun} : ∀ {n}, walk f r n = true → ∀ i < n,
    f (r.first + r.step * i) = .ok ((r.target + r.step * i : Nat) : Int)
  | 0, _, i, hi => by omega
  | n + 1, h, i, hi => by
    have h' : (okNat (f (r.first + r.step * n)) (Nat.beq (r.target + r.step * n)) && walk f r n) = true := h
    rw [Bool.and_eq_true] at h'
    by_cases e : i = n
    · subst e; exact okNat_beq h'.1
    · exact walk_spec h'.2 i (by omega)

/-- The walk over a whole run. -/
noncomputable def walkRun (f : Nat → Py Int) (r : CaseRun) : Bool :=
  and (Nat.blt 0 r.step) (force (Nat.succ (Nat.div (Nat.sub r.last r.first) r.step)) (walk f r))

theorem walkRun_spec {f : Nat → Py Int} {r : CaseRun} (h : walkRun f r = true) {c : Nat} (hc : r.has c = true) :
    f c = .ok ((r.target + (c - r.first) : Nat) : Int) := by
  unfold walkRun at h
  rw [Bool.and_eq_true, force_eq] at h
  obtain ⟨h1, h2⟩ := h
  have h1 : 0 < r.step := by rw [Nat.blt_eq] at h1; exact h1
  simp only [CaseRun.has, decide_eq_true_eq] at hc
  obtain ⟨a, b, d⟩ := hc
  have hm : r.step * ((c - r.first) / r.step) = c - r.first := by
    have := Nat.div_add_mod (c - r.first) r.step
    omega
  have hle : (c - r.first) / r.step ≤ (r.last - r.first) / r.step := Nat.div_le_div_right (by omega)
  have := walk_spec h2 ((c - r.first) / r.step) (Nat.lt_succ_of_le hle)
  rw [hm, show r.first + (c - r.first) = c by omega] at this
  exact this

/-- The walk over all runs. -/
noncomputable def walkAll (f : Nat → Py Int) (gs : List (List CaseRun)) : Bool := gs.all (·.all (walkRun f))

theorem walkAll_spec {f : Nat → Py Int} {gs : List (List CaseRun)} (h : walkAll f gs = true) {r : CaseRun}
    (hr : r ∈ gs.flatten) : walkRun f r = true := by
  obtain ⟨g, hg, hr⟩ := List.mem_flatten.mp hr
  unfold walkAll at h
  exact List.all_eq_true.mp (List.all_eq_true.mp h g hg) r hr

/-- The walk and the search give the map of the standard. -/
theorem mapBy_of {f : Nat → Py Int} {gs : List (List CaseRun)} (h : walkAll f gs = true) {c : Nat}
    (hm : f c = .ok (c : Int) ∨ anyGroup c gs = true) : f c = .ok (mapBy gs c : Int) := by
  unfold mapBy
  split
  · rename_i r hr
    have hc := List.find?_some (p := fun x : CaseRun => x.has c) hr
    exact walkRun_spec (walkAll_spec h (List.mem_of_find?_eq_some hr)) hc
  · rename_i hn
    rcases hm with hm | hm
    · exact hm
    · obtain ⟨r, hr, hc⟩ := anyGroup_spec hm
      exact absurd hc (List.find?_eq_none.mp hn r hr)

/-- A code point is fixed or in a run. -/
noncomputable def movedIn (gs : List (List CaseRun)) (c : Nat) (r : Py Int) : Bool :=
  okNat r fun m => or (Nat.beq m c) (anyGroup c gs)

theorem movedIn_spec {gs : List (List CaseRun)} {c : Nat} {r : Py Int} (h : movedIn gs c r = true) :
    r = .ok (c : Int) ∨ anyGroup c gs = true := by
  obtain ⟨m, h1, h2⟩ := okNat_spec h
  rw [Bool.or_eq_true] at h2
  rcases h2 with h2 | h2
  · rw [h1, Nat.eq_of_beq_eq_true h2]; exact .inl rfl
  · exact .inr h2

/-- Strings, for the kernel. -/
def sameB : List Nat → List Nat → Bool
  | [], [] => true
  | x :: xs, y :: ys => and (Nat.beq x y) (sameB xs ys)
  | _, _ => false

theorem sameB_spec : ∀ {xs ys}, sameB xs ys = true → xs = ys
  | [], [], _ => rfl
  | x :: xs, y :: ys, h => by
    have h' : (Nat.beq x y && sameB xs ys) = true := h
    rw [Bool.and_eq_true] at h'
    rw [Nat.eq_of_beq_eq_true h'.1, sameB_spec h'.2]
  | [], _ :: _, h => by simp [sameB] at h
  | _ :: _, [], h => by simp [sameB] at h

/-- The entry of `c`. -/
def entry (c : Nat) : List (Nat × List Nat) → Bool
  | [] => false
  | p :: ps => or (Nat.beq c p.1) (entry c ps)

theorem entry_spec {c : Nat} {l : List (Nat × List Nat)} (h : entry c l = true) : ∃ s, l.lookup c = some s := by
  induction l with
  | nil => simp [entry] at h
  | cons p ps ih =>
    have h' : (Nat.beq c p.1 || entry c ps) = true := h
    rw [Bool.or_eq_true] at h'
    rw [List.lookup_cons]
    by_cases e : c = p.1
    · subst e; exact ⟨p.2, by simp⟩
    · rcases h' with h' | h'
      · exact absurd (Nat.eq_of_beq_eq_true h') e
      · obtain ⟨s, hs⟩ := ih h'
        exact ⟨s, by rw [← hs]; simp [show (c == p.1) = false by simpa using e]⟩

/-- A mapping of one character, or the mapping of a code point with an entry. -/
noncomputable def shortOr (special : List (Nat × List Nat)) (c : Nat) : List Nat → Bool
  | [_] => true
  | _ => entry c special

/-- The entries are what the function returns. -/
noncomputable def entries (f : Nat → Py (List Nat)) (special : List (Nat × List Nat)) : Bool :=
  special.all fun p => okList (f p.1) fun xs => sameB xs p.2

theorem mem_of_lookup {c : Nat} {s : List Nat} : ∀ {l : List (Nat × List Nat)}, l.lookup c = some s → (c, s) ∈ l
  | [], h => by simp at h
  | p :: ps, h => by
    rw [List.lookup_cons] at h
    by_cases e : c = p.1
    · subst e
      simp only [beq_self_eq_true, Option.some.injEq] at h
      subst h
      exact List.mem_cons_self
    · rw [show (c == p.1) = false by simpa using e] at h
      exact List.mem_cons_of_mem _ (mem_of_lookup h)

theorem entries_spec {f : Nat → Py (List Nat)} {special : List (Nat × List Nat)} (h : entries f special = true)
    {c : Nat} {s : List Nat} (hs : special.lookup c = some s) : f c = .ok s := by
  unfold entries at h
  obtain ⟨xs, h1, h2⟩ := okList_spec (List.all_eq_true.mp h _ (mem_of_lookup hs))
  rw [h1, sameB_spec h2]

/-- What is checked at every code point that has case. -/
noncomputable def goodMaps (c v : Nat) : Bool :=
  and (and (movedIn simpleLower c (toLowerProps caseExceptions.arr c v))
    (and (movedIn simpleUpper c (toUpperProps caseExceptions.arr c v)) (movedIn simpleTitle c (toTitleProps caseExceptions.arr c v))))
  (and (okList (toFullLowerProps caseExceptions.arr c v) (shortOr specialLower c))
    (and (okList (toUpperOrTitleProps caseExceptions.arr c v true) (shortOr specialUpper c))
      (okList (toUpperOrTitleProps caseExceptions.arr c v false) (shortOr specialTitle c))))

noncomputable def goodMapsC (c v : Nat) : Bool := or (Nat.beq (Nat.land v 0xB) 0) (goodMaps c v)

theorem maps_scan : allB (casePropsTrie.scanG (caseIndex.quick mask) goodMapsC) 10 0 = true := by decide +kernel
theorem walk_lower : walkAll toLower simpleLower = true := by decide +kernel
theorem walk_upper : walkAll toUpper simpleUpper = true := by decide +kernel
theorem walk_title : walkAll toTitle simpleTitle = true := by decide +kernel
theorem entries_lower : entries toFullLower specialLower = true := by decide +kernel
theorem entries_upper : entries toFullUpper specialUpper = true := by decide +kernel
theorem entries_title : entries toFullTitle specialTitle = true := by decide +kernel

end Verif.Case

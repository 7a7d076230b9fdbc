import Verif.Lemmas.ShippedTries
/-! # Whole-table checks on the case data -/
namespace Verif.Case
open Verif.Data
set_option maxRecDepth 100000

/-- 32 copies of 0xB: the case type and the exception flag. -/
def mask : Nat := 0xB * ((2 ^ 512 - 1) / (2 ^ 16 - 1))

theorem mask_spec : ∀ j < 32, (mask >>> (caseIndex.bits * j)) % 2 ^ caseIndex.bits = 0xB := by decide +kernel

/-- The call returned a natural number that satisfies `f`. -/
noncomputable def okNat (r : Py Int) (f : Nat → Bool) : Bool :=
  match r with
  | .ok (.ofNat n) => force n f
  | _ => false

theorem okNat_spec {r : Py Int} {f : Nat → Bool} (h : okNat r f = true) : ∃ n : Nat, r = .ok (n : Int) ∧ f n = true := by
  unfold okNat at h
  split at h
  · rename_i n
    rw [force_eq] at h
    exact ⟨n, rfl, h⟩
  · simp at h

/-- A code point other than a surrogate. -/
def scalar (m : Nat) : Bool := and (Nat.blt m 0x110000) (or (Nat.blt m 0xD800) (Nat.ble 0xE000 m))

/-- The call returned a list that satisfies `f`. -/
def okList (r : Py (List Nat)) (f : List Nat → Bool) : Bool :=
  match r with
  | .ok xs => f xs
  | .error _ => false

theorem okList_spec {r : Py (List Nat)} {f : List Nat → Bool} (h : okList r f = true) : ∃ xs, r = .ok xs ∧ f xs = true := by
  cases r with
  | ok xs => exact ⟨xs, rfl, h⟩
  | error e => simp [okList] at h

/-- One to three characters; if one, it is `m`. -/
noncomputable def goodFull (m : Nat) : List Nat → Bool
  | [x] => force x fun x => Nat.beq x m
  | [x, y] => and (force x scalar) (force y scalar)
  | [x, y, z] => and (force x scalar) (and (force y scalar) (force z scalar))
  | _ => false

/-- Code points `c` with toUpper(toLower(c)) other than toUpper(c). -/
def upperLowerExceptions : List Nat := [0x130, 0x3F4, 0x1E9E, 0x2126, 0x212A, 0x212B]

/-- Code points `c` with toLower(toUpper(c)) other than toLower(c). -/
def lowerUpperExceptions : List Nat := [0xB5, 0x131, 0x17F, 0x345, 0x3C2, 0x3D0, 0x3D1, 0x3D5, 0x3D6, 0x3F0, 0x3F1, 0x3F5, 0x1C80, 0x1C81, 0x1C82, 0x1C83, 0x1C84, 0x1C85, 0x1C86, 0x1C87, 0x1C88, 0x1E9B, 0x1FBE]

noncomputable def memB (c : Nat) (l : List Nat) : Bool := List.rec false (fun x _ ih => or (Nat.beq c x) ih) l

theorem memB_spec {c : Nat} {l : List Nat} (h : memB c l = true) : c ∈ l := by
  induction l with
  | nil => simp [memB] at h
  | cons x xs ih =>
    have h' : (Nat.beq c x || memB c xs) = true := h
    rw [Bool.or_eq_true] at h'
    rcases h' with h' | h'
    · rw [Nat.eq_of_beq_eq_true h']; exact List.mem_cons_self
    · exact List.mem_cons_of_mem _ (ih h')

/-- Range, idempotence and round trips of the simple mappings. -/
noncomputable def goodSimple (c v : Nat) : Bool :=
  okNat (toLowerProps caseExceptions.arr c v) fun l => okNat (toUpperProps caseExceptions.arr c v) fun u =>
  okNat (toTitleProps caseExceptions.arr c v) fun t =>
  and (and (scalar l) (and (scalar u) (scalar t)))
  (and (and (okNat (toLower l) (Nat.beq l)) (and (okNat (toUpper u) (Nat.beq u)) (okNat (toTitle t) (Nat.beq t))))
  (and (okNat (toUpper t) (Nat.beq u))
  (and (okNat (toUpper l) fun ul => or (Nat.beq ul u) (memB c upperLowerExceptions))
  (okNat (toLower u) fun lu => and (or (Nat.beq lu l) (memB c lowerUpperExceptions))
    (okNat (toUpper lu) fun ulu => okNat (toLower ulu) (Nat.beq lu))))))

noncomputable def goodSimpleC (c v : Nat) : Bool := or (Nat.beq (Nat.land v 0xB) 0) (goodSimple c v)

/-- The full mappings. -/
noncomputable def goodFulls (c v : Nat) : Bool :=
  okNat (toLowerProps caseExceptions.arr c v) fun l => okNat (toUpperProps caseExceptions.arr c v) fun u =>
  okNat (toTitleProps caseExceptions.arr c v) fun t =>
  and (okList (toFullLowerProps caseExceptions.arr c v) (goodFull l))
  (and (okList (toUpperOrTitleProps caseExceptions.arr c v true) (goodFull u))
    (okList (toUpperOrTitleProps caseExceptions.arr c v false) (goodFull t)))

noncomputable def goodFullsC (c v : Nat) : Bool := or (Nat.beq (Nat.land v 0xB) 0) (goodFulls c v)

/-- The call returned a general category for which bit of `m` is set. -/
noncomputable def gcIn (m : Nat) (c : Nat) : Bool :=
  match Char.getGeneralCategory c with
  | .ok gc => Nat.testBit m gc
  | .error _ => false

/-- Mappings that move `c`, against the general category. -/
noncomputable def goodCategory (c v : Nat) : Bool :=
  okNat (toLowerProps caseExceptions.arr c v) fun l => okNat (toUpperProps caseExceptions.arr c v) fun u =>
  okNat (toTitleProps caseExceptions.arr c v) fun t =>
  and (or (Nat.beq l c) (gcIn 0x800040A c))
  (and (or (Nat.beq u c) (or (Nat.beq c 0x345) (gcIn 0x800040C c)))
    (or (Nat.beq t c) (or (Nat.beq c 0x345) (gcIn 0x8000406 c))))

noncomputable def goodCategoryC (c v : Nat) : Bool := or (Nat.beq (Nat.land v 0xB) 0) (goodCategory c v)

theorem simple_scan : allB (casePropsTrie.scanG (caseIndex.quick mask) goodSimpleC) 10 0 = true := by decide +kernel
theorem full_scan : allB (casePropsTrie.scanG (caseIndex.quick mask) goodFullsC) 10 0 = true := by decide +kernel
theorem category_scan : allB (casePropsTrie.scanG (caseIndex.quick mask) goodCategoryC) 10 0 = true := by decide +kernel

theorem get_eq (c : Nat) : casePropsTrie.get c = .ok (casePropsTrie.getv c) := trie_ok.get c

theorem toLower_eq (c : Nat) : toLower c = toLowerProps caseExceptions.arr c (casePropsTrie.getv c) := by
  unfold toLower; rw [get_eq]; rfl
theorem toUpper_eq (c : Nat) : toUpper c = toUpperProps caseExceptions.arr c (casePropsTrie.getv c) := by
  unfold toUpper; rw [get_eq]; rfl
theorem toTitle_eq (c : Nat) : toTitle c = toTitleProps caseExceptions.arr c (casePropsTrie.getv c) := by
  unfold toTitle; rw [get_eq]; rfl
theorem toFullLower_eq (c : Nat) : toFullLower c = toFullLowerProps caseExceptions.arr c (casePropsTrie.getv c) := by
  unfold toFullLower; rw [get_eq]; rfl
theorem toUpperOrTitle_eq (c : Nat) (b : Bool) :
    toUpperOrTitle c b = toUpperOrTitleProps caseExceptions.arr c (casePropsTrie.getv c) b := by
  unfold toUpperOrTitle; rw [get_eq]; rfl

/-- Values without case type and exception flag. -/
structure Trivial (v : Nat) : Prop where
  exc : hasException v = false
  upper : isUpperOrTitle v = false
  type : getTypeFromProps v = 0

theorem trivial_of {v : Nat} (h : v &&& 0xB = 0) : Trivial v := by
  have h8 : v &&& 8 = 0 := by
    have e : v &&& 8 = (v &&& 0xB) &&& 8 := by rw [Nat.and_assoc]; rfl
    rw [e, h]; rfl
  have h2 : v &&& 2 = 0 := by
    have e : v &&& 2 = (v &&& 0xB) &&& 2 := by rw [Nat.and_assoc]; rfl
    rw [e, h]; rfl
  have h3 : v &&& 3 = 0 := by
    have e : v &&& 3 = (v &&& 0xB) &&& 3 := by rw [Nat.and_assoc]; rfl
    rw [e, h]; rfl
  refine ⟨?_, ?_, h3⟩
  · unfold hasException; rw [h8]; rfl
  · unfold isUpperOrTitle
    rw [show (2 &&& 3 : Nat) = 2 from rfl, h2]; rfl

theorem Trivial.maps {v : Nat} (h : Trivial v) (exc : Arr) (c : Nat) :
    toLowerProps exc c v = .ok (c : Int) ∧ toUpperProps exc c v = .ok (c : Int) ∧ toTitleProps exc c v = .ok (c : Int) := by
  unfold toLowerProps toUpperProps toTitleProps
  rw [h.exc, h.upper, h.type]
  simp

theorem Trivial.fulls {v : Nat} (h : Trivial v) (exc : Arr) {c : Nat} (hc : c ≤ 0x10FFFF) (b : Bool) :
    toFullLowerProps exc c v = .ok [c] ∧ toUpperOrTitleProps exc c v b = .ok [c] := by
  have e : chr (c : Int) = .ok [c] := by
    unfold chr; rw [if_pos (by omega)]; rfl
  unfold toFullLowerProps toUpperOrTitleProps
  rw [h.exc, h.upper, h.type, e]
  simp [bind, Except.bind, pure, Except.pure]

/-- From a scan to all code points: trivial values or the checked fact. -/
theorem scan_cases (p : Nat → Nat → Bool)
    (h : allB (casePropsTrie.scanG (caseIndex.quick mask) (fun c v => or (Nat.beq (Nat.land v 0xB) 0) (p c v))) 10 0 = true)
    (c : Nat) : Trivial (casePropsTrie.getv c) ∨ (p c (casePropsTrie.getv c) = true ∧ c < 0x10FFFF) := by
  have triv : ∀ v c, v &&& 0xB = 0 → (or (Nat.beq (Nat.land v 0xB) 0) (p c v)) = true := by
    intro v c h
    rw [show Nat.land v 0xB = v &&& 0xB from rfl, h]; rfl
  by_cases hc : c < 0x10FFFF
  · have := trie_ok.forall_scanG nulls_ok (caseIndex.quick mask) (fun c v => or (Nat.beq (Nat.land v 0xB) 0) (p c v))
      (fun a ha j hj c => triv _ _ (caseIndex.quick_spec mask 0xB a mask_spec ha j hj)) (fun c => triv _ c rfl)
      (fun g hg => allB_range h (lo := 0) (hi := 1024) rfl rfl g (by omega) (by omega))
      (fun c _ _ => triv _ _ (by decide +kernel)) c hc
    rw [Bool.or_eq_true] at this
    rcases this with h | h
    · exact .inl (trivial_of (Nat.eq_of_beq_eq_true h))
    · exact .inr ⟨h, hc⟩
  · left
    unfold UTrie2.getv
    rw [if_neg hc]
    exact trivial_of (by decide +kernel)

theorem scalar_iff {m : Nat} : scalar m = true ↔ m ≤ 0x10FFFF ∧ ¬ (0xD800 ≤ m ∧ m ≤ 0xDFFF) := by
  unfold scalar
  simp only [Bool.and_eq_true, Bool.or_eq_true, Nat.blt_eq, Nat.ble_eq]
  omega

theorem okNat_beq {r : Py Int} {n : Nat} (h : okNat r (Nat.beq n) = true) : r = .ok (n : Int) := by
  obtain ⟨m, h1, h2⟩ := okNat_spec h
  rw [h1, Nat.eq_of_beq_eq_true h2]

/-- What the first scan says. -/
theorem simple_facts (c : Nat) : ∃ l u t : Nat,
    toLower c = .ok (l : Int) ∧ toUpper c = .ok (u : Int) ∧ toTitle c = .ok (t : Int) ∧
    (∀ m, m = l ∨ m = u ∨ m = t → m = c ∨ (m ≤ 0x10FFFF ∧ ¬ (0xD800 ≤ m ∧ m ≤ 0xDFFF))) ∧
    toLower l = .ok (l : Int) ∧ toUpper u = .ok (u : Int) ∧ toTitle t = .ok (t : Int) ∧ toUpper t = .ok (u : Int) ∧
    (c ∉ upperLowerExceptions → toUpper l = .ok (u : Int)) ∧ (c ∉ lowerUpperExceptions → toLower u = .ok (l : Int)) ∧
    (∃ lu ulu : Nat, toLower u = .ok (lu : Int) ∧ toUpper lu = .ok (ulu : Int) ∧ toLower ulu = .ok (lu : Int)) := by
  rcases scan_cases goodSimple simple_scan c with h | ⟨h, _⟩
  · have hm := h.maps caseExceptions.arr c
    rw [← toLower_eq, ← toUpper_eq, ← toTitle_eq] at hm
    obtain ⟨h1, h2, h3⟩ := hm
    exact ⟨c, c, c, h1, h2, h3, fun m hm => .inl (by omega), h1, h2, h3, h2, fun _ => h2, fun _ => h1, c, c, h1, h2, h1⟩
  · unfold goodSimple at h
    rw [← toLower_eq, ← toUpper_eq, ← toTitle_eq] at h
    obtain ⟨l, hl, h⟩ := okNat_spec h
    obtain ⟨u, hu, h⟩ := okNat_spec h
    obtain ⟨t, ht, h⟩ := okNat_spec h
    simp only [Bool.and_eq_true, scalar_iff] at h
    obtain ⟨⟨s1, s2, s3⟩, ⟨i1, i2, i3⟩, ut, ul, lu⟩ := h
    obtain ⟨x, hx, ul⟩ := okNat_spec ul
    obtain ⟨y, hy, lu⟩ := okNat_spec lu
    rw [Bool.or_eq_true] at ul
    simp only [Bool.and_eq_true, Bool.or_eq_true] at lu
    obtain ⟨lu, z⟩ := lu
    obtain ⟨z, hz, z2⟩ := okNat_spec z
    refine ⟨l, u, t, hl, hu, ht, ?_, okNat_beq i1, okNat_beq i2, okNat_beq i3, okNat_beq ut, fun hn => ?_, fun hn => ?_,
      y, z, hy, hz, okNat_beq z2⟩
    · rintro m (rfl | rfl | rfl)
      · exact .inr s1
      · exact .inr s2
      · exact .inr s3
    · rcases ul with ul | ul
      · rw [hx, Nat.eq_of_beq_eq_true ul]
      · exact absurd (memB_spec ul) hn
    · rcases lu with lu | lu
      · rw [hy, Nat.eq_of_beq_eq_true lu]
      · exact absurd (memB_spec lu) hn

theorem goodFull_spec {m : Nat} {xs : List Nat} (h : goodFull m xs = true) :
    xs ≠ [] ∧ xs.length ≤ 3 ∧ (∀ x, xs = [x] → x = m) ∧
    (xs = [m] ∨ ∀ x ∈ xs, x ≤ 0x10FFFF ∧ ¬ (0xD800 ≤ x ∧ x ≤ 0xDFFF)) := by
  unfold goodFull at h
  split at h
  · rename_i x
    rw [force_eq] at h
    have := Nat.eq_of_beq_eq_true h
    subst this
    exact ⟨by simp, by simp, fun y hy => by simpa using hy.symm, .inl rfl⟩
  · rename_i x y
    simp only [Bool.and_eq_true, force_eq, scalar_iff] at h
    refine ⟨by simp, by simp, fun y hy => by simp at hy, .inr ?_⟩
    intro z hz
    simp only [List.mem_cons, List.not_mem_nil, or_false] at hz
    rcases hz with rfl | rfl
    · exact h.1
    · exact h.2
  · rename_i x y z
    simp only [Bool.and_eq_true, force_eq, scalar_iff] at h
    refine ⟨by simp, by simp, fun y hy => by simp at hy, .inr ?_⟩
    intro w hw
    simp only [List.mem_cons, List.not_mem_nil, or_false] at hw
    rcases hw with rfl | rfl | rfl
    · exact h.1
    · exact h.2.1
    · exact h.2.2
  · simp at h

/-- What the second scan says. -/
theorem full_facts (c : Nat) (hc : c ≤ 0x10FFFF) : ∃ l u t : Nat, ∃ fl fu ft : List Nat,
    toLower c = .ok (l : Int) ∧ toUpper c = .ok (u : Int) ∧ toTitle c = .ok (t : Int) ∧
    toFullLower c = .ok fl ∧ toFullUpper c = .ok fu ∧ toFullTitle c = .ok ft ∧
    goodFull l fl = true ∧ goodFull u fu = true ∧ goodFull t ft = true := by
  rcases scan_cases goodFulls full_scan c with h | ⟨h, _⟩
  · have hm := h.maps caseExceptions.arr c
    have hf := fun b => h.fulls caseExceptions.arr hc b
    rw [← toLower_eq, ← toUpper_eq, ← toTitle_eq] at hm
    simp only [← toFullLower_eq, ← toUpperOrTitle_eq] at hf
    obtain ⟨h1, h2, h3⟩ := hm
    have g : goodFull c [c] = true := by
      show force c (fun x => Nat.beq x c) = true
      rw [force_eq]; exact Nat.beq_refl c
    exact ⟨c, c, c, [c], [c], [c], h1, h2, h3, (hf true).1, (hf true).2, (hf false).2, g, g, g⟩
  · unfold goodFulls at h
    rw [← toLower_eq, ← toUpper_eq, ← toTitle_eq, ← toFullLower_eq, ← toUpperOrTitle_eq, ← toUpperOrTitle_eq] at h
    obtain ⟨l, hl, h⟩ := okNat_spec h
    obtain ⟨u, hu, h⟩ := okNat_spec h
    obtain ⟨t, ht, h⟩ := okNat_spec h
    simp only [Bool.and_eq_true] at h
    obtain ⟨h1, h2, h3⟩ := h
    obtain ⟨fl, e1, g1⟩ := okList_spec h1
    obtain ⟨fu, e2, g2⟩ := okList_spec h2
    obtain ⟨ft, e3, g3⟩ := okList_spec h3
    exact ⟨l, u, t, fl, fu, ft, hl, hu, ht, e1, e2, e3, g1, g2, g3⟩

theorem gcIn_spec {m c : Nat} (h : gcIn m c = true) : ∃ gc, Char.getGeneralCategory c = .ok gc ∧ m.testBit gc = true := by
  unfold gcIn at h
  split at h
  · rename_i gc e
    exact ⟨gc, e, h⟩
  · simp at h

/-- What the third scan says. -/
theorem category_facts (c : Nat) : ∃ l u t : Nat,
    toLower c = .ok (l : Int) ∧ toUpper c = .ok (u : Int) ∧ toTitle c = .ok (t : Int) ∧
    (l = c ∨ ∃ gc, Char.getGeneralCategory c = .ok gc ∧ Nat.testBit 0x800040A gc = true) ∧
    (u = c ∨ c = 0x345 ∨ ∃ gc, Char.getGeneralCategory c = .ok gc ∧ Nat.testBit 0x800040C gc = true) ∧
    (t = c ∨ c = 0x345 ∨ ∃ gc, Char.getGeneralCategory c = .ok gc ∧ Nat.testBit 0x8000406 gc = true) := by
  rcases scan_cases goodCategory category_scan c with h | ⟨h, _⟩
  · have hm := h.maps caseExceptions.arr c
    rw [← toLower_eq, ← toUpper_eq, ← toTitle_eq] at hm
    obtain ⟨h1, h2, h3⟩ := hm
    exact ⟨c, c, c, h1, h2, h3, .inl rfl, .inl rfl, .inl rfl⟩
  · unfold goodCategory at h
    rw [← toLower_eq, ← toUpper_eq, ← toTitle_eq] at h
    obtain ⟨l, hl, h⟩ := okNat_spec h
    obtain ⟨u, hu, h⟩ := okNat_spec h
    obtain ⟨t, ht, h⟩ := okNat_spec h
    simp only [Bool.and_eq_true, Bool.or_eq_true] at h
    obtain ⟨h1, h2, h3⟩ := h
    refine ⟨l, u, t, hl, hu, ht, ?_, ?_, ?_⟩
    · exact h1.imp Nat.eq_of_beq_eq_true gcIn_spec
    · exact h2.imp Nat.eq_of_beq_eq_true (Or.imp Nat.eq_of_beq_eq_true gcIn_spec)
    · exact h3.imp Nat.eq_of_beq_eq_true (Or.imp Nat.eq_of_beq_eq_true gcIn_spec)

end Verif.Case

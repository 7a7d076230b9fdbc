import Verif.Model.PyExpr
import Verif.Spec.CExpr
/-! # Python's `& | ^ ~` and those of 32-bit integers -/
namespace Verif.PyExpr

theorem sub_and (a b : Nat) : a - (a &&& b) = a ^^^ (a &&& b) := by
  have key : ∀ a b : Nat, (a &&& b) + (a ^^^ (a &&& b)) = a := by
    intro a
    induction a using Nat.strongRecOn with
    | _ a ih =>
      intro b
      by_cases h : a = 0
      · subst h; simp
      · have h2 := ih (a / 2) (by omega) (b / 2)
        have d1 : (a &&& b) / 2 = a / 2 &&& b / 2 := by simpa using Nat.and_div_two_pow (a := a) (b := b) (n := 1)
        have d2 : (a ^^^ (a &&& b)) / 2 = a / 2 ^^^ (a &&& b) / 2 := by simpa using Nat.xor_div_two_pow (a := a) (b := a &&& b) (n := 1)
        have m1 : (a &&& b) % 2 = a % 2 &&& b % 2 := by simpa using Nat.and_mod_two_pow (a := a) (b := b) (n := 1)
        have m2 : (a ^^^ (a &&& b)) % 2 = a % 2 ^^^ (a &&& b) % 2 := by simpa using Nat.xor_mod_two_pow (a := a) (b := a &&& b) (n := 1)
        rw [d1] at d2
        rw [m1] at m2
        have hm : (a % 2 &&& b % 2) + (a % 2 ^^^ (a % 2 &&& b % 2)) = a % 2 := by
          rcases Nat.mod_two_eq_zero_or_one a with e | e <;> rcases Nat.mod_two_eq_zero_or_one b with e' | e' <;> rw [e, e'] <;> rfl
        omega
  have := key a b
  omega

theorem ofNat_sub_and (a b : Nat) : BitVec.ofNat 32 (a - (a &&& b)) = BitVec.ofNat 32 a &&& ~~~ BitVec.ofNat 32 b := by
  rw [sub_and, BitVec.ofNat_xor, BitVec.ofNat_and]
  generalize BitVec.ofNat 32 a = x
  generalize BitVec.ofNat 32 b = y
  ext i hi
  simp
  cases x[i] <;> cases y[i] <;> rfl

theorem ofInt_negSucc (a : Nat) : BitVec.ofInt 32 (Int.negSucc a) = ~~~ BitVec.ofNat 32 a := by
  apply BitVec.eq_of_toNat_eq
  rw [BitVec.toNat_ofInt, BitVec.toNat_not, BitVec.toNat_ofNat, Int.negSucc_eq]
  omega

theorem ofInt_and (a b : Int) : BitVec.ofInt 32 (pyAnd a b) = BitVec.ofInt 32 a &&& BitVec.ofInt 32 b := by
  match a, b with
  | .ofNat a, .ofNat b => exact BitVec.ofNat_and
  | .ofNat a, .negSucc b =>
    rw [ofInt_negSucc]
    exact ofNat_sub_and a b
  | .negSucc a, .ofNat b =>
    rw [ofInt_negSucc, BitVec.and_comm]
    show BitVec.ofNat 32 (b - (a &&& b)) = _
    rw [Nat.and_comm a b]
    exact ofNat_sub_and b a
  | .negSucc a, .negSucc b =>
    show BitVec.ofInt 32 (.negSucc (a ||| b)) = _
    rw [ofInt_negSucc, ofInt_negSucc, ofInt_negSucc, BitVec.ofNat_or]
    generalize BitVec.ofNat 32 a = x
    generalize BitVec.ofNat 32 b = y
    ext i hi
    simp

theorem ofInt_inv (a : Int) : BitVec.ofInt 32 (-1 - a) = ~~~ BitVec.ofInt 32 a := by
  match a with
  | .ofNat a => rw [show -1 - Int.ofNat a = Int.negSucc a by show -1 - (a : Int) = _; rw [Int.negSucc_eq]; omega, ofInt_negSucc]; rfl
  | .negSucc a =>
    rw [show -1 - Int.negSucc a = (a : Int) by rw [Int.negSucc_eq]; omega, ofInt_negSucc, BitVec.not_not]
    rfl

theorem ofInt_or (a b : Int) : BitVec.ofInt 32 (pyOr a b) = BitVec.ofInt 32 a ||| BitVec.ofInt 32 b := by
  unfold pyOr
  rw [ofInt_inv, ofInt_and, ofInt_inv, ofInt_inv]
  generalize BitVec.ofInt 32 a = x
  generalize BitVec.ofInt 32 b = y
  ext i hi
  simp

theorem ofInt_xor (a b : Int) : BitVec.ofInt 32 (pyXor a b) = BitVec.ofInt 32 a ^^^ BitVec.ofInt 32 b := by
  unfold pyXor
  rw [ofInt_and, ofInt_inv, ofInt_or, ofInt_and]
  generalize BitVec.ofInt 32 a = x
  generalize BitVec.ofInt 32 b = y
  ext i hi
  simp
  cases x[i] <;> cases y[i] <;> rfl

open Verif.CHeader.Spec

theorem toInt_of {v : Int} {x : BitVec 32} (h : BitVec.ofInt 32 v = x) (hv : InInt v) : v = x.toInt := by
  rw [← h, BitVec.toInt_ofInt]
  obtain ⟨h1, h2⟩ := hv
  exact (Int.bmod_eq_of_le_mul_two (by omega) (by omega)).symm

theorem inInt_and {a b : Int} (ha : InInt a) (hb : InInt b) : InInt (pyAnd a b) := by
  obtain ⟨a1, a2⟩ := ha
  obtain ⟨b1, b2⟩ := hb
  rcases a with a | a <;> rcases b with b | b
  · have : a &&& b ≤ a := Nat.and_le_left
    simp only [Int.ofNat_eq_natCast] at *
    show InInt ((a &&& b : Nat) : Int)
    constructor <;> omega
  · simp only [Int.ofNat_eq_natCast] at *
    show InInt ((a - (a &&& b) : Nat) : Int)
    constructor <;> omega
  · simp only [Int.ofNat_eq_natCast] at *
    show InInt ((b - (a &&& b) : Nat) : Int)
    constructor <;> omega
  · have : a ||| b < 2 ^ 31 := Nat.or_lt_two_pow (by omega) (by omega)
    show InInt (.negSucc (a ||| b))
    constructor <;> omega

theorem inInt_inv {a : Int} (ha : InInt a) : InInt (-1 - a) := by
  obtain ⟨a1, a2⟩ := ha
  constructor <;> omega

theorem pyAnd_int {a b : Int} (ha : InInt a) (hb : InInt b) : pyAnd a b = (BitVec.ofInt 32 a &&& BitVec.ofInt 32 b).toInt :=
  toInt_of (ofInt_and a b) (inInt_and ha hb)

theorem inInt_or {a b : Int} (ha : InInt a) (hb : InInt b) : InInt (pyOr a b) := inInt_inv (inInt_and (inInt_inv ha) (inInt_inv hb))

theorem pyOr_int {a b : Int} (ha : InInt a) (hb : InInt b) : pyOr a b = (BitVec.ofInt 32 a ||| BitVec.ofInt 32 b).toInt :=
  toInt_of (ofInt_or a b) (inInt_or ha hb)

theorem pyXor_int {a b : Int} (ha : InInt a) (hb : InInt b) : pyXor a b = (BitVec.ofInt 32 a ^^^ BitVec.ofInt 32 b).toInt :=
  toInt_of (ofInt_xor a b) (inInt_and (inInt_or ha hb) (inInt_inv (inInt_and ha hb)))

theorem pyInv_int {a : Int} (ha : InInt a) : -a - 1 = (~~~ BitVec.ofInt 32 a).toInt :=
  toInt_of (by rw [← ofInt_inv]; congr 1; omega) (by have := inInt_inv ha; rwa [show -1 - a = -a - 1 by omega] at this)

end Verif.PyExpr

import Verif.Model.Py
/-! Bit masks as arithmetic. -/
namespace Verif

/-- A mask of `k` ones shifted left by `j`. -/
theorem and_field (x k j : Nat) : x &&& ((2 ^ k - 1) * 2 ^ j) = (x / 2 ^ j % 2 ^ k) * 2 ^ j := by
  rw [← Nat.and_two_pow_sub_one_eq_mod]
  apply Nat.eq_of_testBit_eq
  intro i
  rw [Nat.testBit_and, Nat.testBit_mul_two_pow, Nat.testBit_mul_two_pow, Nat.testBit_and, Nat.testBit_div_two_pow]
  by_cases h : j ≤ i
  · simp only [h, decide_true, Bool.true_and]
    rw [Nat.sub_add_cancel h]
  · simp [h]

/-- The same for Python's `&` on any integer. -/
theorem pyAnd_field (x : Int) (k j : Nat) :
    pyAnd x (((2 ^ k - 1) * 2 ^ j : Nat) : Int) = (x / 2 ^ j % 2 ^ k) * 2 ^ j := by
  cases x with
  | ofNat a =>
    show ((a &&& ((2 ^ k - 1) * 2 ^ j) : Nat) : Int) = _
    rw [and_field]
    simp
  | negSucc a =>
    show ((((2 ^ k - 1) * 2 ^ j) - (a &&& ((2 ^ k - 1) * 2 ^ j)) : Nat) : Int) = _
    rw [and_field, ← Nat.sub_mul]
    rw [Int.natCast_mul]
    have h1 : (((2 : Nat) ^ j : Nat) : Int) = 2 ^ j := by simp
    have h2 : (((2 : Nat) ^ k : Nat) : Int) = 2 ^ k := by simp
    rw [h1]
    congr 1
    have hj : 0 < 2 ^ j := Nat.two_pow_pos j
    have hk : 0 < 2 ^ k := Nat.two_pow_pos k
    rw [← h1, ← h2]
    generalize 2 ^ j = J at *
    generalize 2 ^ k = K at *
    have e : (Int.negSucc a) / (J : Int) = -((a / J : Nat) : Int) - 1 := by
      rw [Int.negSucc_ediv _ (by omega)]
      have : (a : Int).ediv (J : Int) = ((a / J : Nat) : Int) := rfl
      omega
    rw [e]
    have hlt : a / J % K < K := Nat.mod_lt _ hk
    have hd := Nat.div_add_mod (a / J) K
    generalize a / J = q at *
    rw [show (-(q : Int) - 1) = ((K - 1 - q % K : Nat) : Int) + (K : Int) * (-((q / K : Nat) : Int) - 1) by
      rw [Int.mul_sub, Int.mul_neg, ← Int.natCast_mul]
      generalize q / K = d at *
      generalize q % K = m at *
      generalize K * d = kd at *
      omega]
    rw [Int.add_mul_emod_self_left, Int.emod_eq_of_lt (by omega) (by omega)]

end Verif

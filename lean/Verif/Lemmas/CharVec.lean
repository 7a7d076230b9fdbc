import Verif.Lemmas.CharData
/-! # Relations between the bits of a property vector -/
namespace Verif.Char
set_option maxRecDepth 100000

/-- `x` implies `y`. -/
def imp (x y : Bool) : Bool := cond x y true

def goodBits (_a b d : Nat) : Bool :=
  and (and (imp (bitAt b 22) (bitAt b 23)) (and (imp (bitAt b 22) (bitAt b 24)) (and (imp (bitAt b 23) (bitAt b 25))
    (imp (bitAt b 24) (bitAt b 25)))))
  (and (and (imp (bitAt b 7) (bitAt b 6)) (and (imp (bitAt b 18) (bitAt b 9)) (and (imp (bitAt b 30) (not (bitAt b 29)))
    (imp (bitAt b 26) (not (bitAt b 13))))))
  (and (imp (bitAt d 29) (bitAt d 28)) (and (imp (bitAt d 30) (bitAt d 28)) (and (imp (bitAt d 31) (bitAt d 28))
    (imp (bitAt d 30) (not (bitAt d 31)))))))

theorem bits_scan : vecCheck goodBits = true := by decide +kernel

theorem imp_elim {x y : Bool} (h : imp x y = true) (hx : x = true) : y = true := by subst hx; exact h

theorem bits (c : Nat) : goodBits (word c 0) (word c 1) (word c 2) = true := vec_forall bits_scan c

def nonAged (a b _d : Nat) : Bool := imp (bitAt b 12) (not (Nat.beq (Nat.shiftRight a 24) 0))

theorem nonchar_age : vecCheck nonAged = true := by decide +kernel

end Verif.Char

import Verif.Lemmas.RunTrie
import Verif.Model.Utilities
/-! # The functions of Utilities.py, executed from its text -/
namespace Verif.PyRun.Utilities
open Verif.PySyntax Verif.Library Verif.Data
set_option maxRecDepth 4000

theorem facts : utilities.find 0 (n% "isUnicodeNoncharacter") = fnOf (n% "Utilities") Syntax.Utilities.isUnicodeNoncharacter ∧
    utilities.find 0 (n% "isSurrogate") = fnOf (n% "Utilities") Syntax.Utilities.isSurrogate ∧
    utilities.find 0 (n% "isSurrogateLead") = fnOf (n% "Utilities") Syntax.Utilities.isSurrogateLead ∧
    utilities.find 0 (n% "isSurrogateTrail") = fnOf (n% "Utilities") Syntax.Utilities.isSurrogateTrail ∧
    utilities.find 0 (n% "isLead") = fnOf (n% "Utilities") Syntax.Utilities.isLead ∧
    utilities.find 0 (n% "isTrail") = fnOf (n% "Utilities") Syntax.Utilities.isTrail ∧
    utilities.find 0 (n% "charFromSurrogates") = fnOf (n% "Utilities") Syntax.Utilities.charFromSurrogates ∧
    utilities.find 0 (n% "surrogatesFromChar") = fnOf (n% "Utilities") Syntax.Utilities.surrogatesFromChar ∧
    utilities.find 0 (n% "arithmeticShift") = fnOf (n% "Utilities") Syntax.Utilities.arithmeticShift ∧
    utilities.find 0 (n% "highBit") = fnOf (n% "Utilities") Syntax.Utilities.highBit ∧
    utilities.find 0 (n% "_surrogateMask") = some (.val (.int Verif.Utilities.surrogateMask)) ∧
    utilities.find 0 (n% "_firstLead") = some (.val (.int Verif.Utilities.firstLead)) ∧
    utilities.find 0 (n% "_firstTrail") = some (.val (.int Verif.Utilities.firstTrail)) ∧
    utilities.find 0 (n% "_leadTrailMask") = some (.val (.int Verif.Utilities.leadTrailMask)) ∧
    utilities.find 0 (n% "_trailMask") = some (.val (.int Verif.Utilities.trailMask)) ∧
    utilities.find 0 (n% "_leadShift") = some (.val (.int (10 : Nat))) ∧
    utilities.find 0 (n% "_leadOffset") = some (.val (.int Verif.Utilities.leadOffset)) ∧
    utilities.find 0 (n% "_surrogateOffset") = some (.val (.int Verif.Utilities.surrogateOffset)) ∧
    utilities.find 0 (n% "None") = none := by decide +kernel

variable {w : World} (H : w.scope (n% "Utilities") = utilities)
include H

theorem found (x : Nat) : w.find (n% "Utilities") 0 x = utilities.find 0 x := by rw [World.find, H]

local notation "call[" n ", " f ", " a "]" => callName w (run w n) (n% "Utilities") f a

local macro "start" i:term : tactic => `(tactic| rw [fn_call ((found H _).trans $i) rfl])

theorem isUnicodeNoncharacter_run (c : Int) (n : Nat) : call[n + 1, n% "isUnicodeNoncharacter", .cons (.int c) .nil] =
    .ok (.bool (Verif.Utilities.isUnicodeNoncharacter c)) := by
  start facts.1
  py_run [Verif.Utilities.isUnicodeNoncharacter, intLt_eq, ← decide_not, Int.not_lt]
  rfl

theorem isSurrogate_run (c : Int) (n : Nat) : call[n + 1, n% "isSurrogate", .cons (.int c) .nil] = .ok (.bool (Verif.Utilities.isSurrogate c)) := by
  start facts.2.1
  py_run [Verif.Utilities.isSurrogate, found H, facts]

theorem isSurrogateLead_run (c : Int) (n : Nat) : call[n + 1, n% "isSurrogateLead", .cons (.int c) .nil] =
    .ok (.bool (Verif.Utilities.isSurrogateLead c)) := by
  start facts.2.2.1
  py_run [Verif.Utilities.isSurrogateLead]
  rfl

theorem isSurrogateTrail_run (c : Int) (n : Nat) : call[n + 1, n% "isSurrogateTrail", .cons (.int c) .nil] =
    .ok (.bool (Verif.Utilities.isSurrogateTrail c)) := by
  start facts.2.2.2.1
  py_run [Verif.Utilities.isSurrogateTrail]
  rfl

theorem isLead_run (c : Int) (n : Nat) : call[n + 1, n% "isLead", .cons (.int c) .nil] = .ok (.bool (Verif.Utilities.isLead c)) := by
  start facts.2.2.2.2.1
  py_run [Verif.Utilities.isLead, found H, facts]

theorem isTrail_run (c : Int) (n : Nat) : call[n + 1, n% "isTrail", .cons (.int c) .nil] = .ok (.bool (Verif.Utilities.isTrail c)) := by
  start facts.2.2.2.2.2.1
  py_run [Verif.Utilities.isTrail, found H, facts]

theorem charFromSurrogates_run (a b : Int) (n : Nat) : call[n + 1, n% "charFromSurrogates", .cons (.int a) (.cons (.int b) .nil)] =
    .ok (.int (Verif.Utilities.charFromSurrogates a b)) := by
  start facts.2.2.2.2.2.2.1
  py_run [Verif.Utilities.charFromSurrogates, Verif.Utilities.leadShift, found H, facts]

theorem surrogatesFromChar_run (c : Int) (n : Nat) : call[n + 1, n% "surrogatesFromChar", .cons (.int c) .nil] =
    .ok (.tuple (.cons (.int (Verif.Utilities.surrogatesFromChar c).1) (.cons (.int (Verif.Utilities.surrogatesFromChar c).2) .nil))) := by
  start facts.2.2.2.2.2.2.2.1
  py_run [Verif.Utilities.surrogatesFromChar, Verif.Utilities.leadShift, found H, facts]

omit H in
/-- Also from a module that imports it. -/
theorem arithmeticShift_run {m : Nat} (h : w.find m 0 (n% "arithmeticShift") = fnOf (n% "Utilities") Syntax.Utilities.arithmeticShift) (v : Int)
    (a b n : Nat) : callName w (run w (n + 1)) m (n% "arithmeticShift") (.cons (.int v) (.cons (.int a) (.cons (.int b) .nil))) =
      lift ((Verif.Utilities.arithmeticShift v a b).map .int) := by
  rw [fn_call h rfl]
  unfold Verif.Utilities.arithmeticShift
  by_cases ha : a = 0
  · rw [if_pos (.inl ha)]
    subst ha
    py_run [show ((0 : Nat) : Int) - (1 : Nat) < 0 from by decide]
  · by_cases hb : a < b
    · rw [if_pos (.inr hb)]
      have e : ((a : Int) - (1 : Nat)) = ((a - 1 : Nat) : Int) := by omega
      have e' : ((a : Int) - (b : Nat) < 0) = True := eq_true (by omega)
      py_run [e, e']
    · rw [if_neg (by omega)]
      have e : ((a : Int) - (1 : Nat)) = ((a - 1 : Nat) : Int) := by omega
      have e' : ((a : Int) - (b : Nat)) = ((a - b : Nat) : Int) := by omega
      have p (k : Nat) : ((1 <<< k : Nat) : Int) = 2 ^ k := by rw [Nat.shiftLeft_eq]; norm_cast; omega
      show _ = lift (Except.map Val.int (.ok (if pyAnd v (2 ^ (a - 1)) ≠ 0 then v / 2 ^ (a - b) - 2 ^ b else v / 2 ^ (a - b))))
      by_cases hv : pyAnd v (2 ^ (a - 1)) = 0
      · have d : decide (pyAnd v (2 ^ (a - 1)) = ((0 : Nat) : Int)) = true := decide_eq_true hv
        rw [if_neg (fun n => n hv)]
        py_run [e, e', p, d, Bool.not_true]
      · have d : decide (pyAnd v (2 ^ (a - 1)) = ((0 : Nat) : Int)) = false := decide_eq_false hv
        rw [if_pos hv]
        py_run [e, e', p, d, Bool.not_false]

/-- Utilities.py:80-82 and the like. -/
def half (k : Nat) : Stmt := .ifs (.bin .ge (.name (n% "value")) (.bin .shl (.num 1) (.num k)))
  (.seq (.aug .shr (.name (n% "value")) (.num k)) (.seq (.aug .add (.name (n% "bit")) (.num k)) .skip)) .skip

/-- Utilities.py:80-104. -/
def halves : Stmt := .seq (half 32) (.seq (half 16) (.seq (half 8) (.seq (half 4) (.seq (half 2) (.seq (half 1)
  (.seq (.ret (.name (n% "bit"))) .skip))))))

/-- The variables of `highBit`. -/
def bits (s : Int × Int) : Env := [(n% "value", .int s.1), (n% "bit", .int s.2)]

omit H in
theorem half_run (call : Call) (fuel m k : Nat) (s : Int × Int) : exec w call fuel m (half k) (bits s, []) =
    .ok (.next, (bits (Verif.Utilities.highBitStep k s), [])) := by
  unfold Verif.Utilities.highBitStep half bits
  have e : ((1 <<< k : Nat) : Int) = 2 ^ k := by rw [Nat.shiftLeft_eq]; norm_cast; omega
  by_cases h : s.1 ≥ 2 ^ k
  · have d : (!intLt s.1 ((1 <<< k : Nat) : Int)) = true := by rw [intLt_eq, e]; simpa using h
    rw [if_pos h]
    py_run [d]
  · have d : (!intLt s.1 ((1 <<< k : Nat) : Int)) = false := by rw [intLt_eq, e]; simpa using h
    rw [if_neg h]
    py_run [d]

omit H in
theorem seq_half (call : Call) (fuel m k : Nat) (s : Int × Int) (b : Stmt) : exec w call fuel m (.seq (half k) b) (bits s, []) =
    exec w call fuel m b (bits (Verif.Utilities.highBitStep k s), []) := by
  rw [exec, half_run]; rfl

omit H in
theorem halves_run (call : Call) (fuel m : Nat) (v b : Int) : (exec w call fuel m halves ([(n% "value", .int v), (n% "bit", .int b)], [])).map Prod.fst =
    .ok (.ret (.int (Verif.Utilities.highBitStep 1 (Verif.Utilities.highBitStep 2 (Verif.Utilities.highBitStep 4 (Verif.Utilities.highBitStep 8
      (Verif.Utilities.highBitStep 16 (Verif.Utilities.highBitStep 32 (v, b))))))).2)) := by
  rw [show [(n% "value", Val.int v), (n% "bit", .int b)] = bits (v, b) from rfl, halves, seq_half, seq_half, seq_half, seq_half, seq_half, seq_half]
  rfl

theorem highBit_run (v : Int) (n : Nat) : call[n + 1, n% "highBit", .cons (.int v) .nil] =
    .ok (match Verif.Utilities.highBit v with | some b => .int b | .none => .none) := by
  rw [fn_call (b := .seq (.expr (.str _)) (.seq (.assign (.name (n% "bit")) (.num 0)) (.seq (.ifs (.bin .eq (.name (n% "value")) (.num 0))
    (.seq (.ret (.name (n% "None"))) .skip) .skip) halves))) ((found H _).trans facts.2.2.2.2.2.2.2.2.2.1) rfl]
  unfold Verif.Utilities.highBit
  have y : yields halves = false := rfl
  by_cases h : v = 0
  · rw [if_pos h]
    have d : decide (v = ((0 : Nat) : Int)) = true := decide_eq_true h
    py_run [found H, facts, d, y]
  · rw [if_neg h]
    have d : decide (v = ((0 : Nat) : Int)) = false := decide_eq_false h
    have t := halves_run (w := w) (run w n) n (n% "Utilities") v (0 : Nat)
    cases t' : exec w (run w n) n (n% "Utilities") halves ([(n% "value", .int v), (n% "bit", .int (0 : Nat))], []) with
    | error e => rw [t'] at t; cases t
    | ok r =>
      rw [t'] at t
      cases r
      cases t
      py_run [found H, facts, d, t', y]
      rfl

end Verif.PyRun.Utilities

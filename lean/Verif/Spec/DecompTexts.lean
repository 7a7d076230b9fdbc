import Verif.Spec.CaseTexts
import Verif.Spec.Normalization
/-! # Specification: texts with decomposed characters -/
namespace Verif.Spec

/-- `f(c) or chr(c)`: the decomposition of `c`, or `c` itself if `f` returns `None`. -/
def orSelf (f : Nat → Py (Option Str)) (c : Nat) : Py Str :=
  match f c with
  | .ok (some d) => .ok d
  | .ok none => .ok [c]
  | .error e => .error e

/-- `s` becomes `t` when characters are replaced by their decomposition mappings, and mappings by their characters, in any number and order. -/
inductive Linked (raw : Nat → Option Str) : Str → Str → Prop
  | same (s : Str) : Linked raw s s
  | forth {c : Nat} {r t : Str} (a b : Str) : raw c = some r → Linked raw (a ++ r ++ b) t → Linked raw (a ++ [c] ++ b) t
  | back {c : Nat} {r t : Str} (a b : Str) : raw c = some r → Linked raw (a ++ [c] ++ b) t → Linked raw (a ++ r ++ b) t

end Verif.Spec

import Verif.Spec.Classes
/-! # The labels in extended names

An extended name is `<label-HEX>`. The label of a code point says its general category in words; noncharacters and the two kinds
of surrogates have labels of their own.
-/
namespace Verif.CharNames.Spec
open Verif.Spec Verif.Char.Spec

/-- The words for the general categories. -/
def categoryWords : List (String × String) := [
  ("Lu", "uppercase letter"), ("Ll", "lowercase letter"), ("Lt", "titlecase letter"), ("Lm", "modifier letter"), ("Lo", "other letter"),
  ("Mn", "non spacing mark"), ("Me", "enclosing mark"), ("Mc", "combining spacing mark"),
  ("Nd", "decimal digit number"), ("Nl", "letter number"), ("No", "other number"),
  ("Zs", "space separator"), ("Zl", "line separator"), ("Zp", "paragraph separator"),
  ("Cc", "control"), ("Cf", "format"), ("Co", "private use area"), ("Cs", "surrogate"), ("Cn", "unassigned"),
  ("Pd", "dash punctuation"), ("Ps", "start punctuation"), ("Pe", "end punctuation"), ("Pc", "connector punctuation"),
  ("Po", "other punctuation"), ("Pi", "initial punctuation"), ("Pf", "final punctuation"),
  ("Sm", "math symbol"), ("Sc", "currency symbol"), ("Sk", "modifier symbol"), ("So", "other symbol")]

/-- `label` is the label of `c` in Unicode 13.0. -/
def HasLabel (c : Nat) (label : String) : Prop :=
  if (0xFDD0 ≤ c ∧ c ≤ 0xFDEF) ∨ c % 0x10000 = 0xFFFE ∨ c % 0x10000 = 0xFFFF then label = "noncharacter"
  else if 0xD800 ≤ c ∧ c ≤ 0xDBFF then label = "lead surrogate"
  else if 0xDC00 ≤ c ∧ c ≤ 0xDFFF then label = "trail surrogate"
  else ∃ category, HasCategory c [category] ∧ categoryWords.lookup category = some label

end Verif.CharNames.Spec

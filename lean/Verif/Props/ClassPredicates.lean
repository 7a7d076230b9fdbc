import Verif.Props.Char
import Verif.Props.CategoryMap
import Verif.Spec.Classes
/-! # The character classes select the code points that have the stated categories in the standard (C124) -/
namespace Verif.Char.Props
open Verif Verif.Spec Verif.Char.Spec Verif.Data Verif.Char

theorem legend_lookup : ∀ g < 30, generalCategoryNames.lookup g = categoryLegend.lookup g := by decide +kernel

theorem inCategory_hasCategory {c : Nat} (hc : c ≤ 0x10FFFF) (l : List String) : InCategory c l ↔ HasCategory c l := by
  have h := category_map.1 c hc
  have hg : valueIn 0 categoryRuns c < 30 := by
    have h2 := getGeneralCategory_eq c
    rw [h] at h2
    rw [Except.ok.inj h2]
    exact gcOf_lt c
  unfold InCategory HasCategory
  rw [h]
  constructor
  · rintro ⟨v, name, hv, hn, hm⟩
    have hv := Except.ok.inj hv
    subst hv
    exact ⟨name, hm, legend_lookup _ hg ▸ hn⟩
  · rintro ⟨name, hm, hn⟩
    exact ⟨_, name, rfl, (legend_lookup _ hg).trans hn, hm⟩

/-- C124. For every code point, each of these functions returns, and it returns `True` exactly if the category of the code point in
Unicode 13.0 is one of those listed (or not one of those), or the code point is one of those listed. -/
theorem class_predicates (c : Nat) (hc : c ≤ 0x10FFFF) :
    Decides (isLower c) (HasCategory c ["Ll"]) ∧
    Decides (isUpper c) (HasCategory c ["Lu"]) ∧
    Decides (isTitle c) (HasCategory c ["Lt"]) ∧
    Decides (isDigit c) (HasCategory c ["Nd"]) ∧
    Decides (isalpha c) (HasCategory c ["Lu", "Ll", "Lt", "Lm", "Lo"]) ∧
    Decides (isalnum c) (HasCategory c ["Lu", "Ll", "Lt", "Lm", "Lo", "Nd"]) ∧
    Decides (isDefined c) (¬HasCategory c ["Cn"]) ∧
    Decides (isbase c) (HasCategory c ["Lu", "Ll", "Lt", "Lm", "Lo", "Nd", "Nl", "No", "Mc", "Me"]) ∧
    Decides (iscntrl c) (HasCategory c ["Cc", "Cf", "Zl", "Zp"]) ∧
    Decides (isPrint c) (¬HasCategory c ["Cc", "Cf", "Cn", "Co", "Cs"]) ∧
    Decides (isgraph c) (¬HasCategory c ["Cc", "Cf", "Cs", "Cn", "Zs", "Zl", "Zp"]) ∧
    Decides (isGraphPOSIX c) (¬HasCategory c ["Cc", "Cs", "Cn", "Zs", "Zl", "Zp"]) ∧
    Decides (isPrintPOSIX c) (¬HasCategory c ["Cc", "Cs", "Cn", "Zl", "Zp"]) ∧
    Decides (ispunct c) (HasCategory c ["Pc", "Pd", "Ps", "Pe", "Pi", "Pf", "Po"]) ∧
    Decides (isJavaSpaceChar c) (HasCategory c ["Zs", "Zl", "Zp"]) ∧
    Decides (isspace c) (HasCategory c ["Zs", "Zl", "Zp"] ∨ c ∈ [0x9, 0xA, 0xB, 0xC, 0xD, 0x1C, 0x1D, 0x1E, 0x1F, 0x85]) ∧
    Decides (isWhiteSpace c) ((HasCategory c ["Zs", "Zl", "Zp"] ∧ c ∉ [0xA0, 0x2007, 0x202F]) ∨
      c ∈ [0x9, 0xA, 0xB, 0xC, 0xD, 0x1C, 0x1D, 0x1E, 0x1F]) ∧
    Decides (isIDStart c) (HasCategory c ["Lu", "Ll", "Lt", "Lm", "Lo", "Nl"]) ∧
    Decides (isJavaIDStart c) (HasCategory c ["Lu", "Ll", "Lt", "Lm", "Lo", "Sc", "Pc"]) ∧
    Decides (isIDPart c) (HasCategory c ["Lu", "Ll", "Lt", "Lm", "Lo", "Nd", "Nl", "Pc", "Mc", "Mn", "Cf"]) ∧
    Decides (isJavaIDPart c) (HasCategory c ["Lu", "Ll", "Lt", "Lm", "Lo", "Nd", "Nl", "Sc", "Pc", "Mc", "Mn", "Cf"]) ∧
    Decides (isBlank c) (c = 9 ∨ HasCategory c ["Zs"]) ∧
    Decides (isHexDigit c) (HasCategory c ["Nd"] ∨ (0x41 ≤ c ∧ c ≤ 0x46) ∨ (0x61 ≤ c ∧ c ≤ 0x66) ∨
      (0xFF21 ≤ c ∧ c ≤ 0xFF26) ∨ (0xFF41 ≤ c ∧ c ≤ 0xFF46)) ∧
    (isISOControl c = true ↔ HasCategory c ["Cc"]) := by
  simp only [← inCategory_hasCategory hc]
  exact ⟨isLower_iff c, isUpper_iff c, isTitle_iff c, isDigit_iff c, isalpha_iff c, isalnum_iff c, isDefined_iff c, isbase_iff c,
    iscntrl_iff c, isPrint_iff c, isgraph_iff c, isGraphPOSIX_iff c, isPrintPOSIX_iff c, ispunct_iff c, isJavaSpaceChar_iff c, isspace_iff c,
    isWhiteSpace_iff c, isIDStart_iff c, isJavaIDStart_iff c, isIDPart_iff c, isJavaIDPart_iff c, isBlank_iff c, isHexDigit_iff c,
    isISOControl_iff c hc⟩

/-- C124. Every code point has exactly one category in the standard. -/
theorem category_exists (c : Nat) (hc : c ≤ 0x10FFFF) : ∃ name, ∀ l, HasCategory c l ↔ name ∈ l := by
  obtain ⟨v, name, hv, hn⟩ := generalCategory_named c
  refine ⟨name, fun l => ?_⟩
  rw [← inCategory_hasCategory hc]
  constructor
  · rintro ⟨v', n', hv', hn', hm⟩
    rw [hv] at hv'
    rw [← Except.ok.inj hv', hn] at hn'
    exact Option.some.inj hn' ▸ hm
  · exact fun hm => ⟨v, name, hv, hn, hm⟩

example : HasCategory 0x1C5 ["Lt"] ∧ isTitle 0x1C5 = .ok true ∧ HasCategory 0xE000 ["Co"] ∧ isPrint 0xE000 = .ok false :=
  ⟨⟨"Lt", by decide +kernel⟩, by decide +kernel, ⟨"Co", by decide +kernel⟩, by decide +kernel⟩

end Verif.Char.Props

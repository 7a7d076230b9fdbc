import Verif.Lemmas.NfcData
/-!
# Properties of `Normalizer2` (C44-C47, C72)

`hangulSyllable`, `hangulJamos`, `Expands`, `utf16` are defined in `Spec/Normalization.lean`.
-/
namespace Verif.Normalizer2.Props
open Verif.Spec
set_option maxRecDepth 100000

/-! ## C44, C45: Hangul -/

/-- C44. The decomposition of the syllable with lead `l`, vowel `v` and trail `t` is its jamos, as in the Unicode standard. -/
theorem hangul_standard {l v t : Nat} (hl : l < 19) (hv : v < 21) (ht : t < 28) :
    hangulDecomposition (hangulSyllable l v t) = .ok (hangulJamos l v t) := hangul_full hl hv ht

/-- C44. Every code point from U+AC00 to U+D7A3 is such a syllable, of exactly one triple of jamos. -/
theorem hangul_syllables {c : Nat} : (0xAC00 ≤ c ∧ c ≤ 0xD7A3) ↔
    ∃ l v t, (l < 19 ∧ v < 21 ∧ t < 28 ∧ c = hangulSyllable l v t) ∧
      ∀ l' v' t', l' < 19 → v' < 21 → t' < 28 → c = hangulSyllable l' v' t' → l' = l ∧ v' = v ∧ t' = t := by
  constructor
  · intro ⟨h1, h2⟩
    obtain ⟨l, v, t, hl, hv, ht, rfl⟩ := hangul_split h1 h2
    refine ⟨l, v, t, ⟨hl, hv, ht, rfl⟩, fun l' v' t' hl' hv' ht' h => ?_⟩
    unfold hangulSyllable at h
    omega
  · rintro ⟨l, v, t, ⟨hl, hv, ht, rfl⟩, _⟩
    unfold hangulSyllable
    omega

/-- C44. Different syllables have different decompositions. -/
theorem hangul_injective {c c' : Nat} (h : 0xAC00 ≤ c ∧ c ≤ 0xD7A3) (h' : 0xAC00 ≤ c' ∧ c' ≤ 0xD7A3)
    (he : hangulDecomposition c = hangulDecomposition c') : c = c' := by
  obtain ⟨l, v, t, hl, hv, ht, rfl⟩ := hangul_split h.1 h.2
  obtain ⟨l', v', t', hl', hv', ht', rfl⟩ := hangul_split h'.1 h'.2
  rw [hangul_full hl hv ht, hangul_full hl' hv' ht'] at he
  have he := Except.ok.inj he
  unfold hangulJamos at he
  by_cases h1 : t = 0
  · by_cases h2 : t' = 0
    · rw [if_pos h1, if_pos h2] at he
      simp only [List.cons.injEq, and_true] at he
      have : l = l' ∧ v = v' ∧ t = t' := by omega
      rw [this.1, this.2.1, this.2.2]
    · rw [if_pos h1, if_neg h2] at he; simp at he
  · by_cases h2 : t' = 0
    · rw [if_neg h1, if_pos h2] at he; simp at he
    · rw [if_neg h1, if_neg h2] at he
      simp only [List.cons.injEq, and_true] at he
      have : l = l' ∧ v = v' ∧ t = t' := by omega
      rw [this.1, this.2.1, this.2.2]

example : hangulDecomposition 0xD55C = .ok [0x1112, 0x1161, 0x11AB] ∧ hangulDecomposition 0xD7A3 = .ok [0x1112, 0x1175, 0x11C2] ∧
    hangulDecomposition 0xAC00 = .ok [0x1100, 0x1161] := by decide

/-- C45. The raw decomposition of a syllable is a pair; either it is the full decomposition, or expanding its first character
gives the full decomposition. -/
theorem hangul_raw_full {c : Nat} (h : 0xAC00 ≤ c ∧ c ≤ 0xD7A3) : ∃ x y d, rawHangulDecomposition c = .ok [x, y] ∧
    hangulDecomposition c = .ok d ∧
    (d = [x, y] ∨ ((0xAC00 ≤ x ∧ x < c) ∧ ∃ d', hangulDecomposition x = .ok d' ∧ d'.length = 2 ∧ d = d' ++ [y])) := by
  obtain ⟨l, v, t, hl, hv, ht, rfl⟩ := hangul_split h.1 h.2
  rw [hangul_raw hl hv ht, hangul_full hl hv ht]
  by_cases ht0 : t = 0
  · subst ht0
    exact ⟨_, _, _, rfl, rfl, .inl rfl⟩
  · rw [if_neg ht0]
    refine ⟨_, _, _, rfl, rfl, .inr ⟨by unfold hangulSyllable; omega, hangulJamos l v 0, hangul_full hl hv (by omega), rfl, ?_⟩⟩
    unfold hangulJamos
    rw [if_neg ht0, if_pos rfl]
    rfl

example : rawHangulDecomposition 0xD55C = .ok [0xD558, 0x11AB] ∧ rawHangulDecomposition 0xD558 = .ok [0x1112, 0x1161] := by decide

/-! ## C46: the shipped NFC data -/

/-- C46. Creating the shipped normalizer succeeds, and neither decomposition ever raises on a code point. -/
theorem nfc_total : createFromHardCodedData = .ok nfc ∧ ∀ c ≤ 0x10FFFF, (∃ d, nfc.getDecomposition c = .ok d) ∧
    (∃ r, nfc.getRawDecomposition c = .ok r) := by
  refine ⟨nfc_created, fun c hc => ?_⟩
  rcases good hc with ⟨h1, h2⟩ | ⟨d, r, h1, h2, _⟩
  · exact ⟨⟨_, h1⟩, ⟨_, h2⟩⟩
  · exact ⟨⟨_, h1⟩, ⟨_, h2⟩⟩

/-- C46. A full decomposition is not empty and consists of code points that do not decompose any further, by either
function. -/
theorem nfc_decomposition_final {c : Nat} {d : Str} (hc : c ≤ 0x10FFFF) (h : nfc.getDecomposition c = .ok (some d)) :
    d ≠ [] ∧ ∀ x ∈ d, x ≤ 0x10FFFF ∧ nfc.getDecomposition x = .ok none ∧ nfc.getRawDecomposition x = .ok none := by
  rcases good hc with ⟨h1, _⟩ | ⟨d', r, h1, _, h3, _, h4, _⟩
  · rw [h] at h1; simp at h1
  · rw [h] at h1
    simp only [Except.ok.injEq, Option.some.injEq] at h1
    subst h1
    refine ⟨h3, fun x hx => ⟨(h4 x hx).1, (h4 x hx).2, ?_⟩⟩
    rcases good (h4 x hx).1 with ⟨_, h5⟩ | ⟨d', _, h5, _⟩
    · exact h5
    · rw [(h4 x hx).2] at h5; simp at h5

/-- C46. A code point has a full decomposition exactly if it has a raw one, and the full decomposition is the only result of
expanding the raw one exhaustively; without a raw decomposition the code point stands for itself. -/
theorem nfc_expansion {c : Nat} (hc : c ≤ 0x10FFFF) (d : Str) :
    (Expands nfcRaw [c] d ↔ nfc.getDecomposition c = .ok (some d) ∨ (nfc.getDecomposition c = .ok none ∧ d = [c])) ∧
    (nfc.getDecomposition c = .ok none ↔ nfc.getRawDecomposition c = .ok none) := by
  rcases good hc with ⟨h1, h2⟩ | ⟨d', r, h1, h2, h3, h4, h5, h6⟩
  · refine ⟨⟨fun h => .inr ⟨h1, ?_⟩, fun h => ?_⟩, by simp [h1, h2]⟩
    · exact expands_unique h (.keep (nfcRaw_of h2) .nil)
    · rcases h with h | ⟨_, rfl⟩
      · rw [h1] at h; simp at h
      · exact .keep (nfcRaw_of h2) .nil
  · have he : Expands nfcRaw [c] d' := .replace (nfcRaw_of h2) (by rw [List.append_nil]; exact h6)
    refine ⟨⟨fun h => .inl ?_, fun h => ?_⟩, by simp [h1, h2]⟩
    · rw [h1, expands_unique h he]
    · rcases h with h | ⟨h, _⟩
      · rw [h1] at h
        simp only [Except.ok.injEq, Option.some.injEq] at h
        subst h
        exact he
      · rw [h1] at h; simp at h

/-- `nfcRaw` in `nfc_expansion` is what `getRawDecomposition` returns. -/
theorem nfcRaw_eq {c : Nat} (hc : c ≤ 0x10FFFF) : nfc.getRawDecomposition c = .ok (nfcRaw c) := by
  obtain ⟨_, r, hr⟩ := nfc_total.2 c hc
  rw [hr, nfcRaw_of hr]

/-- A code point with a three-step expansion: U+1FA7 → U+1F67 U+0345 → U+1F61 U+0342 U+0345 → U+03C9 U+0314 U+0342 U+0345. -/
example : nfc.getDecomposition 0x1FA7 = .ok (some [0x3C9, 0x314, 0x342, 0x345]) ∧ nfcRaw 0x1FA7 = some [0x1F67, 0x345] ∧
    nfcRaw 0x1F67 = some [0x1F61, 0x342] ∧ nfcRaw 0x1F61 = some [0x3C9, 0x314] := by decide +kernel
example : nfc.getDecomposition 0x41 = .ok none ∧ nfc.getDecomposition 0x1D15E = .ok (some [0x1D157, 0x1D165]) := by decide +kernel

/-- C72. With the shipped data every Hangul syllable decomposes into its standard jamos. -/
theorem nfc_hangul {l v t : Nat} (hl : l < 19) (hv : v < 21) (ht : t < 28) :
    nfc.getDecomposition (hangulSyllable l v t) = .ok (some (hangulJamos l v t)) ∧
    nfc.getRawDecomposition (hangulSyllable l v t) =
      .ok (some (if t = 0 then hangulJamos l v 0 else [hangulSyllable l v 0, 0x11A7 + t])) :=
  ⟨(nfc_hangul_raw hl hv ht).2, (nfc_hangul_raw hl hv ht).1⟩

example : nfc.getDecomposition 0xD55C = .ok (some [0x1112, 0x1161, 0x11AB]) :=
  (nfc_hangul (l := 18) (v := 0) (t := 4) (by omega) (by omega) (by omega)).1

/-! ## C47: UTF-16 -/

/-- C47. If the extra data holds the UTF-16 encoding of `s` from position `i` on, `stringFromData` returns `s`. -/
theorem stringFromData_utf16 (n : Normalizer2) {s : Str} {i : Nat} (hs : ∀ c ∈ s, Scalar c)
    (hd : ∀ k, (h : k < (utf16 s).length) → n.extraData.get (i + k) = .ok ((utf16 s)[k])) :
    n.stringFromData i (utf16 s).length = .ok s := by
  unfold stringFromData
  rw [show ((utf16 s).length : Int).toNat = (utf16 s).length from rfl]
  exact stringLoop_utf16 _ s i hs hd

example : ({ nfc with extraData := Arr.ofList [9, 0x41, 0xD834, 0xDD5E, 0xFFFF, 9] } : Normalizer2).stringFromData 1 4 =
    .ok [0x41, 0x1D15E, 0xFFFF] :=
  stringFromData_utf16 _ (s := [0x41, 0x1D15E, 0xFFFF]) (i := 1) (by unfold Scalar; decide) (by
    have : utf16 [0x41, 0x1D15E, 0xFFFF] = [0x41, 0xD834, 0xDD5E, 0xFFFF] := by decide
    rw [this]; decide)

/-- A lead surrogate at the end is dropped without an error: the decoder returns the string before it. -/
theorem stringFromData_lone_lead (n : Normalizer2) {s : Str} {i lead : Nat} (hs : ∀ c ∈ s, Scalar c)
    (hl : 0xD800 ≤ lead ∧ lead ≤ 0xDBFF)
    (hd : ∀ k, (h : k < (utf16 s ++ [lead]).length) → n.extraData.get (i + k) = .ok ((utf16 s ++ [lead])[k])) :
    n.stringFromData i (utf16 s ++ [lead]).length = .ok s := by
  unfold stringFromData
  rw [show ((utf16 s ++ [lead]).length : Int).toNat = (utf16 s ++ [lead]).length from rfl]
  exact stringLoop_lone _ s i hs hl hd

end Verif.Normalizer2.Props

import Verif.Lemmas.NfcTrie
import Verif.Lemmas.CPTrieEnum
import Verif.Lemmas.CPTrieStuck
/-! # Enumerating the shipped NFC trie -/
namespace Verif
open Verif.Data Verif.CPTrie Verif.CPTrie.Spec
set_option maxRecDepth 100000

theorem nfc_null_data : ∀ j < 64, nfcTrie.data.get (nfcTrie.dataNullOffset + j) = .ok 1 := by decide +kernel
theorem nfc_null_index3 : ∀ k < 32, nfcTrie.index.get (nfcTrie.index3NullOffset + k) = .ok nfcTrie.dataNullOffset := by decide +kernel
theorem nfc_repeats : ∀ b < 63, nfcTrie.index.get b = nfcTrie.index.get (b + 1) → nfcTrie.index.get b = .ok nfcTrie.dataNullOffset := by
  decide +kernel
theorem nfc_null_i3 : nfcTrie.index3NullOffset < 0x8000 := by decide +kernel
theorem nfc_type : nfcTrie.trieType = 0 := rfl

theorem nfc_nulls {f : Nat → Nat} {err : Nat} (h : Represents nfcTrie f err) : NullsOk nfcTrie f 1 where
  value := nfc_null_data 0 (by omega)
  fast := by
    intro b hb hi j hj
    obtain ⟨p, h1, h2⟩ := h.fast b hb
    rw [hi] at h1
    simp only [Except.ok.injEq] at h1
    subst h1
    have := h2 j hj
    rw [nfc_null_data j hj] at this
    simpa using this.symm
  multi := by
    intro g i2 h1 h2 h3 h4 j hj
    obtain ⟨i2', e, pos, g1, g2, g3, g4⟩ := h.multi g h1 h2
    rw [h3] at g1
    simp only [Except.ok.injEq] at g1
    subst g1
    rw [h4] at g2
    simp only [Except.ok.injEq] at g2
    subst g2
    rcases g3 with ⟨_, g3⟩ | ⟨g3, _⟩
    · have h5 := g3 (j / 16) (by omega)
      rw [nfc_null_index3 (j / 16) (by omega)] at h5
      simp only [Except.ok.injEq] at h5
      have h6 := g4 (j / 16) (by omega) (j % 16) (by omega)
      rw [← h5, nfc_null_data (j % 16) (by omega)] at h6
      simp only [Except.ok.injEq] at h6
      rw [h6]
      congr 1
      omega
    · have := nfc_null_i3; omega

theorem nfc_uniform {f : Nat → Nat} {err : Nat} (h : Represents nfcTrie f err) : ∀ b p, b < 63 → nfcTrie.index.get b = .ok p →
    nfcTrie.index.get (b + 1) = .ok p → ∀ j < 64, f (64 * b + j) = f (64 * b) := by
  intro b p hb h1 h2 j hj
  have h3 := nfc_repeats b hb (by rw [h1, h2])
  have h4 := (nfc_nulls h).fast b (by rw [show fastLimit nfcTrie = 0x10000 from if_pos nfc_type]; omega) h3
  rw [h4 j hj]
  exact (h4 0 (by omega)).symm

namespace CPTrie

/-- In a fast trie a pass from a code point between 0x1000 and 0xFFFF changes nothing. -/
theorem pass_stays {t : CPTrie} (hty : t.trieType = 0) {start limit nv : Nat} {s : EState} (h1 : 0x1000 ≤ s.c) (h2 : s.c ≤ 0xFFFF) :
    enumPass t start limit nv s = .ok s := by
  unfold enumPass
  rw [if_pos ⟨h2, .inl hty⟩]
  have : FAST_DATA_BLOCK_LENGTH - s.c / 2 ^ FAST_SHIFT = 0 := by
    rw [show FAST_DATA_BLOCK_LENGTH = 64 by rfl, show (2 : Nat) ^ FAST_SHIFT = 64 by rfl]; omega
  dsimp only
  rw [this]
  rfl

theorem loop_stays {t : CPTrie} (hty : t.trieType = 0) {start limit nv : Nat} {s : EState} (h1 : 0x1000 ≤ s.c) (h2 : s.c ≤ 0xFFFF)
    (h3 : s.c < limit) (h4 : s.c < t.highStart) : ∀ fuel, enumLoop t start limit nv fuel s = .error .diverges := by
  intro fuel
  induction fuel with
  | zero => simp only [enumLoop]; rw [if_pos ⟨h3, h4⟩]
  | succ fuel ih => rw [enumLoop_succ, if_pos ⟨h3, h4⟩, pass_stays hty h1 h2]; exact ih

/-- A fast trie that stores a map, has a null block and repeats only uniform blocks: enumerating past 0x1000 never ends. -/
theorem fast_diverges {t : CPTrie} {f : Nat → Nat} {err start limit nv : Nat} (h : Represents t f err) (hn : NullsOk t f nv)
    (hu : ∀ b p, b < 63 → t.index.get b = .ok p → t.index.get (b + 1) = .ok p → ∀ j < 64, f (64 * b + j) = f (64 * b))
    (hty : t.trieType = 0) (h1 : start ≤ 0xFFFF) (h2 : start < limit ∧ 0x1000 < limit)
    (h3 : start < t.highStart ∧ 0x1000 < t.highStart) (fuel : Nat) : t.enumeratorFuel start limit fuel = .error .diverges := by
  unfold enumeratorFuel
  rw [if_neg (by omega), hn.value]
  have hloop : enumLoop t start limit nv fuel ⟨[], none, none, start, nv, start⟩ = .error .diverges := by
    by_cases hc : start < 0x1000
    · have hinit : Inv f start limit ⟨[], none, none, start, nv, start⟩ :=
        ⟨rfl, trivial, fun r hr => by simp at hr, Nat.le_refl _, .inr rfl, by show start ≤ limit; omega,
          fun r hr => by simp at hr, fun c a1 a2 _ => by simp only at a1 a2; omega⟩
      obtain ⟨s1, g1, g2, g3, g4⟩ := fast_pass (s := ⟨[], none, none, start, nv, start⟩) h hn hu hinit hc h2.1 rfl
      have hs1 : s1.c = 0x1000 := by
        have := (fast_pass_bound (s := ⟨[], none, none, start, nv, start⟩) ⟨by simp only; omega, .inl hty⟩ g1).2.2.1 hc
        omega
      cases fuel with
      | zero => simp only [enumLoop]; rw [if_pos ⟨h2.1, h3.1⟩]
      | succ fuel =>
        rw [enumLoop_succ, if_pos ⟨h2.1, h3.1⟩, g1]
        exact loop_stays hty (by omega) (by omega) (by omega) (by omega) fuel
    · exact loop_stays hty (by simp only; omega) h1 h2.1 h3.1 fuel
  show ((enumLoop t start limit nv fuel ⟨[], none, none, start, nv, start⟩) >>= fun s => enumFinish t limit s) = _
  rw [hloop]
  rfl

end CPTrie
end Verif

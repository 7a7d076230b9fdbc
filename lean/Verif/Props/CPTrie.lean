import Verif.Lemmas.NfcEnum
import Verif.Lemmas.CPTrieBytes
/-!
# Properties of `CPTrie` (C28-C30)

`Represents t f err` says that the arrays of `t` store the map `f` in the UCPTrie format, see `Spec/CPTrie.lean`.
-/
namespace Verif.CPTrie.Props
open Verif.Data Verif.CPTrie.Spec
open Verif.Spec (TrieImage Tiles NeighboursDiffer)
open UTrie2 (Run)
set_option maxRecDepth 100000

theorem stop_le {α : Type} {r : Run α} : ∀ {out : List (Run α)} {lo hi : Nat}, Tiles out lo hi → lo ≤ hi ∧ (r ∈ out → r.stop ≤ hi) := by
  intro out
  induction out with
  | nil => intro lo hi h; exact ⟨Nat.le_of_eq h, fun h => by simp at h⟩
  | cons x xs ih =>
    intro lo hi ⟨h1, h2, h3⟩
    have := ih h3
    refine ⟨by omega, fun hr => ?_⟩
    rcases List.mem_cons.1 hr with rfl | hr
    · exact this.1
    · exact this.2 hr

/-! ## C28: lookup -/

/-- C28. In a trie of either type that stores `f`, `get` returns `f c` for every code point, and the error value beyond. -/
theorem get_correct {t : CPTrie} {f : Nat → Nat} {err : Nat} (h : Represents t f err) :
    (∀ c, c ≤ 0x10FFFF → t.get c = .ok (f c)) ∧ (∀ c, 0x10FFFF < c → t.get c = .ok err) :=
  ⟨represents_get h, represents_get_error h⟩

/-- C28, round trip: for every map that is constant from 0x20000 on there is a small trie with 18-bit entries that stores
it, so that `get` is the map. -/
theorem get_build {f : Nat → Nat} (err : Nat) (hf : ∀ c, 0x20000 ≤ c → f c = f 0x20000) :
    Represents (build f err) f err ∧ ∀ c, c ≤ 0x10FFFF → (build f err).get c = .ok (f c) :=
  ⟨build_represents err hf, (get_correct (build_represents err hf)).1⟩

/-- The shipped NFC trie, a fast trie, is well formed: it stores exactly one map on the code points and `get` never raises. -/
theorem nfc_represents : ∃ f err, Represents nfcTrie f err ∧
    ∀ f' err', Represents nfcTrie f' err' → err' = err ∧ ∀ c ≤ 0x10FFFF, f' c = f c := by
  refine ⟨_, _, nfc_ok.represents, fun f' err' h => ⟨?_, fun c hc => ?_⟩⟩
  · have h1 := represents_get_error h 0x110000 (by omega)
    rw [represents_get_error nfc_ok.represents 0x110000 (by omega)] at h1
    exact (Except.ok.inj h1).symm
  · have h1 := represents_get h c hc
    rw [represents_get nfc_ok.represents c hc] at h1
    exact (Except.ok.inj h1).symm

example : Represents (build (fun c => if c < 0x20000 then c else 7) 9) (fun c => if c < 0x20000 then c else 7) 9 ∧
    (build (fun c => if c < 0x20000 then c else 7) 9).get 0x1F600 = .ok 0x1F600 := by
  have h := get_build (f := fun c => if c < 0x20000 then c else 7) 9 (fun c hc => by
    rw [if_neg (by omega), if_neg (by omega)])
  exact ⟨h.1, h.2 0x1F600 (by omega)⟩
example : nfcTrie.get 0xC5 = .ok 0xb04 ∧ nfcTrie.get 0x1D15E = .ok 0x325a := by decide +kernel

/-! ## C29: the enumerator -/

/-- C29 in part. `NullsOk`: the null blocks hold the null value. Provided that neighbouring equal index entries stand for
blocks of one value, and that the window ends at or below 0x1000, or the trie is small with nothing but null groups from
0x1000 to the end of the window: the enumerator terminates, its ranges are contiguous from `start` to `limit`, neighbours
differ, and every range has the value of `get` throughout. Missing: all other windows, where the property is false (see
below). -/
theorem enumerator_agrees_partial {t : CPTrie} {f : Nat → Nat} {err start limit nv : Nat} (h : Represents t f err)
    (hn : NullsOk t f nv)
    (hu : ∀ b p, b < 63 → t.index.get b = .ok p → t.index.get (b + 1) = .ok p → ∀ j < 64, f (64 * b + j) = f (64 * b))
    (h1 : start < limit) (h2 : start < t.highStart) (h0 : limit ≤ 0x110000)
    (hw : limit ≤ 0x1000 ∨ (t.trieType = 1 ∧ limit ≤ t.highStart ∧ ∀ g, 0x1000 ≤ 512 * g → 512 * g < limit →
      ∃ i2, t.index.get (index1Pos t g) = .ok i2 ∧ t.index.get (i2 + g % 32) = .ok t.index3NullOffset)) :
    ∃ out, t.enumerator start limit = .ok out ∧ Tiles out start limit ∧ NeighboursDiffer out ∧
      ∀ r ∈ out, ∀ c, r.start ≤ c → c < r.stop → t.get c = .ok r.value := by
  obtain ⟨out, a1, a2, a3, a4⟩ := enumerator_spec h hn hu h1 h2 h0 hw
  refine ⟨out, a1, a2, a3, fun r hr c hc1 hc2 => ?_⟩
  have hstop : r.stop ≤ limit := (stop_le a2).2 hr
  rw [represents_get h c (by omega), a4 r hr c hc1 hc2]

/-- C29 on the shipped NFC trie, below 0x1000. -/
theorem nfc_enumerator_partial {start limit : Nat} (h1 : start < limit) (h2 : limit ≤ 0x1000) :
    ∃ out, nfcTrie.enumerator start limit = .ok out ∧ Tiles out start limit ∧ NeighboursDiffer out ∧
      ∀ r ∈ out, ∀ c, r.start ≤ c → c < r.stop → nfcTrie.get c = .ok r.value :=
  enumerator_agrees_partial nfc_ok.represents (nfc_nulls nfc_ok.represents) (nfc_uniform nfc_ok.represents) h1
    (by have := nfc_ok.hsLo; omega) (by omega) (.inl h2)

/-- C29 is violated: on the shipped NFC trie no window that reaches beyond 0x1000 is ever finished. -/
theorem enumerator_terminates_refuted {start limit : Nat} (h1 : start ≤ 0xFFFF) (h2 : start < limit) (h3 : 0x1000 < limit) (fuel : Nat) :
    nfcTrie.enumeratorFuel start limit fuel = .error .diverges :=
  fast_diverges nfc_ok.represents (nfc_nulls nfc_ok.represents) (nfc_uniform nfc_ok.represents) nfc_type h1 ⟨h2, h3⟩
    (by have := nfc_ok.hsLo; omega) fuel

/-- Nor does it ever end normally on any other fast trie with a `highStart` above 0x1000. -/
theorem fast_enumerator_refuted {t : CPTrie} (hty : t.trieType = 0) {start limit : Nat} (h1 : start ≤ 0xFFFF)
    (h2 : 0x1000 < limit ∧ start < limit) (h3 : 0x1000 < t.highStart ∧ start < t.highStart) (fuel : Nat) (out : List (Run Nat)) :
    t.enumeratorFuel start limit fuel ≠ .ok out := by
  intro h
  unfold enumeratorFuel at h
  rw [if_neg (by omega)] at h
  obtain ⟨nv, _, h⟩ := bind_ok h
  obtain ⟨s, hs, _⟩ := bind_ok h
  exact fast_stuck hty h1 h2 h3 fuel ⟨[], none, none, start, nv, start⟩ (by dsimp only; omega) s hs

/-- On a small trie it never ends normally when it starts in a group above 0x1000 that is not a null group and has to go past
the middle of the group. -/
theorem small_enumerator_refuted {t : CPTrie} (hty : t.trieType = 1) {start limit e : Nat} (h1 : 0x1000 ≤ start)
    (he : t.i3BlockOf start = .ok e) (hne : e ≠ t.index3NullOffset)
    (h2 : max start (start / 512 * 512 + 256) < limit) (h3 : max start (start / 512 * 512 + 256) < t.highStart)
    (h4 : start < 0x110000) (fuel : Nat) (out : List (Run Nat)) : t.enumeratorFuel start limit fuel ≠ .ok out := by
  intro h
  unfold enumeratorFuel at h
  rw [if_neg (by omega)] at h
  obtain ⟨nv, _, h⟩ := bind_ok h
  obtain ⟨s, hs, _⟩ := bind_ok h
  exact small_stuck hty h1 he hne h2 h3 fuel ⟨[], none, none, start, nv, start⟩ (Nat.le_refl _) (by dsimp only; omega) s hs

/-- The code points from `highStart` on (from 0x1000 on, if that is higher) are never delivered, whatever the window. -/
theorem enumerator_high_refuted {t : CPTrie} (hal : t.highStart % 512 = 0) {start limit fuel : Nat} {out : List (Run Nat)}
    (h : t.enumeratorFuel start limit fuel = .ok out) : ∀ r ∈ out, r.stop ≤ max 0x1000 t.highStart :=
  enumerator_stops hal h

/-- A small trie: 1 for `A`, `high` from `hs` on, otherwise 0. -/
def demo (hs high : Nat) : CPTrie where
  index :=
    { size := 129
      at' := fun i => if i < 2 then 64 * i else if i < 64 then 128 else if i < 65 then 65 else if i < 97 then 97 else 128 }
  data := { size := 194, at' := fun i => if i = 65 then 1 else if i = 192 then high else 0 }
  trieType := 1
  valueWidth := 1
  index3NullOffset := 97
  dataNullOffset := 128
  highStart := hs
  shifted12HighStart := (hs + 0xFFF) / 0x1000

/-- The map stored in `demo`. -/
def demoMap (hs high c : Nat) : Nat := if c = 65 then 1 else if hs ≤ c then high else 0

theorem demo_index (hs high i : Nat) (h : i < 129) : (demo hs high).index.get i =
    .ok (if i < 2 then 64 * i else if i < 64 then 128 else if i < 65 then 65 else if i < 97 then 97 else 128) := by
  unfold demo Arr.get
  simp only [if_pos h]

theorem demo_data (hs high i : Nat) (h : i < 194) : (demo hs high).data.get i =
    .ok (if i = 65 then 1 else if i = 192 then high else 0) := by
  unfold demo Arr.get
  simp only [if_pos h]

theorem demo_zero (hs high i : Nat) (h : i < 192) (h' : i ≠ 65) : (demo hs high).data.get i = .ok 0 := by
  rw [demo_data _ _ _ (by omega), if_neg h', if_neg (by omega)]

theorem demo_group (hs high g : Nat) (h2 : 512 * g < 0x2000) :
    (demo hs high).index.get (index1Pos (demo hs high) g) = .ok 65 ∧ (demo hs high).index.get (65 + g % 32) = .ok 97 := by
  have e : index1Pos (demo hs high) g = 64 + g / 32 := rfl
  rw [e, demo_index _ _ _ (by omega), demo_index _ _ _ (by omega), if_neg (by omega), if_neg (by omega), if_pos (by omega),
    if_neg (by omega), if_neg (by omega), if_neg (by omega), if_pos (by omega)]
  exact ⟨rfl, rfl⟩

theorem demo_represents {hs : Nat} (high : Nat) (h : hs = 0x1000 ∨ hs = 0x2000) :
    Represents (demo hs high) (demoMap hs high) 0 := by
  have hfl : fastLimit (demo hs high) = 0x1000 := rfl
  have hhs : (demo hs high).highStart = hs := rfl
  have hsz : (demo hs high).data.size = 194 := rfl
  have hm0 : ∀ c, c ≠ 65 → c < hs → demoMap hs high c = 0 := fun c h1 h2 => by
    unfold demoMap; rw [if_neg h1, if_neg (by omega)]
  constructor
  · exact .inr rfl
  · intro c hc
    by_cases hA : c = 65
    · subst hA; rw [demo_data _ _ _ (by omega)]; rfl
    · rw [demo_zero _ _ _ (by omega) hA, hm0 c hA (by omega)]
  · intro b hb
    rw [hfl] at hb
    refine ⟨_, demo_index _ _ _ (by omega), fun j hj => ?_⟩
    by_cases h1 : b < 2
    · rw [if_pos h1]
      by_cases hA : 64 * b + j = 65
      · rw [hA, demo_data _ _ _ (by omega)]; rfl
      · rw [demo_zero _ _ _ (by omega) hA, hm0 _ hA (by omega)]
    · rw [if_neg h1, if_pos (by omega), demo_zero _ _ _ (by omega) (by omega), hm0 _ (by omega) (by omega)]
  · intro g h1 h2
    rw [hfl] at h1
    rw [hhs] at h2
    obtain ⟨g1, g2⟩ := demo_group hs high g (by omega)
    refine ⟨65, 97, fun _ => 128, g1, g2, .inl ⟨by omega, fun k hk => ?_⟩, fun k hk j hj => ?_⟩
    · rw [demo_index _ _ _ (by omega), if_neg (by omega), if_neg (by omega), if_neg (by omega), if_neg (by omega)]
    · dsimp only
      rw [demo_zero _ _ _ (by omega) (by omega), hm0 _ (by omega) (by omega)]
  · intro c h1 h2 _
    rw [hhs] at h2
    rw [hfl] at h1
    rw [hsz, demo_data _ _ _ (by omega)]
    unfold demoMap
    rw [if_neg (by omega), if_pos (by omega), if_neg (by omega), if_pos (by omega)]
  · rw [hsz, demo_data _ _ _ (by omega)]; rfl
  · rw [hhs]; omega

theorem demo_nulls {hs : Nat} (high : Nat) (h : hs = 0x1000 ∨ hs = 0x2000) : NullsOk (demo hs high) (demoMap hs high) 0 where
  value := demo_zero _ _ _ (show 128 < 192 by omega) (show 128 ≠ 65 by omega)
  fast := by
    intro b hb hi j hj
    rw [show fastLimit (demo hs high) = 0x1000 from rfl] at hb
    unfold demoMap
    by_cases h1 : b < 2
    · rw [demo_index _ _ _ (by omega), if_pos h1] at hi
      have : 64 * b = 128 := Except.ok.inj hi
      omega
    · rw [if_neg (by omega), if_neg (by omega)]
  multi := by
    intro g i2 h1 h2 _ _ j hj
    rw [show fastLimit (demo hs high) = 0x1000 from rfl] at h1
    rw [show (demo hs high).highStart = hs from rfl] at h2
    unfold demoMap
    rw [if_neg (by omega), if_neg (by omega)]

theorem demo_uniform {hs : Nat} (high : Nat) (h : hs = 0x1000 ∨ hs = 0x2000) : ∀ b p, b < 63 → (demo hs high).index.get b = .ok p →
    (demo hs high).index.get (b + 1) = .ok p → ∀ j < 64, demoMap hs high (64 * b + j) = demoMap hs high (64 * b) := by
  intro b p hb h1 h2 j hj
  rw [demo_index _ _ _ (by omega)] at h1 h2
  unfold demoMap
  by_cases h3 : b < 2
  · rw [if_pos h3] at h1
    have e1 : 64 * b = p := Except.ok.inj h1
    by_cases h4 : b + 1 < 2
    · rw [if_pos h4] at h2
      have e2 : 64 * (b + 1) = p := Except.ok.inj h2
      omega
    · rw [if_neg h4, if_pos (by omega)] at h2
      have e2 : 128 = p := Except.ok.inj h2
      omega
  · rw [if_neg (by omega), if_neg (by omega), if_neg (by omega), if_neg (by omega)]

/-- The hypotheses of `enumerator_agrees_partial` are met, also by a window beyond 0x1000. -/
example : ∃ out, (demo 0x2000 7).enumerator 3 0x1F00 = .ok out ∧ Tiles out 3 0x1F00 ∧ NeighboursDiffer out ∧
    ∀ r ∈ out, ∀ c, r.start ≤ c → c < r.stop → (demo 0x2000 7).get c = .ok r.value :=
  enumerator_agrees_partial (demo_represents 7 (.inr rfl)) (demo_nulls 7 (.inr rfl)) (demo_uniform 7 (.inr rfl)) (by omega)
    (show 3 < 0x2000 by omega) (by omega)
    (.inr ⟨rfl, show 0x1F00 ≤ 0x2000 by omega, fun g _ h => ⟨65, demo_group _ _ g (by omega)⟩⟩)

/-- C29 is violated when the window ends beyond `highStart`: a trie stores 1 for `A`, 7 from 0x1000 on and 0 otherwise; the
last range below 0x1000 is delivered twice and [0x1000, 0x2000) is not delivered. -/
theorem enumerator_tiles_refuted : Represents (demo 0x1000 7) (demoMap 0x1000 7) 0 ∧
    (demo 0x1000 7).enumerator 0 0x2000 = .ok [⟨0, 65, 0⟩, ⟨65, 66, 1⟩, ⟨66, 0x1000, 0⟩, ⟨66, 0x1000, 0⟩] ∧
    (demo 0x1000 7).get 0x1000 = .ok 7 :=
  ⟨demo_represents 7 (.inl rfl), by decide +kernel, by decide +kernel⟩

/-- A small trie that stores `c % 64` below 0x1000 and 0 above, sharing one block. -/
def rep : CPTrie where
  index := { size := 64, at' := fun _ => 0 }
  data := { size := 130, at' := fun i => if i < 128 then i % 64 else 0 }
  trieType := 1
  valueWidth := 1
  index3NullOffset := 0x7FFF
  dataNullOffset := 128
  highStart := 0x1000
  shifted12HighStart := 1

theorem rep_data (i : Nat) (h : i < 130) : rep.data.get i = .ok (if i < 128 then i % 64 else 0) := by
  unfold rep Arr.get
  simp only [if_pos h]

theorem rep_represents : Represents rep (fun c => if c < 0x1000 then c % 64 else 0) 0 := by
  have hfl : fastLimit rep = 0x1000 := rfl
  have hhs : rep.highStart = 0x1000 := rfl
  have hsz : rep.data.size = 130 := rfl
  constructor
  · exact .inr rfl
  · intro c hc
    rw [rep_data _ (by omega), if_pos hc]
    rw [if_pos (by omega)]
  · intro b hb
    rw [hfl] at hb
    refine ⟨0, ?_, fun j hj => ?_⟩
    · unfold rep Arr.get
      simp only [if_pos (show b < 64 by omega)]
    · rw [rep_data _ (by omega), if_pos (by omega)]
      rw [if_pos (by omega), show (64 * b + j) % 64 = (0 + j) % 64 by omega]
  · intro g h1 h2
    rw [hfl] at h1
    rw [hhs] at h2
    omega
  · intro c h1 h2 _
    rw [hfl] at h1
    rw [hsz, rep_data _ (by omega)]
    rw [if_neg (by omega), if_neg (by omega)]
  · rw [hsz, rep_data _ (by omega)]; rfl
  · rfl

/-- C29 is violated when neighbouring code points share a block of different values: the ranges that `rep` delivers say that
U+0080 has the value 63, which `get` says is 0. -/
theorem enumerator_values_refuted : Represents rep (fun c => if c < 0x1000 then c % 64 else 0) 0 ∧
    (rep.enumerator 62 130).toOption.map List.getLast? = some (some ⟨127, 130, 63⟩) ∧ rep.get 0x80 = .ok 0 :=
  ⟨rep_represents, by decide +kernel, by decide +kernel⟩

/-- A trie without a null data block (`dataNullOffset` 0xFFFFF) cannot be enumerated at all. -/
theorem enumerator_nonull_refuted {t : CPTrie} {start limit fuel : Nat} (h1 : start < 0x110000 ∧ start < t.highStart)
    (h2 : t.data.size ≤ t.dataNullOffset) : t.enumeratorFuel start limit fuel = .error .indexError := by
  unfold enumeratorFuel
  rw [if_neg (by omega)]
  unfold Arr.get
  rw [if_neg (by omega)]
  rfl

example : (build (fun _ => 0) 0).enumerator 0 10 = .error .indexError :=
  enumerator_nonull_refuted ⟨by omega, show 0 < 0x20000 by omega⟩ (show 0x20002 ≤ 0xFFFFF by omega)

/-! ## C30: parsing -/

/-- C30. `createFromData` of the serialised form of a trie, followed by anything, gives back its fields and arrays. -/
theorem createFromData_roundtrip {t : TrieImage} (h : t.Fits) (hne : t.index ≠ []) (rest : List Nat) :
    createFromData (t.bytes ++ rest) = .ok
      { index := Arr.ofList t.index
        data := Arr.ofList t.data
        trieType := t.trieType
        valueWidth := t.valueWidth
        index3NullOffset := t.index3NullOffset
        dataNullOffset := t.dataNullOffset
        highStart := 512 * t.shiftedHighStart
        shifted12HighStart := (512 * t.shiftedHighStart + 0xFFF) / 0x1000 } := by
  rw [createFromData_bytes h]
  cases hi : t.index with
  | nil => exact absurd hi hne
  | cons v vs => rfl

/-- C30, wrong data: a byte string shorter than the serialised form of the header raises `struct.error`. -/
theorem createFromData_short {b : List Nat} (h : b.length < 16) : createFromData b = .error .structError := by
  have key : ∀ l : List Nat, l.length ≤ b.length → (4 ≤ l.length → l.length < 16) →
      (do let _sig ← unpack 4 1 (slice l 0 4); let hs ← unpack 2 6 (slice l 4 trieHeaderLength); pure (_sig, hs) : Py _) =
        .error .structError := by
    intro l h1 h2
    unfold unpack
    by_cases h3 : (slice l 0 4).length = 4 * 1
    · have h4 : ¬ (slice l 4 trieHeaderLength).length = 2 * 6 := by
        have : (slice l 4 trieHeaderLength).length ≤ l.length - 4 := by
          unfold slice; rw [List.length_take, List.length_drop]; exact Nat.min_le_right _ _
        have : 4 ≤ l.length := by
          unfold slice at h3; rw [List.length_take] at h3; simp at h3; omega
        omega
      rw [if_pos h3, if_neg h4]; rfl
    · rw [if_neg h3]; rfl
  have hs := key (slice b 0 trieHeaderLength) (by unfold slice; simp; omega) (fun _ => by
    unfold slice; rw [List.length_take, List.length_drop]; omega)
  unfold createFromData
  dsimp only
  cases h1 : unpack 4 1 (slice (slice b 0 trieHeaderLength) 0 4) with
  | error e => rw [h1] at hs; exact congrArg _ (Except.error.inj hs)
  | ok v =>
    cases h2 : unpack 2 6 (slice (slice b 0 trieHeaderLength) 4 trieHeaderLength) with
    | error e => rw [h1, h2] at hs; exact congrArg _ (Except.error.inj hs)
    | ok w => rw [h1, h2] at hs; simp [bind, Except.bind, pure, Except.pure] at hs

/-- A serialised trie for the examples. -/
def img : TrieImage := ⟨0x54726933, 1, 1, 0x7FFF, 0xFFFFF, 8, [0, 64, 5], [7, 0x12345678]⟩

theorem img_fits : img.Fits := ⟨by decide, by decide, by decide, by decide, by decide, by decide, by decide, by decide, by decide⟩

example : ∃ t, createFromData (img.bytes ++ [1, 2]) = .ok t ∧ t.dataNullOffset = 0xFFFFF ∧ t.highStart = 0x1000 ∧
    t.data.get 1 = .ok 0x12345678 := by
  rw [createFromData_roundtrip img_fits (by decide)]
  exact ⟨_, rfl, rfl, rfl, by decide⟩

example : createFromData [0x33, 0x69, 0x72, 0x54] = .error .structError := createFromData_short (by decide)

end Verif.CPTrie.Props

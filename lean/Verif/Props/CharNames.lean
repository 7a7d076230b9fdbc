import Verif.Lemmas.NameLengths
import Verif.Lemmas.NameTokens
import Verif.Lemmas.NameLookup
import Verif.Lemmas.NameAlg
import Verif.Props.Char
import Verif.Props.Utilities
/-!
# Character names: `CharNames.py` (C48-C53, C73)
-/
namespace Verif.CharNames.Props
open Verif.CharNames.Spec
open Verif.Spec (leAll leBytes)
open Verif.ICUData (State)

/-! ## Lengths of the strings of a group -/

/-- C48. The packed form of any 32 lengths from 0 to 75, wherever it is in the data, decodes to those lengths, their offsets
and the position after it. A padding nibble below 12 shows up as one more length after the 32. -/
theorem expandGroupLengths_decodes (pre post ls : List Nat) (pad : Nat) (h32 : ls.length = 32) (h75 : ∀ l ∈ ls, l ≤ 75)
    (hpad : pad < 16) :
    expandGroupLengths (pre ++ packLengths pad ls ++ post) pre.length =
      .ok (pre.length + (packLengths pad ls).length, offsetsFrom 0 (ls ++ padLength pad ls), ls ++ padLength pad ls) := by
  unfold expandGroupLengths
  have := loop_correct (data := pre ++ packLengths pad ls ++ post) hpad 32 ls (by omega) h75 false (LINES_PER_GROUP + 1) 0
    pre.length 0 0 [] [] pre post (by simp) (by simp) (by omega)
    (by rw [h32]; decide) rfl rfl
  rw [this]
  rfl

/-- Lengths of all sizes, an odd number of nibbles. -/
example : ∃ ls : List Nat, ls.length = 32 ∧ (∀ l ∈ ls, l ≤ 75) ∧ 75 ∈ ls ∧ 12 ∈ ls ∧ padLength 0 ls = [0] :=
  ⟨[75, 0, 12, 11, 20, 30] ++ List.replicate 24 3 ++ [13, 1], by decide, by decide, by decide, by decide, by decide⟩

/-- The slices at consecutive offsets of concatenated strings. -/
theorem slices_flatten (pre : List Nat) : ∀ (strs : List (List Nat)) (o : Nat) (mid post : List Nat), o = mid.length →
    ((offsetsFrom o (strs.map List.length)).zip (strs.map List.length)).map
      (fun ol => slice (pre ++ (mid ++ (strs.flatten ++ post))) (pre.length + ol.1) (pre.length + ol.1 + ol.2)) = strs := by
  intro strs
  induction strs with
  | nil => intro o mid post _; rfl
  | cons x xs ih =>
    intro o mid post ho
    rw [List.map_cons, offsetsFrom, List.zip_cons_cons, List.map_cons]
    congr 1
    · subst ho
      rw [List.flatten_cons, List.append_assoc, ← List.append_assoc pre mid]
      exact slice_mid _ _ _ (by simp) (by simp)
    · have := ih (o + x.length) (mid ++ x) post (by simp [ho])
      rw [List.append_assoc, ← List.append_assoc x] at this
      exact this

/-- C48. Reading a group: the record of the group gives its number and the place of its strings; the first 32 strings of the
group read are the 32 strings stored there. -/
theorem readGroup_strings (s : State) (groupStart groupStringsStart msb o pad : Nat) (pre post : List Nat)
    (strs : List (List Nat)) (hmsb : msb < 0x10000) (ho : o < 0x100000000)
    (hrec : slice s.fileData groupStart (groupStart + 6) = leAll 2 [msb, o / 0x10000, o % 0x10000])
    (hfile : s.fileData = pre ++ packLengths pad (strs.map List.length) ++ strs.flatten ++ post)
    (hpre : pre.length = groupStringsStart + o) (h32 : strs.length = 32) (h75 : ∀ x ∈ strs, x.length ≤ 75) (hpad : pad < 16) :
    ∃ extra, readGroup s groupStart groupStringsStart = .ok ⟨msb, strs ++ extra⟩ := by
  have hu : unpack 2 3 (s.getData groupStart (groupStart + groupLength)) = .ok [msb, o / 0x10000, o % 0x10000] := by
    have := unpack_leAll (w := 2) (vs := [msb, o / 0x10000, o % 0x10000]) (by
      intro v hv
      simp only [List.mem_cons, List.not_mem_nil, or_false] at hv
      rcases hv with rfl | rfl | rfl <;> simp <;> omega)
    rw [← hrec] at this
    exact this
  have hl := expandGroupLengths_decodes pre (strs.flatten ++ post) (strs.map List.length) pad (by simp [h32])
    (by intro l hl; obtain ⟨x, hx, rfl⟩ := List.mem_map.mp hl; exact h75 x hx) hpad
  have hfile' : s.fileData = pre ++ packLengths pad (strs.map List.length) ++ (strs.flatten ++ post) := by
    rw [hfile]; simp
  unfold readGroup
  rw [hu]
  simp only [bind, Except.bind, List.getD_cons_zero, List.getD_cons_succ]
  rw [show o / 0x10000 * 2 ^ 16 ||| o % 0x10000 = o by
    rw [or_field (by omega)]; omega, ← hpre, hfile', hl]
  simp only
  rw [offsetsFrom_append, List.zip_append (by
    clear hl hfile hfile' h32 h75
    generalize 0 = z
    induction strs generalizing z with
    | nil => rfl
    | cons x xs ih => simp [offsetsFrom, ih]), List.map_append]
  have hst : ((offsetsFrom 0 (strs.map List.length)).zip (strs.map List.length)).map
      (fun ol => s.getData (pre.length + (packLengths pad (strs.map List.length)).length + ol.1)
        (pre.length + (packLengths pad (strs.map List.length)).length + ol.1 + ol.2)) = strs := by
    have := slices_flatten (pre ++ packLengths pad (strs.map List.length)) strs 0 [] post rfl
    rw [List.nil_append, List.length_append] at this
    unfold State.getData
    rw [hfile']
    exact this
  rw [hst]
  exact ⟨_, rfl⟩

/-- A group of 32 names of one letter. -/
example : ∃ (s : State) (pre : List Nat) (strs : List (List Nat)),
    slice s.fileData 0 6 = leAll 2 [5, 0 / 0x10000, 0 % 0x10000] ∧
    s.fileData = pre ++ packLengths 0 (strs.map List.length) ++ strs.flatten ++ [7] ∧ pre.length = 6 + 0 ∧
    strs.length = 32 ∧ (∀ x ∈ strs, x.length ≤ 75) ∧ readGroup s 0 6 = .ok ⟨5, strs⟩ :=
  ⟨⟨leAll 2 [5, 0, 0] ++ packLengths 0 ((List.replicate 32 [65]).map List.length) ++ (List.replicate 32 [65]).flatten ++ [7], []⟩,
    leAll 2 [5, 0, 0], List.replicate 32 [65], by decide, rfl, by decide, by decide, by decide, by decide +kernel⟩

/-! ## Group lookup -/

/-- C49. `getGroup` returns the group whose 32 codes contain the given code, and `None` when there is none. -/
theorem getGroup_exact (groups : List Group) (hne : groups ≠ []) (hs : groups.Pairwise fun a b => a.msb < b.msb) (code : Nat) :
    ∃ r, getGroup groups code = .ok r ∧ ∀ g, r = some g ↔ g ∈ groups ∧ g.msb * 32 ≤ code ∧ code < g.msb * 32 + 32 :=
  getGroup_spec hne hs code

example : ([⟨0, []⟩, ⟨2, []⟩, ⟨5, []⟩] : List Group) ≠ [] ∧ ([⟨0, []⟩, ⟨2, []⟩, ⟨5, []⟩] : List Group).Pairwise fun a b => a.msb < b.msb := by
  decide

/-- C49. Without groups the lookup fails. -/
theorem getGroup_no_groups (code : Nat) : getGroup [] code = .error .indexError := getGroup_empty code

/-! ## Algorithmic names -/

/-- C50. Names made of a prefix and a hexadecimal code: different codes have different names. -/
theorem hexNames_injective (r : AlgorithmicRange) (hk : r.kind = 0) (nc : Nat) (hn : nc = 0 ∨ nc = 2) (c c' : Nat)
    (h : r.getName c nc = r.getName c' nc) : c = c' := by
  have hn' : ¬ (nc ≠ U_UNICODE_CHAR_NAME ∧ nc ≠ U_EXTENDED_CHAR_NAME) := by
    rintro ⟨h1, h2⟩
    rcases hn with h | h
    · exact h1 h
    · exact h2 h
  unfold AlgorithmicRange.getName at h
  rw [if_neg hn', if_neg hn', if_pos hk, if_pos hk] at h
  injection h with h
  have h := List.append_cancel_left h
  by_cases h4 : r.variant = 4
  · rw [if_pos h4, if_pos h4] at h; exact paddedHex_inj h
  · rw [if_neg h4, if_neg h4] at h
    by_cases h5 : r.variant = 5
    · rw [if_pos h5, if_pos h5] at h; exact paddedHex_inj h
    · rw [if_neg h5, if_neg h5] at h; exact paddedHex_inj h

/-- `CJK-4E00`. -/
example : ∃ r : AlgorithmicRange, r.kind = 0 ∧ r.getName 0x4E00 0 = .ok (codes "CJK-4E00") :=
  ⟨⟨0x4E00, 0x9FFD, 0, 4, 0, codes "CJK-", [], []⟩, rfl, by decide +kernel⟩

/-- A factorised range: one word out of each block. -/
structure Factorised (r : AlgorithmicRange) (blocks : List (List Str)) : Prop where
  kind : r.kind = 1
  ne : blocks ≠ []
  nonempty : ∀ b ∈ blocks, b ≠ []
  factors : r.factors = blocks.map List.length
  elements : ∃ extra, r.elements = blocks.flatten ++ extra
  size : r.stop = r.start + (blocks.map List.length).foldr (· * ·) 1

theorem factor_name {r : AlgorithmicRange} {blocks : List (List Str)} (F : Factorised r blocks) {nc : Nat} (hn : nc = 0 ∨ nc = 2)
    {c : Nat} (hc : r.start ≤ c ∧ c < r.stop) :
    r.getName c nc = .ok (r.string ++ (pick blocks (mixedRadix r.factors (c - r.start))).flatten) := by
  have hn' : ¬ (nc ≠ U_UNICODE_CHAR_NAME ∧ nc ≠ U_EXTENDED_CHAR_NAME) := by
    rintro ⟨h1, h2⟩
    rcases hn with h | h
    · exact h1 h
    · exact h2 h
  obtain ⟨extra, he⟩ := F.elements
  unfold AlgorithmicRange.getName
  rw [if_neg hn', if_neg (by rw [F.kind]; decide), if_pos F.kind]
  have := factorSuffix_spec F.factors he F.ne F.nonempty (k := c - r.start)
    (by rw [F.factors]; have := F.size; unfold prod; omega)
  rwa [show r.start + (c - r.start) = c by omega] at this

theorem radix_pos {r : AlgorithmicRange} {blocks : List (List Str)} (F : Factorised r blocks) : ∀ f ∈ r.factors, 0 < f := by
  intro f h
  rw [F.factors] at h
  obtain ⟨b, hb', rfl⟩ := List.mem_map.mp h
  exact List.length_pos_iff.mpr (F.nonempty b hb')

/-- C50. Factorised names are exactly the prefix followed by one word out of each block: every code has such a name and every
choice of words is the name of a code. -/
theorem factorNames_exact (r : AlgorithmicRange) (blocks : List (List Str)) (F : Factorised r blocks) (nc : Nat)
    (hn : nc = 0 ∨ nc = 2) :
    (∀ c, r.start ≤ c → c < r.stop → ∃ ws, Choice blocks ws ∧ r.getName c nc = .ok (r.string ++ ws.flatten)) ∧
    (∀ ws, Choice blocks ws → ∃ c, r.start ≤ c ∧ c < r.stop ∧ r.getName c nc = .ok (r.string ++ ws.flatten)) := by
  constructor
  · intro c h1 h2
    refine ⟨_, ?_, factor_name F hn ⟨h1, h2⟩⟩
    rw [F.factors]
    apply pick_choice
    rw [← F.factors]
    exact mixedRadix_in _ (radix_pos F) _ (by rw [F.factors]; have := F.size; unfold prod; omega)
  · intro ws hw
    obtain ⟨is, hi, rfl⟩ := pick_surj blocks ws hw
    obtain ⟨k, hk, rfl⟩ := mixedRadix_surj _ _ hi
    have hs := F.size
    unfold prod at hk
    refine ⟨r.start + k, by omega, by omega, ?_⟩
    rw [factor_name F hn ⟨by omega, by omega⟩, show r.start + k - r.start = k by omega, F.factors]

/-- C50. Factorised names: when the words of every block are different and a concatenation of one word out of each block can
be taken apart in one way only, different codes of the range have different names. -/
theorem factorNames_injective (r : AlgorithmicRange) (blocks : List (List Str)) (F : Factorised r blocks)
    (hd : ∀ b ∈ blocks, b.Nodup)
    (hu : ∀ ws ws', Choice blocks ws → Choice blocks ws' → ws.flatten = ws'.flatten → ws = ws')
    (nc : Nat) (hn : nc = 0 ∨ nc = 2) (c c' : Nat) (hc : r.start ≤ c ∧ c < r.stop) (hc' : r.start ≤ c' ∧ c' < r.stop)
    (h : r.getName c nc = r.getName c' nc) : c = c' := by
  rw [factor_name F hn hc, factor_name F hn hc'] at h
  injection h with h
  have h := List.append_cancel_left h
  have hs := F.size
  have k1 : c - r.start < prod r.factors := by rw [F.factors]; unfold prod; omega
  have k2 : c' - r.start < prod r.factors := by rw [F.factors]; unfold prod; omega
  have i1 := mixedRadix_in _ (radix_pos F) _ k1
  have i2 := mixedRadix_in _ (radix_pos F) _ k2
  rw [F.factors] at h i1 i2
  have h := hu _ _ (pick_choice _ _ i1) (pick_choice _ _ i2) h
  have h := pick_inj _ _ _ hd i1 i2 h
  rw [← F.factors] at h
  have := mixedRadix_inj _ _ _ k1 k2 h
  omega

/-- The blocks of the Hangul syllables (Unicode standard, section 3.12). -/
def hangulBlocks : List (List Str) := [
  ["G", "GG", "N", "D", "DD", "R", "M", "B", "BB", "S", "SS", "", "J", "JJ", "C", "K", "T", "P", "H"].map codes,
  ["A", "AE", "YA", "YAE", "EO", "E", "YEO", "YE", "O", "WA", "WAE", "OE", "YO", "U", "WEO", "WE", "WI", "YU", "EU", "YI", "I"].map codes,
  ["", "G", "GG", "GS", "N", "NJ", "NH", "D", "L", "LG", "LM", "LB", "LS", "LT", "LP", "LH", "M", "B", "BS", "S", "SS", "NG", "J",
    "C", "K", "T", "P", "H"].map codes]

/-- The Hangul syllables as an algorithmic range. -/
def hangulRange : AlgorithmicRange :=
  ⟨0xAC00, 0xD7A4, 1, 3, 0, codes "HANGUL SYLLABLE ", hangulBlocks.map List.length, hangulBlocks.flatten⟩

theorem hangul_factorised : Factorised hangulRange hangulBlocks :=
  ⟨rfl, by decide, by decide, rfl, ⟨[], by decide⟩, by decide⟩

/-- A vowel letter. -/
def vowel (c : Nat) : Bool := c ∈ codes "AEIOUWY"

theorem takeWhile_app {p : Nat → Bool} {a b : Str} (ha : ∀ x ∈ a, p x = true) (hb : ∀ y, b.head? = some y → p y = false) :
    (a ++ b).takeWhile p = a ∧ (a ++ b).dropWhile p = b := by
  induction a with
  | nil =>
    cases b with
    | nil => simp
    | cons y b => simp [hb y rfl]
  | cons x a ih =>
    obtain ⟨h1, h2⟩ := ih (fun z hz => ha z (by simp [hz]))
    simp [ha x (by simp), h1, h2]

/-- The name of a syllable can be taken apart in one way. -/
theorem hangul_decodable : ∀ ws ws', Choice hangulBlocks ws → Choice hangulBlocks ws' → ws.flatten = ws'.flatten → ws = ws' := by
  have shape : ∀ ws, Choice hangulBlocks ws → ∃ l v t, ws = [l, v, t] ∧ (∀ x ∈ l, (!vowel x) = true) ∧ v ≠ [] ∧
      (∀ x ∈ v, vowel x = true) ∧ (∀ x ∈ t, vowel x = false) := by
    intro ws h
    match ws, h with
    | [], h => exact h.elim
    | [_], h => exact h.2.elim
    | [_, _], h => exact h.2.2.elim
    | [l, v, t], ⟨hl, hv, ht, _⟩ =>
      have e1 : ∀ l ∈ (hangulBlocks.getD 0 []), ∀ x ∈ l, (!vowel x) = true := by decide
      have e2 : ∀ v ∈ (hangulBlocks.getD 1 []), v ≠ [] ∧ ∀ x ∈ v, vowel x = true := by decide
      have e3 : ∀ t ∈ (hangulBlocks.getD 2 []), ∀ x ∈ t, vowel x = false := by decide
      exact ⟨l, v, t, rfl, e1 l hl, (e2 v hv).1, (e2 v hv).2, e3 t ht⟩
    | _ :: _ :: _ :: _ :: _, h => exact h.2.2.2.elim
  intro ws ws' h h' e
  obtain ⟨l, v, t, rfl, h1, h2, h3, h4⟩ := shape ws h
  obtain ⟨l', v', t', rfl, h1', h2', h3', h4'⟩ := shape ws' h'
  simp only [List.flatten_cons, List.flatten_nil, List.append_nil] at e
  have A : ∀ {v t : Str}, v ≠ [] → (∀ x ∈ v, vowel x = true) → ∀ y, (v ++ t).head? = some y → (!vowel y) = false := by
    intro v t hne hv y hy
    cases v with
    | nil => exact absurd rfl hne
    | cons x xs => simp at hy; subst hy; simp [hv x (by simp)]
  obtain ⟨a1, a2⟩ := takeWhile_app (p := fun x => !vowel x) h1 (A (t := t) h2 h3)
  obtain ⟨b1, b2⟩ := takeWhile_app (p := fun x => !vowel x) h1' (A (t := t') h2' h3')
  rw [e, b1] at a1
  rw [e, b2] at a2
  have B : ∀ {t : Str}, (∀ x ∈ t, vowel x = false) → ∀ y, t.head? = some y → vowel y = false := by
    intro t ht y hy
    cases t with
    | nil => simp at hy
    | cons x xs => simp at hy; subst hy; exact ht x (by simp)
  obtain ⟨c1, c2⟩ := takeWhile_app (p := vowel) h3 (B h4)
  obtain ⟨d1, d2⟩ := takeWhile_app (p := vowel) h3' (B h4')
  rw [← a2, d1] at c1
  rw [← a2, d2] at c2
  rw [a1, c1, c2]

/-- C50. The Hangul syllable names of the Unicode standard, generated by a factorised range, are all different. -/
theorem hangulNames_injective (c c' : Nat) (hc : 0xAC00 ≤ c ∧ c ≤ 0xD7A3) (hc' : 0xAC00 ≤ c' ∧ c' ≤ 0xD7A3)
    (h : hangulRange.getName c 0 = hangulRange.getName c' 0) : c = c' :=
  factorNames_injective hangulRange hangulBlocks hangul_factorised (by decide) hangul_decodable 0 (.inl rfl) c c'
    ⟨hc.1, by have : hangulRange.stop = 0xD7A4 := rfl
              omega⟩
    ⟨hc'.1, by have : hangulRange.stop = 0xD7A4 := rfl
               omega⟩ h

example : hangulRange.getName 0xD55C 0 = .ok (codes "HANGUL SYLLABLE HAN") := by decide +kernel

/-! ## Token expansion -/

/-- C53. `expandString` returns a text exactly when the string stands for that text. -/
theorem expandString_iff (t : Tokens) (s : List Nat) (hs : ∀ b ∈ s, b < 256) (nc : Nat) (hn : nc ≠ 2) (out : Str) :
    t.expandString s nc = .ok out ↔ Expands t s out := by
  constructor
  · intro h
    obtain ⟨o, e, ho⟩ := expands_of_loop hn s.length s (Nat.le_refl _) hs [] out h
    rw [List.nil_append] at e
    rw [e]; exact ho
  · intro h
    have := loop_of_expands hs h [] hn
    rw [List.nil_append] at this
    exact this

/-- A token table with a word, a literal and a two-byte token. -/
def demoTokens : Tokens :=
  ⟨[0xFFFF, 0, 0xFFFE] ++ List.replicate 56 0xFFFF ++ [0xFFFF] ++ List.replicate 457 0xFFFF ++ [8] ++ List.replicate 250 0xFFFF,
    codes "CAPITAL" ++ [0] ++ codes "LETTER" ++ [0]⟩

/-- A word, a space, a two-byte word, a letter, the end of the field. -/
example : demoTokens.expandString [1, 32, 2, 5, 65, 59, 66] 0 = .ok (codes "CAPITAL LETTERA") := by decide +kernel

/-- C53. For extended names, leading semicolons are skipped when a semicolon is not the first byte of a token, so that the name
is the first field which is not empty; for the rest, the string is expanded as for names. (No word is empty.) -/
theorem expandString_extended (t : Tokens) (hw : ∀ k ∈ t.tokens, k ≠ 0xFFFF → ¬ WordAt t k []) (s : List Nat)
    (hs : ∀ b ∈ s, b < 256) :
    (t.tokens[59]? = some 0xFFFF → t.expandString s 2 = t.expandString (s.dropWhile (· == 59)) 0) ∧
    (t.tokens[59]? ≠ some 0xFFFF → t.expandString s 2 = t.expandString s 0) := by
  constructor
  · intro h
    unfold Tokens.expandString
    induction s with
    | nil => simp [loop_nil]
    | cons c rest ih =>
      by_cases hc : c = 59
      · subst hc
        rw [loop_skip h, ih (fun b hb => hs b (by simp [hb])), List.dropWhile_cons_of_pos (by simp)]
      · rw [List.dropWhile_cons_of_neg (by simp [hc])]
        exact loop_extended hw _ _ (Nat.le_refl _) hs [] (.inr (.inl (by simp [hc])))
  · intro h
    exact loop_extended hw _ _ (Nat.le_refl _) hs [] (.inr (.inr h))

/-- The name is in the second field. -/
example : (∀ k ∈ demoTokens.tokens, k ≠ 0xFFFF → ¬ WordAt demoTokens k []) ∧ demoTokens.tokens[59]? = some 0xFFFF ∧
    demoTokens.expandString [59, 1, 32, 65, 59, 66] 2 = .ok (codes "CAPITAL A") ∧
    demoTokens.expandString [59, 1, 32, 65, 59, 66] 0 = .ok [] := by
  refine ⟨?_, by decide +kernel, by decide +kernel, by decide +kernel⟩
  intro k hk hk' hw
  have : ∀ k ∈ demoTokens.tokens, k ≠ 0xFFFF → ICUData.untilNul (demoTokens.strings.drop k) ≠ .ok [] := by decide +kernel
  exact this k hk hk' (wordAt_iff.mp hw)

/-- C53. With a well-formed token table, every string expands for every name choice, unless its last byte is a lead byte.
That case is what is missing (see the refutation). -/
theorem expandString_total_partial (t : Tokens) (ht : TokensOk t) (s : List Nat) (hs : ∀ b ∈ s, b < 256)
    (hl : ∀ c, s.getLast? = some c → t.tokens[c]? ≠ some 0xFFFE) (nc : Nat) : ∃ out, t.expandString s nc = .ok out := by
  rcases loop_total ht nc s.length s (Nat.le_refl _) hs [] with h | ⟨_, c, hc, hc'⟩
  · exact h
  · exact absurd hc' (hl c hc)

/-- The table is well formed. -/
theorem demoTokens_ok : TokensOk demoTokens := by
  have hw : ∀ k ∈ demoTokens.tokens, k = 0xFFFF ∨ k = 0xFFFE ∨ k = 0 ∨ k = 8 := by decide +kernel
  have w0 : WordAt demoTokens 0 (codes "CAPITAL") := ⟨codes "LETTER" ++ [0], by decide, by decide⟩
  have w8 : WordAt demoTokens 8 (codes "LETTER") := ⟨[], by decide, by decide⟩
  constructor
  · intro c k hk h1 h2
    rcases hw k (List.mem_of_getElem? hk) with h | h | h | h
    · exact absurd h h1
    · exact absurd h h2
    · exact ⟨_, h ▸ w0⟩
    · exact ⟨_, h ▸ w8⟩
  · have hlead : ∀ c : Fin 768, demoTokens.tokens[c.val]? = some 0xFFFE → c.val = 2 := by decide +kernel
    have htrail : ∀ d : Fin 256, demoTokens.tokens[2 * 256 + d.val]? = some 0xFFFF ∨ demoTokens.tokens[2 * 256 + d.val]? = some 8 := by
      decide +kernel
    intro c hc d hd
    have hlt : c < 768 := by
      have h1 := (List.getElem?_eq_some_iff.mp hc).1
      have h2 : demoTokens.tokens.length = 768 := by decide +kernel
      omega
    have := hlead ⟨c, hlt⟩ hc
    simp only at this
    subst this
    rcases htrail ⟨d, hd⟩ with h | h
    · exact ⟨_, h, fun hne => absurd rfl hne⟩
    · exact ⟨_, h, fun _ => ⟨_, w8⟩⟩

/-- C53, what is missing. A string that ends in a lead byte raises `IndexError`, also when the token table is well formed. A
field of a string is cut out by its raw bytes, so a two-byte token whose second byte is that of a semicolon makes such a
string. -/
theorem expandString_total_refuted :
    TokensOk demoTokens ∧ demoTokens.expandString [65, 2] 0 = .error .indexError ∧
    demoTokens.expandString [65, 2, 59, 66] 0 = .ok [65, 2, 66] ∧
    (Group.mk 0 [[65, 59, 2, 59, 66]]).expandName demoTokens 0 1 = .error .indexError :=
  ⟨demoTokens_ok, by decide +kernel, by decide +kernel, by decide +kernel⟩

theorem split_cons_ne {c : Nat} (h : c ≠ 59) (cs : List Nat) : ∃ f fs, splitSemicolon cs = f :: fs ∧
    splitSemicolon (c :: cs) = (c :: f) :: fs := by
  have hne : ∀ l, splitSemicolon l ≠ [] := by
    intro l
    cases l with
    | nil => simp [splitSemicolon]
    | cons x xs =>
      unfold splitSemicolon
      split
      · simp
      · split <;> simp
  cases hs : splitSemicolon cs with
  | nil => exact absurd hs (hne cs)
  | cons f fs =>
    refine ⟨f, fs, rfl, ?_⟩
    conv => lhs; unfold splitSemicolon
    rw [if_neg (show ¬ c = CP_SEMICOLON from h), hs]

theorem split_join : ∀ (fields : List (List Nat)), fields ≠ [] → (∀ f ∈ fields, 59 ∉ f) →
    splitSemicolon ([59].intercalate fields) = fields := by
  intro fields
  induction fields with
  | nil => intro h; exact absurd rfl h
  | cons f fs ih =>
    intro _ hf
    have h59 := hf f (by simp)
    have hfs : ∀ x ∈ fs, 59 ∉ x := fun x hx => hf x (by simp [hx])
    -- a field without semicolon before anything
    have key : ∀ (f : List Nat) (rest : List Nat) (g : List Nat) (gs : List (List Nat)), 59 ∉ f → splitSemicolon rest = g :: gs →
        splitSemicolon (f ++ rest) = (f ++ g) :: gs := by
      intro f
      induction f with
      | nil => intro rest g gs _ h; exact h
      | cons c cs ih =>
        intro rest g gs h0 h
        have h1 := ih rest g gs (fun hx => h0 (by simp [hx])) h
        obtain ⟨f', fs', e1, e2⟩ := split_cons_ne (c := c) (fun hx => h0 (by simp [hx])) (cs ++ rest)
        rw [h1] at e1
        injection e1 with e1 e1'
        rw [List.cons_append, e2, ← e1, ← e1']
        rfl
    cases fs with
    | nil =>
      have : [59].intercalate [f] = f ++ [] := by simp [List.intercalate, List.intersperse]
      rw [this, key f [] [] [] h59 rfl]
      simp
    | cons f2 fs =>
      have e : [59].intercalate (f :: f2 :: fs) = f ++ (59 :: [59].intercalate (f2 :: fs)) := by
        simp [List.intercalate, List.intersperse]
      have h2 := ih (by simp) hfs
      have h3 : splitSemicolon (59 :: [59].intercalate (f2 :: fs)) = [] :: f2 :: fs := by
        conv => lhs; unfold splitSemicolon
        rw [if_pos (show 59 = CP_SEMICOLON from rfl), h2]
      rw [e, key f _ [] (f2 :: fs) h59 h3, List.append_nil]

/-- C53. For the Unicode 1.0 name, the alias and the ISO comment, `expandName` expands the second, fourth and third field of
the string of the line, and gives the empty name when there is no such field. -/
theorem expandName_field (t : Tokens) (g : Group) (line nc : Nat) (fields : List (List Nat)) (hne : fields ≠ [])
    (hf : ∀ f ∈ fields, 59 ∉ f) (hs : g.strings[line]? = some ([59].intercalate fields)) :
    (nc = 1 ∨ nc = 3 → g.expandName t line nc = t.expandString (fields.getD nc []) nc) ∧
    (nc = 4 → g.expandName t line nc = t.expandString (fields.getD 2 []) nc) ∧
    (fields.length ≤ 1 → nc = 1 ∨ nc = 3 ∨ nc = 4 → g.expandName t line nc = .ok []) := by
  have base : ∀ k, k ≠ 0 → k ≠ 2 → g.expandName t line k =
      t.expandString (fields.getD (if k = 4 then 2 else k) []) k := by
    intro k h0 h2
    unfold Group.expandName
    rw [hs]
    simp only [U_UNICODE_CHAR_NAME, U_EXTENDED_CHAR_NAME, U_ISO_COMMENT, ne_eq, h0, not_false_eq_true, h2, and_self, if_true,
      split_join fields hne hf]
    rfl
  refine ⟨fun h => ?_, fun h => ?_, fun hl h => ?_⟩
  · rw [base nc (by omega) (by omega), if_neg (by omega)]
  · rw [base nc (by omega) (by omega), if_pos h]
  · rw [base nc (by omega) (by omega)]
    have : fields.getD (if nc = 4 then 2 else nc) [] = [] := by
      rw [List.getD_eq_getElem?_getD, List.getElem?_eq_none (by split <;> omega)]
      rfl
    rw [this]
    rfl

example : [59].intercalate [[65, 66], [67], []] = [65, 66, 59, 67, 59] := by decide

/-! ## Iteration and lookup by name -/

/-- C51. For a well-formed name table the iteration yields, in ascending order of the codes, exactly the pairs of a code and
its non-empty name. What is missing: the extended name choice, and ranges shorter than 64 that the steps of 32 can miss
(see the refutations). -/
theorem nameIterator_complete_partial (N : Names) (nc : Nat) (hn : nc ≠ 2) (W : WellFormed N nc) :
    (N.nameIterator nc).err = none ∧ (N.nameIterator nc).items.Pairwise (fun x y => x.1 < y.1) ∧
    ∀ c n, (c, n) ∈ (N.nameIterator nc).items ↔ N.getCharName c nc = .ok n ∧ n ≠ [] :=
  nameIterator_spec W hn

/-- C52. For a well-formed name table, `charFromName` gives the first code with the name, or `0xFFFFFFFF` when no code has
it. -/
theorem charFromName_first_partial (N : Names) (nc : Nat) (hn : nc ≠ 2) (W : WellFormed N nc) (name : Str) :
    (∀ c, name ≠ [] → N.getCharName c nc = .ok name → (∀ c', N.getCharName c' nc = .ok name → c ≤ c') →
      N.charFromName name nc = .ok c) ∧
    ((name = [] ∨ ∀ c, N.getCharName c nc ≠ .ok name) → N.charFromName name nc = .ok 0xFFFFFFFF) := by
  obtain ⟨h1, h2, h3⟩ := nameIterator_spec W hn
  obtain ⟨s1, s2⟩ := searchName_spec (theName := name) h2
  have hu : N.charFromName name nc = searchName name none (N.nameIterator nc).items := by
    unfold Names.charFromName; simp only [h1]
  rw [hu]
  refine ⟨fun c hne hc hmin => s1 c ((h3 c name).mpr ⟨hc, hne⟩) (fun c' hc' => hmin c' ((h3 c' name).mp hc').1), ?_⟩
  intro h
  refine s2 (fun c hc => ?_)
  have := (h3 c name).mp hc
  rcases h with h | h
  · exact this.2 h
  · exact h c this.1

/-- C52. `charFromName` inverts `getCharName` when no other code has the name. -/
theorem charFromName_inverts_partial (N : Names) (nc : Nat) (hn : nc ≠ 2) (W : WellFormed N nc) (c : Nat) (name : Str)
    (hne : name ≠ []) (hc : N.getCharName c nc = .ok name) (hu : ∀ c', N.getCharName c' nc = .ok name → c' = c) :
    N.charFromName name nc = .ok c :=
  (charFromName_first_partial N nc hn W name).1 c hne hc (fun c' h => by rw [hu c' h]; exact Nat.le_refl _)

/-- A small name table: two letters in the block of U+0040, an ideograph range, and a group at the end of the range. -/
def demoNames : Names :=
  ⟨demoTokens,
    [⟨2, [[64], [1, 32, 2, 5, 32, 65], [1, 32, 2, 5, 32, 66]] ++ List.replicate 29 []⟩,
      ⟨8, List.replicate 16 [] ++ [[88]] ++ List.replicate 15 []⟩],
    [⟨0x80, 0x104, 0, 4, 0, codes "CJK-", [], []⟩, ⟨0x120, 0x124, 0, 4, 0, codes "X-", [], []⟩]⟩

theorem demoNames_ok : WellFormed demoNames 0 := by
  have hexp : ∀ g ∈ demoNames.groups, ∀ line : Fin 32, (g.expandName demoNames.tokens line.val 0).isOk = true := by decide +kernel
  have hshare : ∀ line : Fin 4, (demoNames.groups.getD 1 ⟨0, []⟩).expandName demoNames.tokens line.val 0 = .ok [] := by decide +kernel
  refine ⟨by decide, by decide, by decide, by decide, by decide, ?_, ?_, ?_, ?_⟩
  · intro g hg r hr hc
    simp only [demoNames, List.mem_cons, List.not_mem_nil, or_false] at hg hr
    obtain ⟨c, h1, h2⟩ := hc
    rcases hg with rfl | rfl <;> rcases hr with rfl | rfl <;>
      simp only [Group.Has, Range.Has] at h1 h2
    · omega
    · omega
    · refine ⟨by decide, by decide, fun c' h1' h2' => ?_⟩
      simp only [Group.Has, Range.Has] at h1' h2'
      have := hshare ⟨c' - 256, by omega⟩
      simp only at this
      rw [show c' % 32 = c' - 256 by omega]
      exact this
    · omega
  · intro i r hr
    match i, hr with
    | 0, hr =>
      left
      injection hr with hr
      subst hr
      decide
    | 1, hr =>
      right
      injection hr with hr
      subst hr
      refine ⟨by decide, fun j p hj hp => ?_⟩
      have : j = 0 := by omega
      subst this
      injection hp with hp
      subst hp
      right
      exact ⟨_, List.mem_cons_of_mem _ List.mem_cons_self, by decide, by decide⟩
    | i + 2, hr => simp [demoNames] at hr
  · intro g hg line hl
    have := hexp g hg ⟨line, hl⟩
    simp only at this
    cases he : g.expandName demoNames.tokens line 0 with
    | ok n => exact ⟨n, rfl⟩
    | error e => rw [he] at this; cases this
  · intro r hr c _
    simp only [demoNames, List.mem_cons, List.not_mem_nil, or_false] at hr
    rcases hr with rfl | rfl <;> exact ⟨_, rfl⟩

example : (demoNames.nameIterator 0).items.length = 3 + 132 + 1 + 4 ∧
    demoNames.charFromName (codes "CAPITAL LETTER B") 0 = .ok 0x42 ∧ demoNames.charFromName (codes "CJK-0103") 0 = .ok 0x103 ∧
    demoNames.charFromName (codes "X-0123") 0 = .ok 0x123 ∧ demoNames.charFromName (codes "CJK-0104") 0 = .ok 0xFFFFFFFF := by
  decide +kernel

/-- Extended names of codes outside the algorithmic ranges begin with `<`. -/
theorem extended_lt (N : Names) (c : Nat) (hr : ∀ r ∈ N.ranges, ¬ (r.start ≤ c ∧ c < r.stop)) (n : Str)
    (h : N.getCharName c 2 = .ok n) : n.head? = some 60 := by
  have hf : N.ranges.find? (·.charInRange c) = none := by
    apply List.find?_eq_none.mpr
    intro r hr'
    rw [charInRange_iff]
    exact hr r hr'
  unfold Names.getCharName at h
  rw [hf] at h
  simp only [U_EXTENDED_CHAR_NAME, if_true] at h
  cases hc : getCharCatName c with
  | error e => rw [hc] at h; cases h
  | ok cat =>
    rw [hc] at h
    simp only [bind, Except.bind, Except.ok.injEq] at h
    rw [← h]
    rfl

/-- C51, what is missing. For the extended name choice the iteration and the lookup disagree: `getCharName` gives a name made
of the category for every code outside the algorithmic ranges, also for codes with a name, while the iteration yields the
names; so `charFromName` does not find the names that `getCharName` gives. -/
theorem nameIterator_extended_refuted :
    (0x41, codes "CAPITAL LETTER A") ∈ (demoNames.nameIterator 2).items ∧
    demoNames.getCharName 0x41 2 ≠ .ok (codes "CAPITAL LETTER A") ∧
    ∀ n, demoNames.getCharName 0x41 2 = .ok n → demoNames.charFromName n 2 = .ok 0xFFFFFFFF := by
  have hr : ∀ r ∈ demoNames.ranges, ¬ (r.start ≤ 0x41 ∧ 0x41 < r.stop) := by decide
  refine ⟨by decide +kernel, fun h => ?_, fun n h => ?_⟩
  · have := extended_lt demoNames 0x41 hr _ h
    revert this
    decide
  · have h1 := extended_lt demoNames 0x41 hr n h
    have h2 : ∀ p ∈ (demoNames.nameIterator 2).items, p.2.head? ≠ some 60 := by decide +kernel
    have h3 : (demoNames.nameIterator 2).err = none := by decide +kernel
    unfold Names.charFromName
    simp only [h3]
    have key : ∀ l : List (Nat × Str), (∀ p ∈ l, p.2.head? ≠ some 60) → searchName n none l = .ok 0xFFFFFFFF := by
      intro l
      induction l with
      | nil => intro _; rfl
      | cons p l ih =>
        intro hl
        unfold searchName
        rw [if_neg (fun e => hl p (by simp) (by rw [e]; exact h1))]
        exact ih (fun q hq => hl q (by simp [hq]))
    exact key _ h2

/-- A name table with a short range between multiples of 32, and a long range after it. -/
def skipNames : Names :=
  ⟨⟨[], []⟩, [⟨2, List.replicate 32 [65]⟩],
    [⟨0x85, 0x8A, 0, 4, 0, codes "A-", [], []⟩, ⟨0x100, 0x200, 0, 4, 0, codes "B-", [], []⟩]⟩

/-- C51, what is missing. Groups and ranges are sorted and disjoint, but the steps of 32 miss the first range; and as the
iteration then waits for that range for ever, all ranges after it are missed too. -/
theorem nameIterator_skips_refuted :
    (skipNames.groups.Pairwise fun a b => a.msb < b.msb) ∧ (skipNames.ranges.Pairwise fun a b => a.stop ≤ b.start) ∧
    (∀ g ∈ skipNames.groups, ∀ r ∈ skipNames.ranges, g.msb * 32 + 32 ≤ r.start) ∧
    skipNames.getCharName 0x85 0 = .ok (codes "A-0085") ∧ skipNames.getCharName 0x180 0 = .ok (codes "B-0180") ∧
    (∀ p ∈ (skipNames.nameIterator 0).items, p.1 < 0x60) ∧
    skipNames.charFromName (codes "B-0180") 0 = .ok 0xFFFFFFFF := by
  have f1 : skipNames.ranges.find? (·.charInRange 0x85) = some ⟨0x85, 0x8A, 0, 4, 0, codes "A-", [], []⟩ := by decide
  have f2 : skipNames.ranges.find? (·.charInRange 0x180) = some ⟨0x100, 0x200, 0, 4, 0, codes "B-", [], []⟩ := by decide
  refine ⟨by decide, by decide, by decide, ?_, ?_, by decide +kernel, by decide +kernel⟩
  · unfold Names.getCharName
    rw [f1]
    decide +kernel
  · unfold Names.getCharName
    rw [f2]
    decide +kernel

/-- C51, what is missing. Without algorithmic ranges the iteration fails. -/
theorem nameIterator_no_ranges (N : Names) (nc : Nat) (h : N.ranges = []) :
    N.nameIterator nc = .raise .indexError := by
  unfold Names.nameIterator
  rw [h]
  cases N.groups.getLast? <;> rfl

/-! ## Extended names -/

/-- C73. The category used for extended names is that of noncharacters, of leading or trailing surrogates, or else the general
category. -/
theorem charCat_spec (c v : Nat) (hc : c ≤ 0x10FFFF) (hv : Char.getGeneralCategory c = .ok v) :
    getCharCat c = .ok (
      if (0xFDD0 ≤ c ∧ c ≤ 0xFDEF) ∨ c % 0x10000 ≥ 0xFFFE then 30
      else if v = 18 then (if 0xD800 ≤ c ∧ c ≤ 0xDBFF then 31 else 32)
      else v) := by
  have hn : (Utilities.isUnicodeNoncharacter (c : Int) = true) ↔ ((0xFDD0 ≤ c ∧ c ≤ 0xFDEF) ∨ c % 0x10000 ≥ 0xFFFE) := by
    rw [Utilities.Props.noncharacter_iff]
    constructor
    · rintro (h | ⟨p, h0, h1, h2⟩)
      · exact .inl (by omega)
      · exact .inr (by omega)
    · rintro (h | h)
      · exact .inl (by omega)
      · exact .inr ⟨(c / 0x10000 : Nat), by omega, by omega, by omega⟩
  have hl := (Utilities.Props.surrogate_predicates (c := (c : Int)) ⟨by omega, by omega⟩).2.1
  have hl' : (Utilities.isLead (c : Int) = true) ↔ 0xD800 ≤ c ∧ c ≤ 0xDBFF := by rw [hl]; omega
  unfold getCharCat
  by_cases h1 : (0xFDD0 ≤ c ∧ c ≤ 0xFDEF) ∨ c % 0x10000 ≥ 0xFFFE
  · rw [if_pos h1, if_pos (hn.mpr h1)]
    rfl
  · rw [if_neg h1, if_neg (fun h => h1 (hn.mp h)), hv]
    simp only [bind, Except.bind]
    by_cases h2 : v = 18
    · rw [if_pos h2, if_pos (show v = GC_SURROGATE from h2)]
      by_cases h3 : 0xD800 ≤ c ∧ c ≤ 0xDBFF
      · rw [if_pos h3, if_pos (hl'.mpr h3)]; rfl
      · rw [if_neg h3, if_neg (fun h => h3 (hl'.mp h))]; rfl
    · rw [if_neg h2, if_neg (show ¬ v = GC_SURROGATE from h2)]

example : ∃ v, Char.getGeneralCategory 0xD801 = .ok v := ⟨_, Char.getGeneralCategory_eq _⟩

theorem charCat_named (c : Nat) : ∃ k, getCharCat c = .ok k ∧ k < charCatNames.length := by
  have hlen : charCatNames.length = 33 := rfl
  unfold getCharCat
  rw [hlen, Char.getGeneralCategory_eq]
  have := Char.gcOf_lt c
  simp only [bind, Except.bind]
  split
  · exact ⟨_, rfl, by decide⟩
  · split
    · refine ⟨_, rfl, ?_⟩
      split <;> decide
    · exact ⟨_, rfl, by omega⟩

/-- C73. Every code outside the algorithmic ranges has an extended name: a category with a name of its own, and the code in
hexadecimal with at least four digits. -/
theorem extendedName_total (N : Names) (c : Nat) (hr : ∀ r ∈ N.ranges, ¬ (r.start ≤ c ∧ c < r.stop)) :
    ∃ cat ∈ charCatNames, N.getCharName c 2 = .ok (codes "<" ++ codes cat ++ codes "-" ++ paddedHex 4 c ++ codes ">") := by
  have hf : N.ranges.find? (·.charInRange c) = none := by
    apply List.find?_eq_none.mpr
    intro r hr'
    rw [charInRange_iff]
    exact hr r hr'
  obtain ⟨k, hk, hlt⟩ := charCat_named c
  refine ⟨charCatNames.getD k "", ?_, ?_⟩
  · rw [List.getD_eq_getElem?_getD, List.getElem?_eq_getElem hlt]
    exact List.getElem_mem hlt
  · unfold Names.getCharName getCharCatName
    rw [hf, hk]
    simp only [U_EXTENDED_CHAR_NAME, if_true, bind, Except.bind]
    rw [if_neg (by omega)]

example : ∀ r ∈ demoNames.ranges, ¬ (r.start ≤ 0x41 ∧ 0x41 < r.stop) := by decide

theorem last_dash : ∀ (x x' y y' : Str), 45 ∉ y → 45 ∉ y' → x ++ 45 :: y = x' ++ 45 :: y' → y = y' := by
  intro x
  induction x with
  | nil =>
    intro x' y y' h h' e
    cases x' with
    | nil => simpa using e
    | cons a x' =>
      simp only [List.nil_append, List.cons_append, List.cons.injEq] at e
      exact absurd (by rw [e.2]; simp) h
  | cons a x ih =>
    intro x' y y' h h' e
    cases x' with
    | nil =>
      simp only [List.nil_append, List.cons_append, List.cons.injEq] at e
      exact absurd (by rw [← e.2]; simp) h'
    | cons b x' =>
      simp only [List.cons_append, List.cons.injEq] at e
      exact ih x' y y' h h' e.2

/-- C73. Different codes outside the algorithmic ranges have different extended names. -/
theorem extendedName_injective (N : Names) (c c' : Nat) (hr : ∀ r ∈ N.ranges, ¬ (r.start ≤ c ∧ c < r.stop))
    (hr' : ∀ r ∈ N.ranges, ¬ (r.start ≤ c' ∧ c' < r.stop)) (h : N.getCharName c 2 = N.getCharName c' 2) : c = c' := by
  obtain ⟨k, _, e⟩ := extendedName_total N c hr
  obtain ⟨k', _, e'⟩ := extendedName_total N c' hr'
  rw [e, e'] at h
  injection h with h
  have h := List.append_cancel_right h
  have dash : codes "-" = [45] := by decide
  rw [dash, List.append_assoc, List.append_assoc _ [45]] at h
  have no : ∀ n, 45 ∉ paddedHex 4 n := fun n hm => by have := paddedHex_range 4 n 45 hm; omega
  exact paddedHex_inj (last_dash _ _ _ _ (no c) (no c') h)

end Verif.CharNames.Props

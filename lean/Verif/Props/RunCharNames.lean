import Verif.Lemmas.NamesWorld
import Verif.Lemmas.RunNameIter
import Verif.Props.NamesData
/-!
# CharNames.py, executed from its text (C139)

The theorems of C49, C50, C53, C73 and C81 are about `Model/CharNames`, which was written by hand. Here the text of CharNames.py and of the modules
that it imports are parsed and executed by the model of Python, and the model by hand is what comes out.
-/
namespace Verif.PyRun.Names
open Verif.PySyntax Verif.Library Verif.Data
open Verif.CharNames (Names Group AlgorithmicRange)

/-- The strings of the names are made of bytes. -/
structure Bytes (N : Names) : Prop where
  strings : ∀ b ∈ N.tokens.strings, b < 256
  groups : ∀ g ∈ N.groups, ∀ s ∈ g.strings, ∀ b ∈ s, b < 256

theorem bounded {α : Type} (f : α → Nat) (l : List α) : ∃ n, ∀ a ∈ l, f a < n := by
  induction l with
  | nil => exact ⟨0, fun _ h => nomatch h⟩
  | cons a l ih =>
    obtain ⟨n, h⟩ := ih
    refine ⟨f a + n + 1, fun b hb => ?_⟩
    rcases List.mem_cons.1 hb with rfl | hb
    · omega
    · have := h b hb; omega

theorem sized {N : Names} (B : Bytes N) : ∃ n₀, ∀ n, n₀ ≤ n → Sized N n := by
  obtain ⟨k, hk⟩ := bounded List.length (N.groups.flatMap Group.strings)
  refine ⟨N.tokens.strings.length + N.groups.length + k + 1, fun n hn => ⟨B.strings, by omega, by omega, fun g hg s hs => ⟨B.groups g hg s hs, ?_⟩⟩⟩
  have := hk s (List.mem_flatMap.2 ⟨g, hg, hs⟩)
  omega

theorem deeper {N : Names} {n k : Nat} (S : Sized N n) : Sized N (n + k) :=
  ⟨S.strings, Nat.lt_add_right k S.tokens, Nat.lt_add_right k S.groups, fun g hg s hs => ⟨(S.group g hg s hs).1, Nat.lt_add_right k (S.group g hg s hs).2⟩⟩

/-- C139. The import of CharNames.py with the data `N` succeeds, and its class methods and the methods of the groups and the ranges, executed from the
text with any recursion limit from some number on, return or raise what the model says, for all arguments. -/
theorem text_methods (N : Names) (B : Bytes N) : (∃ b, parse (textOf Source.CharNames) = some b) ∧ ∃ w, charNames N = .ok w ∧ ∃ n₀, ∀ n, n₀ ≤ n → ∀ c ch : Nat,
    let call := fun (o : Val) (f : Nat) (args : List Val) => callMethod w (run w n) o f (chain args)
    let names := Val.cls (n% "CharNames") (n% "CharNames")
    call names (n% "getCharName") [.int c, .int ch] = lift ((N.getCharName c ch).map .str) ∧
    call names (n% "getCharName") [.int c] = lift ((N.getCharName c 0).map .str) ∧
    call names (n% "_getName") [.int c, .int ch] = lift ((N.groupName c ch).map .str) ∧
    call names (n% "getGroup") [.int c] = lift ((CharNames.getGroup N.groups c).map groupValue) ∧
    call names (n% "getCharCat") [.int c] = lift ((CharNames.getCharCat c).map fun (e : Nat) => .int (e : Int)) ∧
    call names (n% "getCharCatName") [.int c] = lift ((CharNames.getCharCatName c).map .str) ∧
    (∀ g ∈ N.groups, call (groupObject g) (n% "expandName") [.int c, .int ch] = lift ((g.expandName N.tokens c ch).map .str)) ∧
    (∀ r : AlgorithmicRange, call (rangeObject r) (n% "charInRange") [.int c] = .ok (.bool (r.charInRange c))) ∧
    (∀ r : AlgorithmicRange, r.start ≤ c → call (rangeObject r) (n% "factorSuffix") [.int c] = lift ((r.factorSuffix c).map .str)) ∧
    (∀ r : AlgorithmicRange, r.start ≤ c → call (rangeObject r) (n% "getName") [.int c, .int ch] = lift ((r.getName c ch).map .str)) := by
  refine ⟨⟨_, parse_CharNames⟩, _, charNames_ok N, ?_⟩
  obtain ⟨n₀, h⟩ := sized B
  have H := complete N
  refine ⟨n₀ + 8, fun n hn c ch => ?_⟩
  obtain ⟨n, rfl⟩ : ∃ k, n = k + 8 := ⟨n - 8, by omega⟩
  have S := h n (by omega)
  exact ⟨getCharName_run H S c ch, getCharName_default H S c, groupName_run H.names (deeper (k := 5) S) c ch,
    getGroup_run H.names (n := n + 7) c (Nat.lt_add_right 7 S.groups), getCharCat_run H c (n + 3), getCharCatName_run H c (n + 2),
    fun g hg => expandName_run H.names S.strings (n := n + 6) g c ch (Nat.lt_add_right 6 S.tokens) ((deeper (k := 6) S).group g hg),
    fun r => charInRange_run H.names (n := n + 7) r c, fun r hr => factorSuffix_run H.names (n := n + 7) r c hr,
    fun r hr => getName_run H.names (n := n + 6) r c ch hr⟩

/-- C139. `Tokens.expandString`, which is given the bytes of any string. -/
theorem text_expandString (N : Names) (B : Bytes N) (s : List Nat) (hs : ∀ b ∈ s, b < 256) : ∃ w, charNames N = .ok w ∧ ∃ n₀, ∀ n, n₀ ≤ n → ∀ ch : Nat,
    callMethod w (run w n) (.cls (n% "CharNames") (n% "Tokens")) (n% "expandString") (chain [bytes s, .int ch]) = lift ((N.tokens.expandString s ch).map .str) := by
  refine ⟨_, charNames_ok N, N.tokens.strings.length + s.length + 2, fun n hn ch => ?_⟩
  obtain ⟨n, rfl⟩ : ∃ k, n = k + 1 := ⟨n - 1, by omega⟩
  exact expandString_run (imported N) B.strings (by omega) hs (.inl rfl) (by omega)

theorem slice_mem {α : Type} {l : List α} {i j : Nat} {a : α} (h : a ∈ Verif.slice l i j) : a ∈ l := List.mem_of_mem_drop (List.mem_of_mem_take h)

theorem readGroups_bytes {s : ICUData.State} (hb : ∀ b ∈ s.fileData, b < 256) {start : Nat} : ∀ {n p : Nat} {gs : List Group}, CharNames.readGroups s start n p = .ok gs →
    ∀ g ∈ gs, ∀ t ∈ g.strings, ∀ b ∈ t, b < 256 := by
  intro n
  induction n with
  | zero => intro p gs h; cases h; exact fun _ h => nomatch h
  | succ n ih =>
    intro p gs h
    rw [CharNames.readGroups] at h
    cases h1 : CharNames.readGroup s p start with
    | error e => rw [h1] at h; cases h
    | ok g =>
      rw [h1] at h
      simp only [bind, Except.bind] at h
      split at h
      · cases h
      rename_i gs' h2
      cases h
      intro g' hg'
      rcases List.mem_cons.1 hg' with rfl | hg'
      · unfold CharNames.readGroup at h1
        simp only [bind, Except.bind] at h1
        split at h1
        · cases h1
        split at h1
        · cases h1
        cases h1
        intro t ht b hb'
        obtain ⟨o, _, rfl⟩ := List.mem_map.1 ht
        exact hb b (slice_mem hb')
      · exact ih h2 g' hg'

/-- The names that are read from a file of bytes. -/
theorem populate_bytes {s : ICUData.State} (hb : ∀ b ∈ s.fileData, b < 256) {N : Names} (h : CharNames.populateData s = .ok N) : Bytes N := by
  unfold CharNames.populateData at h
  simp only [bind, Except.bind] at h
  repeat' split at h
  all_goals first | (cases h; done) | skip
  cases h
  exact ⟨fun b h => hb b (slice_mem h), readGroups_bytes hb (by assumption)⟩

open Verif.CharNames.Spec Verif.CharNames.Props Verif.ICUData Verif.ICUData.Props Verif.ICUData.Spec in
/-- C139. So, when `unames.icu` holds tokens, groups and ranges as in C81: `CharNames.getCharName(c)`, executed from the text with any recursion limit from
some number on, returns the name that the form of the range makes for a code point of a range, the text that the string stands for for one of a group,
and an empty text for the others. -/
theorem text_file {file : List Nat} (hbytes : ∀ b ∈ file, b < 256) {base : Nat} (hb : Body file (txt "unames.icu") base) {tokens words : List Nat}
    {groups : List GroupImage} {strings alg : Nat} {ranges : List RangeImage}
    (h : NamesBody file base tokens words groups strings alg ranges) (hne : groups ≠ [])
    (hg : groups.Pairwise fun a b => a.msb < b.msb) (hr : ranges.Pairwise fun a b => a.last < b.first) :
    ∃ N w, CharNames.populateData (construct file State.initial).1 = .ok N ∧ charNames N = .ok w ∧ ∃ n₀, ∀ n, n₀ ≤ n →
      let getCharName := fun c : Nat => callMethod w (run w n) (.cls (n% "CharNames") (n% "CharNames")) (n% "getCharName") (chain [.int c])
      (∀ r ∈ ranges, ∀ c, r.first ≤ c → c ≤ r.last → ∃ name, r.Name c name ∧ getCharName c = .ok (.str name)) ∧
      (∀ g ∈ groups, ∀ i string out, g.strings[i]? = some string → Expands ⟨tokens, words⟩ string out →
        (∀ r ∈ ranges, ¬ (r.first ≤ 32 * g.msb + i ∧ 32 * g.msb + i ≤ r.last)) → getCharName (32 * g.msb + i) = .ok (.str out)) ∧
      (∀ c, (∀ r ∈ ranges, ¬ (r.first ≤ c ∧ c ≤ r.last)) → (∀ g ∈ groups, c / 32 ≠ g.msb) → getCharName c = .ok (.str [])) := by
  obtain ⟨N, hp, c1, c2, c3⟩ := getCharName_file hb h hne hg hr
  have B : Bytes N := by
    obtain ⟨s, _, _, hc, hf, _, _⟩ := body_found hb
    rw [hc] at hp
    exact populate_bytes (s := s) (by rw [hf]; exact hbytes) hp
  obtain ⟨_, w, hw, n₀, q⟩ := text_methods N B
  refine ⟨N, w, hp, hw, n₀, fun n hn => ⟨fun r hr' c h1 h2 => ?_, fun g hg' i string out hs hx hc => ?_, fun c hc hc' => ?_⟩⟩
  · obtain ⟨name, h3, h4⟩ := c1 r hr' c h1 h2
    exact ⟨name, h3, ((q n hn c 0).2.1).trans (by rw [h4]; rfl)⟩
  · exact ((q n hn _ 0).2.1).trans (by rw [c2 g hg' i string out hs hx hc]; rfl)
  · exact ((q n hn c 0).2.1).trans (by rw [c3 c hc hc']; rfl)

/-- C139. The pairs of the iterators, consumed to the end, executed from the text with any recursion limit from some number on: the pairs that the model
yields, or its exception. -/
theorem text_iterators (N : Names) (B : Bytes N) : ∃ w, charNames N = .ok w ∧ ∃ n₀, ∀ n, n₀ ≤ n →
    let call := fun (o : Val) (f : Nat) (args : List Val) => callMethod w (run w n) o f (chain args)
    let names := Val.cls (n% "CharNames") (n% "CharNames")
    let listed := fun x : Py (List (Nat × Str)) => lift (x.map fun l => .list (chain (l.map pair)))
    (∀ ch : Nat, call names (n% "nameIterator") [.int ch] = listed (toEnd (N.nameIterator ch))) ∧
    call names (n% "nameIterator") [] = listed (toEnd (N.nameIterator 0)) ∧
    (∀ ch : Nat, (N.nameIterator ch).err = none → ∀ name : Str,
      call names (n% "charFromName") [.str name, .int ch] = lift ((N.charFromName name ch).map fun (c : Nat) => .int (c : Int))) ∧
    ((N.nameIterator 0).err = none → ∀ name : Str,
      call names (n% "charFromName") [.str name] = lift ((N.charFromName name 0).map fun (c : Nat) => .int (c : Int))) := by
  refine ⟨_, charNames_ok N, ?_⟩
  obtain ⟨n₀, h⟩ := sized B
  have H := imported N
  refine ⟨n₀ + rounds N + 6, fun n hn => ?_⟩
  obtain ⟨n, rfl⟩ : ∃ k, n = k + 5 := ⟨n - 5, by omega⟩
  have S := h n (by omega)
  exact ⟨fun ch => nameIterator_run H (n := n + 1) (deeper S) (by omega) ch, nameIterator_default H (n := n + 1) (deeper S) (by omega),
    fun ch he name => charFromName_run H S (by omega) name ch he, fun he name => charFromName_default H S (by omega) name he⟩

open Verif.CharNames.Spec Verif.CharNames.Props in
/-- C139. So, for a well-formed name table as in C51 and C52: what `CharNames.nameIterator` yields, executed from the text, is in ascending order of the
codes and is exactly the pairs of a code and its non-empty name that `getCharName` returns, executed from the text; and `charFromName` returns the first
code with the name, or `0xFFFFFFFF`. -/
theorem text_names (N : Names) (B : Bytes N) (nc : Nat) (hnc : nc ≠ 2) (W : WellFormed N nc) : ∃ w, charNames N = .ok w ∧ ∃ n₀, ∀ n, n₀ ≤ n →
    let call := fun (f : Nat) (args : List Val) => callMethod w (run w n) (.cls (n% "CharNames") (n% "CharNames")) f (chain args)
    let named := fun (c : Nat) (name : Str) => call (n% "getCharName") [.int c, .int nc] = .ok (.str name)
    (∃ l : List (Nat × Str), call (n% "nameIterator") [.int nc] = .ok (.list (chain (l.map pair))) ∧ l.Pairwise (fun x y => x.1 < y.1) ∧
      ∀ c name, (c, name) ∈ l ↔ named c name ∧ name ≠ []) ∧
    (∀ c name, name ≠ [] → named c name → (∀ c', named c' name → c ≤ c') → call (n% "charFromName") [.str name, .int nc] = .ok (.int c)) ∧
    (∀ name, name = [] ∨ (∀ c, ¬ named c name) → call (n% "charFromName") [.str name, .int nc] = .ok (.int (0xFFFFFFFF : Nat))) := by
  obtain ⟨he, hs, hm⟩ := nameIterator_complete_partial N nc hnc W
  obtain ⟨_, w, hw, n₀, q⟩ := text_methods N B
  obtain ⟨w', hw', n₁, q'⟩ := text_iterators N B
  obtain rfl : w = w' := Except.ok.inj (hw.symm.trans hw')
  refine ⟨w, hw, n₀ + n₁, fun n hn => ?_⟩
  have q := q n (by omega)
  have q' := q' n (by omega)
  have named : ∀ (c : Nat) (name : Str), callMethod w (run w n) (.cls (n% "CharNames") (n% "CharNames")) (n% "getCharName") (chain [.int c, .int nc]) = .ok (.str name) ↔
      N.getCharName c nc = .ok name := fun c name => by
    rw [show callMethod w (run w n) (.cls (n% "CharNames") (n% "CharNames")) (n% "getCharName") (chain [.int (c : Nat), .int (nc : Nat)]) = _ from (q c nc).1]
    cases N.getCharName c nc with
    | error e => exact ⟨fun h => (nomatch h), fun h => (nomatch h)⟩
    | ok s => exact ⟨fun h => by cases h; rfl, fun h => by cases h; rfl⟩
  dsimp only
  simp only [named]
  refine ⟨⟨_, (q'.1 nc).trans (by rw [toEnd, he]; rfl), hs, hm⟩, fun c name h1 h2 h3 => ?_, fun name h => ?_⟩
  · exact (q'.2.2.1 nc he name).trans (by rw [(charFromName_first_partial N nc hnc W name).1 c h1 h2 h3]; rfl)
  · exact (q'.2.2.1 nc he name).trans (by rw [(charFromName_first_partial N nc hnc W name).2 h]; rfl)

open Verif.CharNames.Props in
/-- The hypotheses of `text_names` are met by the table of C51. -/
example : Bytes demoNames ∧ Verif.CharNames.Spec.WellFormed demoNames 0 := ⟨⟨by decide +kernel, by decide +kernel⟩, demoNames_ok⟩

/-- A token, a group with one string that has two fields, and a range. -/
def demo : Names := ⟨⟨[0xFFFF, 0], CharNames.codes "CAPITAL" ++ [0]⟩, [⟨2, [[], [1, 32, 65, 59, 66]]⟩], [⟨0x4E00, 0x9FFD, 0, 4, 0, CharNames.codes "CJK-", [], []⟩]⟩

theorem demo_bytes : Bytes demo := ⟨by decide, by decide⟩

/-- A name with a word, the other name in the string, an algorithmic name, a label, and no name. -/
example : ∃ w n₀, charNames demo = .ok w ∧ ∀ n, n₀ ≤ n →
    let getCharName := fun args => callMethod w (run w n) (.cls (n% "CharNames") (n% "CharNames")) (n% "getCharName") (chain args)
    getCharName [.int 65] = .ok (.str (CharNames.codes "CAPITAL A")) ∧ getCharName [.int 65, .int 1] = .ok (.str (CharNames.codes "B")) ∧
    getCharName [.int 0x4E00] = .ok (.str (CharNames.codes "CJK-4E00")) ∧
    getCharName [.int 0xFFFE, .int 2] = .ok (.str (CharNames.codes "<noncharacter-FFFE>")) ∧ getCharName [.int 32] = .ok (.str []) := by
  obtain ⟨_, w, hw, n₀, q⟩ := text_methods demo demo_bytes
  refine ⟨w, n₀, hw, fun n hn => ⟨(q n hn 65 0).2.1.trans ?_, (q n hn 65 1).1.trans ?_, (q n hn 0x4E00 0).2.1.trans ?_, (q n hn 0xFFFE 2).1.trans ?_,
    (q n hn 32 0).2.1.trans ?_⟩⟩ <;> decide +kernel

open Verif.CharNames.Props in
/-- The hypotheses of `text_file` are met by the file of C81: it is made of bytes. -/
example : ∀ b ∈ demoFile, b < 256 := by decide +kernel

end Verif.PyRun.Names

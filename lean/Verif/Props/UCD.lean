import Verif.Model.UCD
import Verif.Spec.UCD
import Verif.Lemmas.Trie2Enum
/-!
# Character records of the UCD (C56, C57, C75, C76)
-/
namespace Verif.UCD.Props
open Verif.UCD.Spec

/-! ## Attributes -/

theorem lookup_mem : ∀ {e : Element} {p v : Str}, e.lookup p = some v → (p, v) ∈ e := by
  intro e
  induction e with
  | nil => intro p v h; simp at h
  | cons x e ih =>
    intro p v h
    obtain ⟨a, b⟩ := x
    rw [List.lookup_cons] at h
    by_cases hp : p = a
    · subst hp
      simp at h
      simp [h]
    · rw [show (p == a) = false by simpa using hp] at h
      exact List.mem_cons_of_mem _ (ih h)

theorem lookup_none : ∀ {e : Element} {p : Str}, e.lookup p = none → ∀ w, (p, w) ∉ e := by
  intro e
  induction e with
  | nil => intro p _ w h; simp at h
  | cons x e ih =>
    intro p h w hm
    obtain ⟨a, b⟩ := x
    rw [List.lookup_cons] at h
    by_cases hp : p = a
    · subst hp; simp at h
    · rw [show (p == a) = false by simpa using hp] at h
      rcases List.mem_cons.mp hm with h1 | h1
      · injection h1 with h1 h2; exact hp h1
      · exact ih h w h1

theorem unique_value {e : Element} (hu : UniqueKeys e) {p v w : Str} (h1 : (p, v) ∈ e) (h2 : (p, w) ∈ e) : v = w := by
  unfold UniqueKeys at hu
  induction e with
  | nil => simp at h1
  | cons x e ih =>
    rw [List.map_cons, List.nodup_cons] at hu
    rcases List.mem_cons.mp h1 with h1 | h1 <;> rcases List.mem_cons.mp h2 with h2 | h2
    · rw [← h1] at h2; injection h2 with _ h2; exact h2.symm
    · rw [← h1] at hu; exact absurd (List.mem_map.mpr ⟨_, h2, rfl⟩) hu.1
    · rw [← h2] at hu; exact absurd (List.mem_map.mpr ⟨_, h1, rfl⟩) hu.1
    · exact ih hu.2 h1 h2

theorem value_iff {char group : Element} (hc : UniqueKeys char) (hg : UniqueKeys group) (p v : Str) :
    charProperty char group p = v ↔ Value char group p v := by
  unfold charProperty Value
  cases h : char.lookup p with
  | some x =>
    have hm := lookup_mem h
    constructor
    · intro e; subst e; exact .inl hm
    · rintro (h1 | ⟨h1, _⟩)
      · exact unique_value hc hm h1
      · exact absurd hm (h1 x)
  | none =>
    have hn := lookup_none h
    cases h' : group.lookup p with
    | some y =>
      have hm := lookup_mem h'
      simp only [Option.getD_some]
      constructor
      · intro e; subst e; exact .inr ⟨hn, .inl hm⟩
      · rintro (h1 | ⟨_, h1 | ⟨h1, _⟩⟩)
        · exact absurd h1 (hn v)
        · exact unique_value hg hm h1
        · exact absurd hm (h1 y)
    | none =>
      have hn' := lookup_none h'
      simp only [Option.getD_none]
      constructor
      · intro e; exact .inr ⟨hn, .inr ⟨hn', e.symm⟩⟩
      · rintro (h1 | ⟨_, h1 | ⟨_, h1⟩⟩)
        · exact absurd h1 (hn v)
        · exact absurd h1 (hn' v)
        · exact h1.symm

/-- C56. A property is the attribute of the char element, else that of the group element, else empty. -/
theorem getCharProperty_value (u : UCDProperties) (hc : UniqueKeys u.char) (hg : UniqueKeys u.group) (p v : Str) :
    u.getCharProperty p = v ↔ Value u.char u.group p v := value_iff hc hg p v

/-- C56. A Boolean property holds when its value is `Y`. -/
theorem getBooleanProperty_iff (u : UCDProperties) (hc : UniqueKeys u.char) (hg : UniqueKeys u.group) (p : Str) :
    u.getBooleanProperty p = true ↔ Value u.char u.group p [89] := by
  rw [← value_iff hc hg]
  unfold UCDProperties.getBooleanProperty UCDProperties.getCharProperty
  rw [beq_iff_eq]
  rfl

/-- An element that overrides one attribute of its group. -/
def demoChar : Element := [(txt "cp", txt "0041"), (txt "slc", txt "0061"), (txt "Upper", txt "Y")]
def demoGroup : Element := [(txt "Upper", txt "N"), (txt "sc", txt "Latn"), (txt "uc", txt "#"), (txt "dm", txt "0041 030A")]

example : UniqueKeys demoChar ∧ UniqueKeys demoGroup ∧ Value demoChar demoGroup (txt "Upper") (txt "Y") ∧
    Value demoChar demoGroup (txt "sc") (txt "Latn") ∧ Value demoChar demoGroup (txt "stc") [] :=
  ⟨by unfold UniqueKeys; decide, by unfold UniqueKeys; decide, .inl (by decide), .inr ⟨fun w h => by simp [demoChar, txt] at h, .inl (by decide)⟩,
    .inr ⟨fun w h => by simp [demoChar, txt] at h, .inr ⟨fun w h => by simp [demoGroup, txt] at h, rfl⟩⟩⟩

/-! ## Numerals -/

theorem isDigit_space {c d : Nat} (h : IsDigit c d) : isSpace c = false ∧ c ≠ 95 ∧ c ≠ 43 ∧ c ≠ 45 ∧ c ≠ 32 ∧ c ≠ 35 ∧ c ≠ 120 ∧ c ≠ 88 ∧
    digitOf c = some d := by
  have h' : (d < 10 ∧ c = 48 + d) ∨ (10 ≤ d ∧ d < 16 ∧ (c = 55 + d ∨ c = 87 + d)) := by
    unfold IsDigit at h; omega
  have ha : ∀ c : Fin 128, isSpace c.val = true → c.val < 48 := by decide
  have hs : isSpace c = false := by
    cases hh : isSpace c with
    | false => rfl
    | true =>
      have := ha ⟨c, by omega⟩ hh
      simp only at this
      omega
  refine ⟨hs, by omega, by omega, by omega, by omega, by omega, by omega, by omega, ?_⟩
  unfold digitOf
  rcases h' with ⟨h1, h2⟩ | ⟨h1, h2, h3 | h3⟩
  · rw [if_pos (by omega)]; congr 1; omega
  · rw [if_neg (by omega), if_neg (by omega), if_pos (by omega)]; congr 1; omega
  · rw [if_neg (by omega), if_pos (by omega)]; congr 1; omega

theorem numeral_digits {base : Nat} {s : Str} {n : Nat} (h : Numeral base s n) : ∀ c ∈ s, ∃ d, IsDigit c d := by
  induction h with
  | one h _ => intro c hc; rw [List.mem_singleton] at hc; subst hc; exact ⟨_, h⟩
  | snoc _ h _ ih =>
    intro c hc
    rcases List.mem_append.mp hc with hc | hc
    · exact ih c hc
    · rw [List.mem_singleton] at hc; subst hc; exact ⟨_, h⟩

theorem numeral_ne {base : Nat} {s : Str} {n : Nat} (h : Numeral base s n) : s ≠ [] := by
  cases h <;> simp

/-- Digits followed by more digits. -/
theorem digitsLoop_append {base : Nat} {s : Str} {n : Nat} (h : Numeral base s n) :
    ∀ (p : Prev) (rest : Str), digitsLoop base p 0 (s ++ rest) = digitsLoop base .digit n rest := by
  induction h with
  | @one c d h hd =>
    intro p rest
    obtain ⟨_, h95, _, _, _, _, _, _, hdig⟩ := isDigit_space h
    rw [List.singleton_append]
    conv => lhs; unfold digitsLoop
    rw [if_neg h95, hdig]
    simp only
    rw [if_pos hd]
    simp
  | @snoc s n c d _ h hd ih =>
    intro p rest
    obtain ⟨_, h95, _, _, _, _, _, _, hdig⟩ := isDigit_space h
    rw [List.append_assoc, ih, List.singleton_append]
    conv => lhs; unfold digitsLoop
    rw [if_neg h95, hdig]
    simp only
    rw [if_pos hd]

theorem strip_id {s : Str} (h : ∀ c ∈ s, isSpace c = false) : strip s = s := by
  have key : ∀ l : Str, (∀ c ∈ l, isSpace c = false) → l.dropWhile isSpace = l := by
    intro l hl
    cases l with
    | nil => rfl
    | cons c l => rw [List.dropWhile_cons, if_neg (by simp [hl c (by simp)])]
  unfold strip
  rw [key s h, key s.reverse (fun c hc => h c (List.mem_reverse.mp hc)), List.reverse_reverse]

/-- `int` of a numeral. -/
theorem pyInt_numeral {base : Nat} {s : Str} {n : Nat} (h : Numeral base s n) : pyInt base s = .ok (n : Int) := by
  have hs := numeral_digits h
  have hu : unsigned base s = .ok n := by
    have hd : digitsLoop base .start 0 s = .ok n := by
      have := digitsLoop_append h .start []
      rw [List.append_nil] at this
      rw [this]
      rfl
    unfold unsigned
    split
    · rename_i x cs
      obtain ⟨d, hx⟩ := hs x (by simp)
      obtain ⟨_, _, _, _, _, _, h1, h2, _⟩ := isDigit_space hx
      rw [if_neg (by rintro ⟨_, h | h⟩; exact h1 h; exact h2 h)]
      exact hd
    · exact hd
  unfold pyInt
  rw [strip_id (fun c hc => by obtain ⟨d, hd⟩ := hs c hc; exact (isDigit_space hd).1)]
  split
  · obtain ⟨d, hx⟩ := hs 45 (by simp)
    exact absurd rfl (isDigit_space hx).2.2.2.1
  · obtain ⟨d, hx⟩ := hs 43 (by simp)
    exact absurd rfl (isDigit_space hx).2.2.1
  · rw [hu]; rfl

example : Numeral 16 (txt "1F6aA") 0x1F6AA :=
  .snoc (.snoc (.snoc (.snoc (.one (c := 49) (d := 1) (by unfold IsDigit; omega) (by decide)) (c := 70) (d := 15) (by unfold IsDigit; omega) (by decide)) (c := 54) (d := 6) (by unfold IsDigit; omega) (by decide)) (c := 97) (d := 10) (by unfold IsDigit; omega) (by decide)) (c := 65) (d := 10) (by unfold IsDigit; omega) (by decide)

/-! ## Lists of code points -/

theorem splitOn_join {sep : Nat} : ∀ (fields : List Str), fields ≠ [] → (∀ f ∈ fields, sep ∉ f) →
    splitOn sep ([sep].intercalate fields) = fields := by
  have hne : ∀ l, splitOn sep l ≠ [] := by
    intro l
    cases l with
    | nil => simp [splitOn]
    | cons x xs =>
      unfold splitOn
      split
      · simp
      · split <;> simp
  have key : ∀ (f rest g : Str) (gs : List Str), sep ∉ f → splitOn sep rest = g :: gs →
      splitOn sep (f ++ rest) = (f ++ g) :: gs := by
    intro f
    induction f with
    | nil => intro rest g gs _ h; exact h
    | cons c cs ih =>
      intro rest g gs h0 h
      have h1 := ih rest g gs (fun hx => h0 (by simp [hx])) h
      rw [List.cons_append]
      conv => lhs; unfold splitOn
      rw [if_neg (fun e => h0 (by simp [e])), h1]
      rfl
  intro fields
  induction fields with
  | nil => intro h; exact absurd rfl h
  | cons f fs ih =>
    intro _ hf
    have h59 := hf f (by simp)
    have hfs : ∀ x ∈ fs, sep ∉ x := fun x hx => hf x (by simp [hx])
    cases fs with
    | nil =>
      have : [sep].intercalate [f] = f ++ [] := by simp [List.intercalate, List.intersperse]
      rw [this, key f [] [] [] h59 rfl]
      simp
    | cons f2 fs =>
      have e : [sep].intercalate (f :: f2 :: fs) = f ++ (sep :: [sep].intercalate (f2 :: fs)) := by
        simp [List.intercalate, List.intersperse]
      have h2 := ih (by simp) hfs
      have h3 : splitOn sep (sep :: [sep].intercalate (f2 :: fs)) = [] :: f2 :: fs := by
        conv => lhs; unfold splitOn
        rw [if_pos rfl, h2]
      rw [e, key f _ [] (f2 :: fs) h59 h3, List.append_nil]

theorem hexChr_numeral {h : Str} {c : Nat} (hn : Numeral 16 h c) (hc : c ≤ 0x10FFFF) : hexChr h = .ok c := by
  unfold hexChr
  rw [pyInt_numeral hn]
  simp only [bind, Except.bind, chr]
  rw [if_pos (by omega)]
  rfl

theorem map_numerals {hs : List Str} {cs : List Nat} (h : Numerals hs cs) : mapPy hexChr hs = .ok cs := by
  induction h with
  | nil => rfl
  | cons h1 h2 _ ih =>
    unfold mapPy
    rw [hexChr_numeral h1 h2, ih]
    rfl

theorem numerals_noSpace {hs : List Str} {cs : List Nat} (h : Numerals hs cs) : ∀ f ∈ hs, (32 ∉ f) ∧ f ≠ [] ∧ 35 ∉ f := by
  induction h with
  | nil => intro f hf; simp at hf
  | cons h1 _ _ ih =>
    intro f hf
    rcases List.mem_cons.mp hf with rfl | hf
    · refine ⟨fun hm => ?_, numeral_ne h1, fun hm => ?_⟩
      · obtain ⟨d, hd⟩ := numeral_digits h1 32 hm
        exact absurd rfl (isDigit_space hd).2.2.2.2.1
      · obtain ⟨d, hd⟩ := numeral_digits h1 35 hm
        exact absurd rfl (isDigit_space hd).2.2.2.2.2.1
    · exact ih f hf

/-- What a list of code points looks like and how it is read. -/
theorem list_parse {v : Str} {cs : List Nat} (h : ListOf v cs) : v ≠ [] ∧ v ≠ [35] ∧ mapPy hexChr (splitOn 32 v) = .ok cs := by
  obtain ⟨hs, hne, hn, rfl⟩ := h
  have hns := numerals_noSpace hn
  rw [splitOn_join hs hne (fun f hf => (hns f hf).1)]
  refine ⟨?_, ?_, map_numerals hn⟩
  all_goals
    cases hs with
    | nil => exact absurd rfl hne
    | cons f fs =>
      obtain ⟨h1, h2, h3⟩ := hns f (by simp)
      cases f with
      | nil => exact absurd rfl h2
      | cons c f =>
        cases fs with
        | nil =>
          intro e
          simp only [List.intercalate, List.intersperse, List.flatten_cons, List.flatten_nil, List.append_nil] at e
          first
          | (injection e with e1 e2; exact h3 (by simp [e1]))
          | exact absurd e (by simp)
        | cons f2 fs =>
          intro e
          simp only [List.intercalate, List.intersperse, List.flatten_cons, List.cons_append] at e
          first
          | (injection e with e1 e2; exact h3 (by simp [e1]))
          | exact absurd e (by simp)

/-- C57. `getCodePointsProperty` gives the characters that the attribute lists, and the character itself for the empty text
and `#`. -/
theorem getCodePointsProperty_maps (u : UCDProperties) (p : Str) (self : Nat) (cs : List Nat)
    (hcp : Numeral 16 u.cp self) (hself : self ≤ 0x10FFFF) (h : Maps (u.getCharProperty p) self cs) :
    u.getCodePointsProperty p = .ok cs := by
  unfold UCDProperties.getCodePointsProperty
  simp only
  rcases h with ⟨hv, rfl⟩ | h
  · rw [if_pos (by rcases hv with hv | hv <;> rw [hv]; exact .inl rfl; exact .inr rfl), hexChr_numeral hcp hself]
    rfl
  · obtain ⟨h1, h2, h3⟩ := list_parse h
    rw [if_neg (by
      rintro (h | h)
      · exact h1 (List.eq_nil_of_length_eq_zero h)
      · exact h2 h), h3]

example : ListOf (txt "0053 0073") [0x53, 0x73] :=
  ⟨[txt "0053", txt "0073"], by decide,
    .cons (.snoc (.snoc (.snoc (.one (c := 48) (d := 0) (by unfold IsDigit; omega) (by decide)) (c := 48) (d := 0) (by unfold IsDigit; omega) (by decide)) (c := 53) (d := 5) (by unfold IsDigit; omega) (by decide)) (c := 51) (d := 3) (by unfold IsDigit; omega) (by decide)) (by decide)
    (.cons (.snoc (.snoc (.snoc (.one (c := 48) (d := 0) (by unfold IsDigit; omega) (by decide)) (c := 48) (d := 0) (by unfold IsDigit; omega) (by decide)) (c := 55) (d := 7) (by unfold IsDigit; omega) (by decide)) (c := 51) (d := 3) (by unfold IsDigit; omega) (by decide)) (by decide) .nil), by decide⟩

/-- C57. `dmToString` gives the characters that the text lists. The empty text gives `None`; `#` gives `None` or, on
request, the character itself. -/
theorem dmToString_spec (u : UCDProperties) (flag : Bool) :
    (∀ dm cs, ListOf dm cs → u.dmToString dm flag = .ok (some cs)) ∧
    u.dmToString [] flag = .ok none ∧
    u.dmToString (txt "#") false = .ok none ∧
    (0 ≤ u.codePoint → u.codePoint ≤ 0x10FFFF → u.dmToString (txt "#") true = .ok (some [u.codePoint.toNat])) := by
  refine ⟨fun dm cs h => ?_, ?_, ?_, fun h0 h1 => ?_⟩
  · obtain ⟨h1, h2, h3⟩ := list_parse h
    have h2' : ¬ dm = txt "#" := h2
    unfold UCDProperties.dmToString
    rw [if_neg (fun h => h2' h.2), if_neg (by rintro (h | h); exact h1 h; exact h2' h), h3]
    rfl
  · unfold UCDProperties.dmToString
    rw [if_neg (by rintro ⟨_, h⟩; revert h; decide), if_pos (.inl rfl)]
  · unfold UCDProperties.dmToString
    rw [if_neg (by simp), if_pos (.inr rfl)]
  · unfold UCDProperties.dmToString
    rw [if_pos ⟨rfl, rfl⟩]
    unfold chr
    rw [if_pos ⟨h0, h1⟩]
    rfl

/-! ## Records -/

/-- The attributes of a character of the UCD. -/
structure Record (α : Type) (eval : Str → Py α) (char group : Element) where
  charKeys : UniqueKeys char
  groupKeys : UniqueKeys group
  /-- the code point and how it is written -/
  code : Nat
  text : Str
  cp : Value char group (txt "cp") text
  numeral : Numeral 16 text code
  inRange : code ≤ 0x10FFFF
  ccc : Nat
  cccText : Str
  hasCcc : Value char group (txt "ccc") cccText ∧ Numeral 10 cccText ccc
  /-- numeric value: `NaN` or something `eval` accepts -/
  numeric : Option α
  hasNumeric : (Value char group (txt "nv") (txt "NaN") ∧ numeric = none) ∨
    ∃ t v, Value char group (txt "nv") t ∧ t ≠ txt "NaN" ∧ eval t = .ok v ∧ numeric = some v
  /-- mirrored glyph: none or a code point -/
  glyph : Nat
  hasGlyph : (Value char group (txt "bmg") [] ∧ glyph = code) ∨ ∃ t, Value char group (txt "bmg") t ∧ Numeral 16 t glyph
  /-- paired bracket: `#` or a code point -/
  bracket : Nat
  hasBracket : (Value char group (txt "bpb") (txt "#") ∧ bracket = code) ∨ ∃ t, Value char group (txt "bpb") t ∧ Numeral 16 t bracket
  /-- the case mappings -/
  mapping : Str → List Nat
  hasMapping : ∀ p ∈ [txt "suc", txt "slc", txt "uc", txt "lc", txt "tc", txt "scf", txt "cf", txt "NFKC_CF"],
    ∃ t, Value char group p t ∧ Maps t code (mapping p)
  /-- the decompositions: nothing or a list -/
  decomp : Str → Option (List Nat)
  hasDecomp : ∀ p ∈ [txt "dm", txt "FC_NFKC"], ∃ t, Value char group p t ∧
    ((decomp p = none ∧ (t = [] ∨ t = txt "#")) ∨ ∃ cs, decomp p = some cs ∧ ListOf t cs)

theorem ucd_ok {α : Type} {eval : Str → Py α} {char group : Element} (R : Record α eval char group) :
    ucdProperties char group = .ok ⟨char, group, R.text, R.code⟩ := by
  unfold ucdProperties
  rw [(value_iff R.charKeys R.groupKeys _ _).mpr R.cp]
  simp only [pyInt_numeral R.numeral]
  rfl

/-- C75. The constructors accept every well-formed record, and all parts of the result have the code point of the record; the
parsed fields have the values of the record. -/
theorem characterData_total {α : Type} (eval : Str → Py α) (char group : Element) (R : Record α eval char group) :
    ∃ d : CharacterData α, characterData eval char group = .ok d ∧
      d.codePoint = R.code ∧ d.bidiProperties.codePoint = R.code ∧ d.caseProperties.codePoint = R.code ∧
      d.decompProperties.codePoint = R.code ∧ d.indicProperties.codePoint = R.code ∧ d.binaryProperties.codePoint = R.code ∧
      d.combiningClass = R.ccc ∧ d.numericValue = R.numeric ∧ d.bidiProperties.bidiMirroredGlyph = R.glyph ∧
      d.bidiProperties.bidiPairedBracket = R.bracket ∧
      d.caseProperties.simpleUpperCase = R.mapping (txt "suc") ∧ d.caseProperties.simpleLowerCase = R.mapping (txt "slc") ∧
      d.caseProperties.upperCase = R.mapping (txt "uc") ∧ d.caseProperties.lowerCase = R.mapping (txt "lc") ∧
      d.caseProperties.titleCase = R.mapping (txt "tc") ∧ d.caseProperties.simpleCaseFolding = R.mapping (txt "scf") ∧
      d.caseProperties.caseFolding = R.mapping (txt "cf") ∧ d.caseProperties.nkfcCasefold = R.mapping (txt "NFKC_CF") ∧
      d.decompProperties.nfkcCaseFolded.getD (R.mapping (txt "NFKC_CF")) = R.mapping (txt "NFKC_CF") ∧
      d.decompProperties.decomposition = R.decomp (txt "dm") ∧ d.decompProperties.nfkcFullClosure = R.decomp (txt "FC_NFKC") := by
  let u : UCDProperties := ⟨char, group, R.text, R.code⟩
  have hu : ucdProperties char group = .ok u := ucd_ok R
  have val : ∀ {p v}, Value char group p v → u.getCharProperty p = v := fun h => (value_iff R.charKeys R.groupKeys _ _).mpr h
  have hmap : ∀ p ∈ [txt "suc", txt "slc", txt "uc", txt "lc", txt "tc", txt "scf", txt "cf", txt "NFKC_CF"],
      u.getCodePointsProperty p = .ok (R.mapping p) := by
    intro p hp
    obtain ⟨t, h1, h2⟩ := R.hasMapping p hp
    exact getCodePointsProperty_maps u p R.code _ R.numeral R.inRange (by rw [val h1]; exact h2)
  have hdec : ∀ p ∈ [txt "dm", txt "FC_NFKC"], u.dmToString (u.getCharProperty p) false = .ok (R.decomp p) := by
    intro p hp
    obtain ⟨t, h1, h2⟩ := R.hasDecomp p hp
    rw [val h1]
    rcases h2 with ⟨h3, h4 | h4⟩ | ⟨cs, h3, h4⟩
    · rw [h4, h3]; exact (dmToString_spec u false).2.1
    · rw [h4, h3]; exact (dmToString_spec u false).2.2.1
    · rw [h3]; exact (dmToString_spec u false).1 t cs h4
  have hcf : ∃ o, u.dmToString (u.getCharProperty (txt "NFKC_CF")) true = .ok o ∧
      o.getD (R.mapping (txt "NFKC_CF")) = R.mapping (txt "NFKC_CF") := by
    obtain ⟨t, h1, h2⟩ := R.hasMapping (txt "NFKC_CF") (by simp)
    rw [val h1]
    rcases h2 with ⟨h3 | h3, h4⟩ | h3
    · exact ⟨none, by rw [h3]; exact (dmToString_spec u true).2.1, rfl⟩
    · refine ⟨some [R.code], ?_, by rw [h4]; rfl⟩
      rw [h3]
      have := (dmToString_spec u true).2.2.2 (by show (0 : Int) ≤ (R.code : Int); omega)
        (by show (R.code : Int) ≤ 0x10FFFF; have := R.inRange; omega)
      exact this
    · exact ⟨_, (dmToString_spec u true).1 t _ h3, rfl⟩
  obtain ⟨o, ho1, ho2⟩ := hcf
  have hccc : pyInt 10 (u.getCharProperty (txt "ccc")) = .ok (R.ccc : Int) := by
    rw [val R.hasCcc.1]; exact pyInt_numeral R.hasCcc.2
  have hglyph : u.codeOr [] (u.getCharProperty (txt "bmg")) = .ok (R.glyph : Int) := by
    unfold UCDProperties.codeOr
    rcases R.hasGlyph with ⟨h1, h2⟩ | ⟨t, h1, h2⟩
    · rw [val h1, if_pos rfl, h2]
    · rw [val h1, if_neg (numeral_ne h2), pyInt_numeral h2]
  have hbracket : u.codeOr (txt "#") (u.getCharProperty (txt "bpb")) = .ok (R.bracket : Int) := by
    unfold UCDProperties.codeOr
    rcases R.hasBracket with ⟨h1, h2⟩ | ⟨t, h1, h2⟩
    · rw [val h1, if_pos rfl, h2]
    · rw [val h1, if_neg (fun e => by
        obtain ⟨d, hd⟩ := numeral_digits h2 35 (by rw [e]; decide)
        exact absurd rfl (isDigit_space hd).2.2.2.2.2.1), pyInt_numeral h2]
  have hnum : numericOf eval (u.getCharProperty (txt "nv")) = .ok R.numeric := by
    unfold numericOf
    rcases R.hasNumeric with ⟨h1, h2⟩ | ⟨t, v, h1, h2, h3, h4⟩
    · rw [val h1, if_pos rfl, h2]
    · rw [val h1, if_neg h2, h3, h4]; rfl
  have hbidi : ∃ b, bidiProperties char group = .ok b ∧ b.codePoint = R.code ∧ b.bidiMirroredGlyph = R.glyph ∧
      b.bidiPairedBracket = R.bracket := by
    unfold bidiProperties
    rw [hu]
    simp only [bind, Except.bind]
    rw [hglyph]
    simp only
    rw [hbracket]
    exact ⟨_, rfl, rfl, rfl, rfl⟩
  have hcase : ∃ k, caseProperties char group = .ok k ∧ k.codePoint = R.code ∧
      k.simpleUpperCase = R.mapping (txt "suc") ∧ k.simpleLowerCase = R.mapping (txt "slc") ∧
      k.upperCase = R.mapping (txt "uc") ∧ k.lowerCase = R.mapping (txt "lc") ∧
      k.titleCase = R.mapping (txt "tc") ∧ k.simpleCaseFolding = R.mapping (txt "scf") ∧
      k.caseFolding = R.mapping (txt "cf") ∧ k.nkfcCasefold = R.mapping (txt "NFKC_CF") := by
    unfold caseProperties
    rw [hu]
    simp only [bind, Except.bind]
    rw [hmap (txt "suc") (by simp)]; simp only
    rw [hmap (txt "slc") (by simp)]; simp only
    rw [hmap (txt "uc") (by simp)]; simp only
    rw [hmap (txt "lc") (by simp)]; simp only
    rw [hmap (txt "tc") (by simp)]; simp only
    rw [hmap (txt "scf") (by simp)]; simp only
    rw [hmap (txt "cf") (by simp)]; simp only
    rw [hmap (txt "NFKC_CF") (by simp)]
    exact ⟨_, rfl, rfl, rfl, rfl, rfl, rfl, rfl, rfl, rfl, rfl⟩
  have hdecomp : ∃ k, decompProperties char group = .ok k ∧ k.codePoint = R.code ∧ k.decomposition = R.decomp (txt "dm") ∧
      k.nfkcFullClosure = R.decomp (txt "FC_NFKC") ∧ k.nfkcCaseFolded = o := by
    unfold decompProperties
    rw [hu]
    simp only [bind, Except.bind]
    rw [hdec (txt "dm") (by simp)]; simp only
    rw [hdec (txt "FC_NFKC") (by simp)]; simp only
    rw [ho1]
    exact ⟨_, rfl, rfl, rfl, rfl, rfl⟩
  obtain ⟨b, hb, hb1, hb2, hb3⟩ := hbidi
  obtain ⟨k, hk, hk0, hk1, hk2, hk3, hk4, hk5, hk6, hk7, hk8⟩ := hcase
  obtain ⟨e, he, he1, he2, he3, he4⟩ := hdecomp
  have hindic : ∃ k, indicProperties char group = .ok k ∧ k.codePoint = R.code := by
    unfold indicProperties
    rw [hu]
    exact ⟨_, rfl, rfl⟩
  have hbin : ∃ k, binaryProperties char group = .ok k ∧ k.codePoint = R.code := by
    unfold binaryProperties
    rw [hu]
    exact ⟨_, rfl, rfl⟩
  obtain ⟨i, hi, hi1⟩ := hindic
  obtain ⟨n, hn, hn1⟩ := hbin
  unfold characterData
  rw [hu]
  simp only [bind, Except.bind]
  rw [hccc]; simp only
  rw [hb]; simp only
  rw [hnum]; simp only
  rw [he]; simp only
  rw [hk]; simp only
  rw [hi]; simp only
  rw [hn]
  refine ⟨_, rfl, rfl, hb1, hk0, he1, hi1, hn1, rfl, rfl, hb2, hb3, hk1, hk2, hk3, hk4, hk5, hk6, hk7, hk8, ?_, he2, he3⟩
  simp only [he4]
  exact ho2

theorem replace_none {c : Nat} {t : Str} : ∀ {s : Str}, c ∉ s → replace c t s = s := by
  intro s
  induction s with
  | nil => intro _; rfl
  | cons x s ih =>
    intro h
    unfold replace
    rw [if_neg (fun e => h (by simp [e])), ih (fun hm => h (by simp [hm]))]
    rfl

theorem replace_append {c : Nat} {t : Str} : ∀ (a b : Str), replace c t (a ++ b) = replace c t a ++ replace c t b := by
  intro a
  induction a with
  | nil => intro b; rfl
  | cons x a ih =>
    intro b
    show (if x = c then t else [x]) ++ replace c t (a ++ b) = ((if x = c then t else [x]) ++ replace c t a) ++ replace c t b
    rw [ih, List.append_assoc]

theorem record_fields {α : Type} {eval : Str → Py α} {char group : Element} {d : CharacterData α}
    (h : characterData eval char group = .ok d) :
    ∃ u bi bn, ucdProperties char group = .ok u ∧ d.toUCDProperties = u ∧ bidiProperties char group = .ok bi ∧ d.bidiProperties = bi ∧
      binaryProperties char group = .ok bn ∧ d.binaryProperties = bn ∧
      d.name = replace 35 u.cp (u.getCharProperty (txt "na")) ∧
      d.scriptExtensions = splitOn 32 (u.getCharProperty (txt "scx")) ∧
      d.caseProperties.simpleTitleCase = u.getCharProperty (txt "stc") := by
  unfold characterData at h
  cases hu : ucdProperties char group with
  | error e => rw [hu] at h; cases h
  | ok u =>
    rw [hu] at h
    simp only [bind, Except.bind] at h
    cases h1 : pyInt 10 (u.getCharProperty (txt "ccc")) with
    | error e => rw [h1] at h; cases h
    | ok ccc =>
      rw [h1] at h; simp only at h
      cases h2 : bidiProperties char group with
      | error e => rw [h2] at h; cases h
      | ok bi =>
        rw [h2] at h; simp only at h
        cases h3 : numericOf eval (u.getCharProperty (txt "nv")) with
        | error e => rw [h3] at h; cases h
        | ok nv =>
          rw [h3] at h; simp only at h
          cases h4 : decompProperties char group with
          | error e => rw [h4] at h; cases h
          | ok de =>
            rw [h4] at h; simp only at h
            cases h5 : caseProperties char group with
            | error e => rw [h5] at h; cases h
            | ok ca =>
              rw [h5] at h; simp only at h
              cases h6 : indicProperties char group with
              | error e => rw [h6] at h; cases h
              | ok ic =>
                rw [h6] at h; simp only at h
                cases h7 : binaryProperties char group with
                | error e => rw [h7] at h; cases h
                | ok bn =>
                  rw [h7] at h
                  injection h with h
                  subst h
                  refine ⟨u, bi, bn, rfl, rfl, rfl, rfl, rfl, rfl, rfl, rfl, ?_⟩
                  simp only
                  clear h1 h2 h3 h4 h6 h7
                  unfold caseProperties at h5
                  rw [hu] at h5
                  simp only [bind, Except.bind] at h5
                  repeat' (split at h5 <;> first | contradiction | skip)
                  injection h5 with h5
                  rw [← h5]

/-- C75. In a name `#` stands for the code point as written in the record. -/
theorem name_pound {α : Type} (eval : Str → Py α) (char group : Element) (hc : UniqueKeys char) (hg : UniqueKeys group)
    (d : CharacterData α) (h : characterData eval char group = .ok d) (pre post cp : Str) (h1 : 35 ∉ pre) (h2 : 35 ∉ post)
    (hcp : Value char group (txt "cp") cp) :
    (Value char group (txt "na") (pre ++ [35] ++ post) → d.name = pre ++ cp ++ post) ∧
    (Value char group (txt "na") pre → d.name = pre) := by
  obtain ⟨u, _, _, hu, _, _, _, _, _, hn, _⟩ := record_fields h
  have hu' : u.cp = cp ∧ u.char = char ∧ u.group = group := by
    unfold ucdProperties at hu
    rw [(value_iff hc hg _ _).mpr hcp] at hu
    cases hi : pyInt 16 cp with
    | error e => simp only [hi] at hu; cases hu
    | ok n =>
      simp only [hi, bind, Except.bind, Except.ok.injEq] at hu
      rw [← hu]
      exact ⟨rfl, rfl, rfl⟩
  obtain ⟨e1, e2, e3⟩ := hu'
  have val : ∀ {v}, Value char group (txt "na") v → u.getCharProperty (txt "na") = v := by
    intro v hv
    unfold UCDProperties.getCharProperty
    rw [e2, e3]
    exact (value_iff hc hg _ _).mpr hv
  rw [hn, e1]
  refine ⟨fun hv => ?_, fun hv => ?_⟩
  · rw [val hv, replace_append, replace_append, replace_none h1, replace_none h2]
    simp [replace]
  · rw [val hv, replace_none h1]

theorem lookup_setAttr (fs : List (Str × Bool)) (f g : Str) (b : Bool) :
    (setAttr fs f b).lookup g = if g = f then some b else fs.lookup g := by
  unfold setAttr
  rw [List.lookup_cons]
  by_cases h : g = f
  · simp [h]
  · rw [show (g == f) = false by simpa using h, if_neg h]
    simp only
    induction fs with
    | nil => rfl
    | cons x fs ih =>
      obtain ⟨a, c⟩ := x
      by_cases ha : a = f
      · rw [List.filter_cons_of_neg (by simp [ha]), ih, List.lookup_cons, show (g == a) = false by rw [ha]; simpa using h]
      · rw [List.filter_cons_of_pos (by simp [ha]), List.lookup_cons, List.lookup_cons, ih]

/-- C76. Every binary property is an attribute of the object, and tells whether the property has the value `Y`. -/
theorem binaryProperties_fields (char group : Element) (hc : UniqueKeys char) (hg : UniqueKeys group) (b : BinaryProperties)
    (h : binaryProperties char group = .ok b) (field tag : Str) (hp : (field, tag) ∈ propsList) :
    ∃ v, b.fields.lookup field = some v ∧ (v = true ↔ Value char group tag [89]) := by
  unfold binaryProperties at h
  cases hu : ucdProperties char group with
  | error e => rw [hu] at h; cases h
  | ok u =>
    rw [hu] at h
    simp only [bind, Except.bind, Except.ok.injEq] at h
    have hu' : u.char = char ∧ u.group = group := by
      unfold ucdProperties at hu
      cases hi : pyInt 16 (charProperty char group (txt "cp")) with
      | error e => simp only [hi] at hu; cases hu
      | ok n =>
        simp only [hi, bind, Except.bind, Except.ok.injEq] at hu
        rw [← hu]
        exact ⟨rfl, rfl⟩
    have hnd : (propsList.map (·.1)).Nodup := by decide +kernel
    refine ⟨u.getBooleanProperty tag, ?_, ?_⟩
    · rw [← h]
      simp only
      clear h hu
      generalize propsList = l at hp hnd
      -- the value set last for a field stays
      have key : ∀ (l : List (Str × Str)) (fs : List (Str × Bool)), (∀ t, (field, t) ∉ l) →
          (l.foldl (fun fs p => setAttr fs p.1 (u.getBooleanProperty p.2)) fs).lookup field = fs.lookup field := by
        intro l
        induction l with
        | nil => intro fs _; rfl
        | cons x l ih =>
          intro fs hx
          rw [List.foldl_cons, ih _ (fun t ht => hx t (by simp [ht])), lookup_setAttr, if_neg]
          intro e
          exact hx x.2 (by simp [e])
      generalize ([] : List (Str × Bool)) = fs
      induction l generalizing fs with
      | nil => simp at hp
      | cons x l ih =>
        rw [List.map_cons, List.nodup_cons] at hnd
        rw [List.foldl_cons]
        rcases List.mem_cons.mp hp with hp | hp
        · rw [key l _ (fun t ht => hnd.1 (by rw [← hp]; exact List.mem_map.mpr ⟨_, ht, rfl⟩)), lookup_setAttr, ← hp]
          simp
        · exact ih hp hnd.2 _
    · have := getBooleanProperty_iff u (by rw [hu'.1]; exact hc) (by rw [hu'.2]; exact hg) tag
      rw [hu'.1, hu'.2] at this
      exact this

example : ∃ b, binaryProperties demoChar demoGroup = .ok b ∧ (txt "dash", txt "Dash") ∈ propsList :=
  ⟨_, rfl, by decide⟩

/-- A record with all required attributes. -/
def fullChar : Element := [(txt "cp", txt "41"), (txt "slc", txt "61"), (txt "stc", txt "#"), (txt "na", txt "A-#")]
def fullGroup : Element := [(txt "ccc", txt "0"), (txt "nv", txt "NaN"), (txt "bpb", txt "#")]

/-- C76, violated for the simple title case: the other case mapping fields hold characters, `simpleTitleCase` holds the text
of the attribute: `#` where the character is its own title case, and hexadecimal digits elsewhere. -/
theorem simpleTitleCase_refuted :
    ∃ k, caseProperties fullChar fullGroup = .ok k ∧ k.simpleUpperCase = [0x41] ∧ k.simpleLowerCase = [0x61] ∧
      k.simpleTitleCase = txt "#" ∧ k.titleCase = [0x41] :=
  ⟨_, rfl, by decide +kernel, by decide +kernel, by decide +kernel, by decide +kernel⟩

/-- The simple title case field holds the text of its attribute. -/
theorem simpleTitleCase_partial {α : Type} (eval : Str → Py α) (char group : Element) (hc : UniqueKeys char) (hg : UniqueKeys group)
    (d : CharacterData α) (h : characterData eval char group = .ok d) : Value char group (txt "stc") d.caseProperties.simpleTitleCase := by
  obtain ⟨u, _, _, hu, _, _, _, _, _, _, _, hs⟩ := record_fields h
  have hu' : u.char = char ∧ u.group = group := by
    unfold ucdProperties at hu
    cases hi : pyInt 16 (charProperty char group (txt "cp")) with
    | error e => simp only [hi] at hu; cases hu
    | ok n =>
      simp only [hi, bind, Except.bind, Except.ok.injEq] at hu
      rw [← hu]
      exact ⟨rfl, rfl⟩
  rw [hs, ← value_iff hc hg]
  unfold UCDProperties.getCharProperty
  rw [hu'.1, hu'.2]

/-- The full record is well formed. -/
def fullRecord : Record Unit (fun _ => .error .valueError) fullChar fullGroup where
  charKeys := by unfold UniqueKeys; decide
  groupKeys := by unfold UniqueKeys; decide
  code := 0x41
  text := txt "41"
  cp := .inl (by decide)
  numeral := .snoc (.one (c := 52) (d := 4) (by unfold IsDigit; omega) (by decide)) (c := 49) (d := 1) (by unfold IsDigit; omega) (by decide)
  inRange := by decide
  ccc := 0
  cccText := txt "0"
  hasCcc := ⟨(value_iff (by unfold UniqueKeys; decide) (by unfold UniqueKeys; decide) _ _).mp (by decide),
    .one (c := 48) (d := 0) (by unfold IsDigit; omega) (by decide)⟩
  numeric := none
  hasNumeric := .inl ⟨(value_iff (by unfold UniqueKeys; decide) (by unfold UniqueKeys; decide) _ _).mp (by decide), rfl⟩
  glyph := 0x41
  hasGlyph := .inl ⟨(value_iff (by unfold UniqueKeys; decide) (by unfold UniqueKeys; decide) _ _).mp (by decide), rfl⟩
  bracket := 0x41
  hasBracket := .inl ⟨(value_iff (by unfold UniqueKeys; decide) (by unfold UniqueKeys; decide) _ _).mp (by decide), rfl⟩
  mapping := fun p => if p = txt "slc" then [0x61] else [0x41]
  hasMapping := by
    have hv : ∀ p v, charProperty fullChar fullGroup p = v → Value fullChar fullGroup p v := fun p v h =>
      (value_iff (by unfold UniqueKeys; decide) (by unfold UniqueKeys; decide) _ _).mp h
    intro p hp
    by_cases h : p = txt "slc"
    · refine ⟨txt "61", hv _ _ (by rw [h]; decide), .inr ⟨[txt "61"], by decide, ?_, by decide⟩⟩
      simp only [if_pos h]
      exact .cons (.snoc (.one (c := 54) (d := 6) (by unfold IsDigit; omega) (by decide)) (c := 49) (d := 1) (by unfold IsDigit; omega) (by decide)) (by decide) .nil
    · refine ⟨[], hv _ _ ?_, .inl ⟨.inl rfl, if_neg h⟩⟩
      have : ∀ p ∈ [txt "suc", txt "slc", txt "uc", txt "lc", txt "tc", txt "scf", txt "cf", txt "NFKC_CF"], p ≠ txt "slc" →
        charProperty fullChar fullGroup p = [] := by decide
      exact this p hp h
  decomp := fun _ => none
  hasDecomp := by
    have hv : ∀ p v, charProperty fullChar fullGroup p = v → Value fullChar fullGroup p v := fun p v h =>
      (value_iff (by unfold UniqueKeys; decide) (by unfold UniqueKeys; decide) _ _).mp h
    intro p hp
    have : ∀ p ∈ [txt "dm", txt "FC_NFKC"], charProperty fullChar fullGroup p = [] := by decide
    exact ⟨[], hv _ _ (this p hp), .inl ⟨rfl, .inl rfl⟩⟩

example : ∃ d : CharacterData Unit, characterData (fun _ => .error .valueError) fullChar fullGroup = .ok d ∧ d.name = txt "A-41" := by
  obtain ⟨d, hd, _⟩ := characterData_total _ fullChar fullGroup fullRecord
  refine ⟨d, hd, ?_⟩
  exact (name_pound _ _ _ fullRecord.charKeys fullRecord.groupKeys d hd (txt "A-") [] (txt "41") (by decide) (by decide)
    fullRecord.cp).1 (.inl (by decide))

/-- C75. A record without a paired bracket attribute is rejected, although one without a mirrored glyph is not. -/
theorem missing_bracket_rejected :
    bidiProperties [(txt "cp", txt "41")] [] = .error .valueError ∧
    (∃ b, bidiProperties [(txt "cp", txt "41")] [(txt "bpb", txt "#")] = .ok b) :=
  ⟨by decide +kernel, _, rfl⟩

end Verif.UCD.Props

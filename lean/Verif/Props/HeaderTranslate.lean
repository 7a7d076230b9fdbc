import Verif.Props.Header
/-!
# Translating C headers: `HeaderFile.translate` (C77)
-/
namespace Verif.Header.Props
open Verif.Header.Spec

/-! ## Words and spaces -/

theorem wordChar_eq (c : Nat) : wordChar c = isWord c := by
  by_cases h : c < 128
  · have : ∀ c < 128, wordChar c = isWord c := by decide +kernel
    exact this c h
  · have h1 : isWord c = false := by
      unfold isWord
      simp
      omega
    have h2 : wordChar c = false := by
      have : ∀ x ∈ txt "abcdefghijklmnopqrstuvwxyzABCDEFGHIJKLMNOPQRSTUVWXYZ0123456789_", x < 128 := by decide +kernel
      unfold wordChar
      rw [decide_eq_false_iff_not]
      intro hm
      exact h (this c hm)
    rw [h1, h2]

theorem space_not_word {c : Nat} (h : isSpace c = true) : isWord c = false := by
  unfold isSpace at h
  unfold isWord
  simp at h ⊢
  omega

theorem word_not_space {c : Nat} (h : isWord c = true) : isSpace c = false := by
  cases e : isSpace c with
  | false => rfl
  | true => rw [space_not_word e] at h; cases h

/-- The rest of a text does not begin with a character of a class. -/
def Stops (p : Nat → Bool) (s : Str) : Prop := ∀ x t, s = x :: t → p x = false

theorem take_drop {p : Nat → Bool} : ∀ {a b : Str}, (∀ x ∈ a, p x = true) → Stops p b →
    (a ++ b).takeWhile p = a ∧ (a ++ b).dropWhile p = b := by
  intro a
  induction a with
  | nil =>
    intro b _ hb
    cases b with
    | nil => exact ⟨rfl, rfl⟩
    | cons x b =>
      have := hb x b rfl
      rw [List.nil_append, List.takeWhile_cons_of_neg (by simp [this]), List.dropWhile_cons_of_neg (by simp [this])]
      exact ⟨rfl, rfl⟩
  | cons x a ih =>
    intro b ha hb
    obtain ⟨h1, h2⟩ := ih (fun y hy => ha y (by simp [hy])) hb
    rw [List.cons_append, List.takeWhile_cons_of_pos (ha x (by simp)), List.dropWhile_cons_of_pos (ha x (by simp)), h1, h2]
    exact ⟨rfl, rfl⟩

theorem stops_spaces {sp b : Str} (hs : Spaces sp) (hb : Stops isWord b) : Stops isWord (sp ++ b) := by
  cases sp with
  | nil => exact hb
  | cons y sp =>
    intro x t h
    rw [List.cons_append] at h
    cases h
    exact space_not_word (hs y (by simp))

theorem stops_name {n b : Str} (hn : ∀ x ∈ n, wordChar x = true) (hb : Stops isSpace b) : Stops isSpace (n ++ b) := by
  cases n with
  | nil => exact hb
  | cons y n =>
    intro x t h
    rw [List.cons_append] at h
    cases h
    exact word_not_space (by rw [← wordChar_eq]; exact hn y (by simp))

theorem words {n : Str} (h : ∀ x ∈ n, wordChar x = true) : ∀ x ∈ n, isWord x = true := by
  intro x hx; rw [← wordChar_eq]; exact h x hx

theorem stops_cons {p : Nat → Bool} {c : Nat} {s : Str} (h : p c = false) : Stops p (c :: s) := by
  intro x t e; cases e; exact h
theorem stops_nil {p : Nat → Bool} : Stops p [] := by intro x t e; cases e

/-! ## Decimal numbers -/

theorem decLoop_eq : ∀ fuel n, n < fuel → decLoop fuel n = (Nat.toDigits 10 n).map Char.toNat := by
  have hd : ∀ d < 10, [48 + d] = [d.digitChar].map Char.toNat := by decide
  intro fuel
  induction fuel with
  | zero => intro n h; omega
  | succ f ih =>
    intro n h
    rw [decLoop]
    by_cases hn : n < 10
    · rw [if_pos hn, Nat.toDigits_of_lt_base hn]; exact hd n hn
    · rw [if_neg hn, Nat.toDigits_of_base_le (by decide) (by omega), List.map_append, ih _ (by omega), hd _ (Nat.mod_lt _ (by decide))]

theorem pyStr_eq (n : Int) : pyStr n = decimal n := by
  unfold pyStr decimal
  rw [decLoop_eq _ _ (by omega)]
  rw [Int.toString_eq_repr]
  cases n with
  | ofNat m =>
    rw [if_neg (by simp)]
    show _ = txt m.repr
    unfold txt
    rw [Nat.toList_repr]
    rfl
  | negSucc m =>
    rw [if_pos (by omega)]
    show _ = txt ("-" ++ (m + 1).repr)
    unfold txt
    rw [String.toList_append, Nat.toList_repr, List.map_append]
    rfl

/-! ## `#define` -/

theorem firstToken_of {k r : Str} (hk : k ≠ []) (h : ∀ x ∈ k, isSpace x = false) (hr : ∀ x s, r = x :: s → isSpace x = true) :
    firstToken (k ++ r) = .ok k := by
  unfold firstToken
  have h1 : (k ++ r).dropWhile isSpace = k ++ r := by
    cases k with
    | nil => exact absurd rfl hk
    | cons x k => rw [List.cons_append, List.dropWhile_cons_of_neg (by simp [h x (by simp)])]
  rw [h1, (take_drop (p := fun c => !isSpace c) (a := k) (b := r) (by intro x hx; simp [h x hx])
    (by intro x s e; simp [hr x s e])).1]
  cases k with
  | nil => exact absurd rfl hk
  | cons x k => rfl

theorem define_token (r : Str) : firstToken (txt "#define " ++ r) = .ok (txt "#define") := by
  have := firstToken_of (k := txt "#define") (r := 32 :: r) (by decide) (by decide) (by intro x s e; cases e; rfl)
  exact this

theorem findDefine_of {s : Str} {r : Str × Str} (h : matchDefine s = some r) : findDefine s = .ok r := by
  cases s with
  | nil => cases h
  | cons c s => rw [findDefine, h]

theorem matchDefine_of {n t : Str} (hn : Name n) (ht : Stops isWord t) :
    matchDefine (txt "#define " ++ n ++ t) =
      match matchArgs t with
      | some (args, t) => some (n ++ args, matchValue t)
      | none => some (n, matchValue t) := by
  unfold matchDefine
  have e : (txt "#define " ++ n ++ t).drop 8 = n ++ t := rfl
  rw [if_pos (by simp [startsWith, List.append_assoc]), e]
  simp only
  obtain ⟨h1, h2⟩ := take_drop (words hn.2) ht
  rw [h1, h2, if_neg hn.1]
  rfl

theorem matchArgs_paren {t a r : Str} (h : matchArgs t = some (a, r)) : 40 ∈ a := by
  unfold matchArgs at h
  simp only at h
  repeat' (split at h)
  all_goals first | (cases h; done) | (cases h; simp)

theorem matchArgs_space {c : Nat} {t : Str} (h : c ≠ 40) : matchArgs (c :: t) = none := by
  unfold matchArgs
  split
  · rename_i e; cases e; exact absurd rfl h
  · rfl

theorem define_value {n sp v : Str} (hn : Name n) (hs : Spaces sp) (h0 : sp ≠ []) (hv : Begins v) (h10 : 10 ∉ v) :
    findDefine (txt "#define " ++ n ++ sp ++ v) = .ok (n, v) := by
  refine findDefine_of ?_
  obtain ⟨x, s, rfl, hx⟩ := hv
  rw [show txt "#define " ++ n ++ sp ++ x :: s = txt "#define " ++ n ++ (sp ++ x :: s) by simp]
  cases sp with
  | nil => exact absurd rfl h0
  | cons y sp =>
    have hy := hs y (by simp)
    rw [matchDefine_of hn (by intro z t e; rw [List.cons_append] at e; cases e; exact space_not_word hy)]
    rw [List.cons_append, matchArgs_space (by rintro rfl; exact absurd hy (by decide))]
    simp only
    rw [← List.cons_append]
    unfold matchValue
    rw [if_pos (by simpa using hy), (take_drop hs (stops_cons hx)).2]
    have := (take_drop (p := fun c => decide (c ≠ 10)) (a := x :: s) (b := []) (by
      intro z hz
      simp only [decide_eq_true_eq]
      rintro rfl
      exact h10 hz) stops_nil).1
    rw [List.append_nil] at this
    rw [this]

theorem define_flag {n : Str} (hn : Name n) : findDefine (txt "#define " ++ n) = .ok (n, []) := by
  refine findDefine_of ?_
  have := matchDefine_of (t := []) hn stops_nil
  rw [List.append_nil] at this
  rw [this]
  rfl

theorem define_function {ignore out : List Str} {n r c : Str} (hn : Name n) :
    translateDefine ignore (txt "#define " ++ n ++ txt "(" ++ r) c out = .ok out := by
  have hm := matchDefine_of (t := 40 :: r) hn (stops_cons (by decide))
  rw [show txt "#define " ++ n ++ txt "(" ++ r = txt "#define " ++ n ++ 40 :: r by simp [txt]]
  unfold translateDefine
  cases e : matchArgs (40 :: r) with
  | none =>
    rw [e] at hm
    rw [findDefine_of hm]
    show (if n ∈ ignore then Except.ok out else if matchValue (40 :: r) ≠ [] ∧ 40 ∉ n then _ else Except.ok out) = _
    rw [show matchValue (40 :: r) = [] from rfl]
    split
    · rfl
    · rw [if_neg (by simp)]
  | some a =>
    obtain ⟨a, t⟩ := a
    rw [e] at hm
    rw [findDefine_of hm]
    show (if n ++ a ∈ ignore then Except.ok out else if matchValue t ≠ [] ∧ 40 ∉ n ++ a then _ else Except.ok out) = _
    split
    · rfl
    · rw [if_neg (by
        rintro ⟨_, h⟩
        exact h (List.mem_append_right _ (matchArgs_paren e)))]

theorem name_no_paren {n : Str} (hn : Name n) : 40 ∉ n := fun h => absurd (hn.2 40 h) (by decide)

theorem begins_ne {v : Str} (h : Begins v) : v ≠ [] := by obtain ⟨x, s, rfl, _⟩ := h; simp

/-! ## Enumerations -/

theorem notEnd {s : Str} (h : 125 ∉ s) : isEndOfEnum s = false := by
  induction s with
  | nil => rfl
  | cons c s ih =>
    rw [isEndOfEnum, ih (fun hm => h (by simp [hm]))]
    have : c ≠ 125 := by rintro rfl; exact h (by simp)
    simp [this]

theorem end_of {l : Str} (h : EnumEnd l) : startsWith (txt "{") l = false ∧ isEndOfEnum l = true := by
  obtain ⟨sp, n, sp', r, h1, h2, h3, rfl⟩ := h
  have e : txt "}" ++ sp ++ n ++ sp' ++ txt ";" ++ r = 125 :: (sp ++ (n ++ (sp' ++ 59 :: r))) := by simp [txt]
  rw [e]
  refine ⟨by simp [startsWith, txt, List.isPrefixOf], ?_⟩
  rw [isEndOfEnum]
  have hw : Stops isWord (sp' ++ 59 :: r) := stops_spaces h3 (stops_cons (by decide))
  have hfin : (((sp ++ (n ++ (sp' ++ 59 :: r))).dropWhile isSpace).dropWhile isWord).dropWhile isSpace = 59 :: r := by
    by_cases hn : n = []
    · subst hn
      rw [List.nil_append, ← List.append_assoc]
      have hs2 : ∀ x ∈ sp ++ sp', isSpace x = true := by
        intro x hx; rw [List.mem_append] at hx; exact hx.elim (h1 x) (h3 x)
      rw [(take_drop hs2 (stops_cons (by decide))).2]
      rfl
    · have hst : Stops isSpace (n ++ (sp' ++ 59 :: r)) := by
        cases n with
        | nil => exact absurd rfl hn
        | cons y n => exact stops_cons (word_not_space (words h2 y (by simp)))
      rw [(take_drop h1 hst).2, (take_drop (words h2) hw).2, (take_drop h3 (stops_cons (by decide))).2]
  rw [hfin]
  rfl

theorem entry_facts {e : Entry} (h : e.Ok) : startsWith (txt "{") e.text = false ∧ isEndOfEnum e.text = false ∧
    findEntry e.text = .ok (e.name, e.value.getD []) ∧ (e.value = some [] → False) := by
  obtain ⟨⟨hn0, hn⟩, hs, hvs, hv⟩ := h
  obtain ⟨name, sp, value, vsp, comma, comment⟩ := e
  dsimp only at *
  have h125 : ∀ {s : Str}, Spaces s → 125 ∉ s := fun hs hm => absurd (hs 125 hm) (by decide)
  refine ⟨?_, ?_, ?_, ?_⟩
  · cases name with
    | nil => exact absurd rfl hn0
    | cons x name =>
      have : x ≠ 123 := by rintro rfl; exact absurd (hn 123 (by simp)) (by decide)
      simp [Entry.text, startsWith, txt, List.isPrefixOf]
      exact fun e => this e.symm
  · refine notEnd ?_
    have a1 : 125 ∉ name := fun hm => absurd (hn 125 hm) (by decide)
    have a2 := h125 hs
    have a3 := h125 hvs
    have a4 : 125 ∉ (if comma then txt "," else []) := by cases comma <;> decide
    unfold Entry.text
    dsimp only
    cases value with
    | none => simp only [List.mem_append, not_or]; exact ⟨⟨⟨a1, a2⟩, by simp⟩, a4⟩
    | some v =>
      simp only [List.mem_append, not_or]
      exact ⟨⟨⟨a1, a2⟩, ⟨by decide, a3⟩, (hv v rfl).2.2⟩, a4⟩
  · have hc : Stops isWord (if comma then txt "," else []) := by
      cases comma
      · exact stops_nil
      · exact stops_cons (by decide)
    have hc' : Stops isSpace (if comma then txt "," else []) := by
      cases comma
      · exact stops_nil
      · exact stops_cons (by decide)
    have key : ∀ tail, Stops isWord tail → findEntry (name ++ tail) = .ok (name, entryValue tail) := by
      intro tail ht
      unfold findEntry
      have : (name ++ tail).dropWhile (fun c => !isWord c) = name ++ tail := by
        cases name with
        | nil => exact absurd rfl hn0
        | cons x name => rw [List.cons_append, List.dropWhile_cons_of_neg (by simp [words hn x (by simp)])]
      rw [this]
      simp only
      obtain ⟨h1, h2⟩ := take_drop (words hn) ht
      rw [h1, h2]
      cases name with
      | nil => exact absurd rfl hn0
      | cons x name => rfl
    unfold Entry.text
    dsimp only
    cases value with
    | none =>
      simp only [List.append_nil, List.append_assoc]
      rw [key _ (stops_spaces hs hc)]
      unfold entryValue
      rw [(take_drop hs hc').2]
      cases comma <;> rfl
    | some v =>
      obtain ⟨⟨x, s, rfl, hx⟩, h44, _⟩ := hv v rfl
      simp only [List.append_assoc]
      have h61 : ∀ (p : Nat → Bool) (r : Str), p 61 = false → Stops p (txt "=" ++ r) := fun p r hp => stops_cons (c := 61) hp
      rw [key _ (stops_spaces hs (h61 _ _ (by decide)))]
      unfold entryValue
      rw [(take_drop hs (h61 _ _ (by decide))).2]
      show Except.ok (name, (let u := ((vsp ++ (x :: s ++ if comma then txt "," else [])).dropWhile isSpace).takeWhile (· ≠ 44)
        if u = [] then ((vsp ++ (x :: s ++ if comma then txt "," else [])).takeWhile isSpace).getLast?.toList else u)) = _
      rw [List.cons_append, (take_drop hvs (stops_cons hx)).2, ← List.cons_append]
      have := (take_drop (p := fun c => decide (c ≠ 44)) (a := x :: s) (b := if comma then txt "," else []) (by
        intro z hz
        simp only [decide_eq_true_eq]
        rintro rfl
        exact h44 hz) (by cases comma; exact stops_nil; exact stops_cons (by decide))).1
      rw [this]
      simp
  · intro e
    exact begins_ne (hv [] e).1 rfl

theorem head_of {l : Str} (h : EnumHead l) : ∃ k, firstToken l = .ok k ∧ k ≠ txt "#define" ∧
    (k = txt "enum" ∨ (k = txt "typedef" ∧ isTypedefEnum l = true)) := by
  obtain ⟨sp, tag, sp', brace, h1, h2, h3, h4, ⟨rfl, h5⟩ | ⟨sp0, h6, h7, rfl, h8⟩⟩ := h
  · refine ⟨txt "enum", ?_, by decide, .inl rfl⟩
    rw [List.append_assoc, List.append_assoc, List.append_assoc]
    refine firstToken_of (by decide) (by decide) ?_
    intro x s e
    cases sp with
    | nil => obtain ⟨rfl, rfl, rfl⟩ := h5 rfl; cases e
    | cons y sp => rw [List.cons_append] at e; cases e; exact h1 x (by simp)
  · refine ⟨txt "typedef", ?_, by decide, .inr ⟨rfl, ?_⟩⟩
    · simp only [List.append_assoc]
      refine firstToken_of (by decide) (by decide) ?_
      intro x s e
      cases sp0 with
      | nil => exact absurd rfl h7
      | cons y sp0 => rw [List.cons_append] at e; cases e; exact h6 x (by simp)
    · unfold isTypedefEnum
      simp only [List.append_assoc]
      have e1 : (txt "typedef" ++ (sp0 ++ (txt "enum" ++ (sp ++ (tag ++ (sp' ++ brace)))))).drop 7 =
        sp0 ++ (txt "enum" ++ (sp ++ (tag ++ (sp' ++ brace)))) := rfl
      have e2 : (sp0 ++ (txt "enum" ++ (sp ++ (tag ++ (sp' ++ brace))))).head?.any isSpace = true := by
        cases sp0 with
        | nil => exact absurd rfl h7
        | cons y sp0 => simpa using h6 y (by simp)
      have e3 : (sp0 ++ (txt "enum" ++ (sp ++ (tag ++ (sp' ++ brace))))).dropWhile isSpace =
        txt "enum" ++ (sp ++ (tag ++ (sp' ++ brace))) := (take_drop h6 (stops_cons (by decide))).2
      have hb : Stops isSpace brace := by rcases h4 with rfl | rfl; exact stops_nil; exact stops_cons (by decide)
      have hbw : Stops isWord brace := by rcases h4 with rfl | rfl; exact stops_nil; exact stops_cons (by decide)
      have e4 : (((sp ++ (tag ++ (sp' ++ brace))).dropWhile isSpace).dropWhile isWord).dropWhile isSpace = brace := by
        by_cases ht : tag = []
        · subst ht
          rw [List.nil_append, ← List.append_assoc]
          have hs2 : ∀ x ∈ sp ++ sp', isSpace x = true := by
            intro x hx; rw [List.mem_append] at hx; exact hx.elim (h1 x) (h3 x)
          rw [(take_drop hs2 hb).2]
          rcases h4 with rfl | rfl <;> decide
        · have hst : Stops isSpace (tag ++ (sp' ++ brace)) := by
            cases tag with
            | nil => exact absurd rfl ht
            | cons y tag => exact stops_cons (word_not_space (words h2 y (by simp)))
          rw [(take_drop h1 hst).2, (take_drop (words h2) (stops_spaces h3 hbw)).2, (take_drop h3 hb).2]
      have e5 : (txt "enum" ++ (sp ++ (tag ++ (sp' ++ brace)))).drop 4 = sp ++ (tag ++ (sp' ++ brace)) := rfl
      rw [e1, e2, e3, e5, e4]
      rcases h4 with rfl | rfl <;> simp [startsWith, txt, List.isPrefixOf]

/-! ## The loops -/

theorem readAll_fuel (guard : Str → Bool) : ∀ n m lines, lines.length < n → lines.length < m →
    readAll guard n lines = readAll guard m lines := by
  intro n
  induction n with
  | zero => intro m lines h _; omega
  | succ n ih =>
    intro m lines h1 h2
    cases m with
    | zero => omega
    | succ m =>
      rw [readAll, readAll]
      cases e : nextLine guard lines with
      | mk r rest =>
        cases r with
        | none => rfl
        | some r =>
          obtain ⟨⟨used, hu, hl⟩, _⟩ := nextLine_some guard lines r.1 r.2 rest e
          have hlen : rest.length < lines.length := by
            rw [hl, List.length_append]
            have := List.length_pos_iff.mpr hu
            omega
          simp only
          rw [ih m rest (by omega) (by omega)]

/-- The lines of code of a file. -/
def IsRead (guard : Str → Bool) (lines : List Str) (rs : List (Str × Str)) : Prop :=
  readAll guard (lines.length + 1) lines = rs

theorem isRead_nil {guard : Str → Bool} {lines : List Str} (h : IsRead guard lines []) :
    ∃ rest, nextLine guard lines = (none, rest) := by
  unfold IsRead at h
  rw [readAll] at h
  cases e : nextLine guard lines with
  | mk r rest =>
    cases r with
    | none => exact ⟨rest, rfl⟩
    | some r => rw [e] at h; cases h

theorem isRead_cons {guard : Str → Bool} {lines : List Str} {r : Str × Str} {rs : List (Str × Str)}
    (h : IsRead guard lines (r :: rs)) :
    ∃ rest, nextLine guard lines = (some r, rest) ∧ rest.length < lines.length ∧ IsRead guard rest rs := by
  unfold IsRead at h
  rw [readAll] at h
  cases e : nextLine guard lines with
  | mk r' rest =>
    cases r' with
    | none => rw [e] at h; cases h
    | some r' =>
      rw [e] at h
      simp only [List.cons.injEq] at h
      obtain ⟨rfl, h⟩ := h
      obtain ⟨⟨used, hu, hl⟩, _⟩ := nextLine_some guard lines r'.1 r'.2 rest e
      have hlen : rest.length < lines.length := by
        rw [hl, List.length_append]
        have := List.length_pos_iff.mpr hu
        omega
      refine ⟨rest, rfl, hlen, ?_⟩
      unfold IsRead
      rw [← h]
      exact readAll_fuel guard _ _ _ (by omega) (by omega)

section
variable {guard : Str → Bool} {eval : List (Str × Int) → Str → Py Int}

theorem enum_braces {brace rs : List (Str × Str)} (hb : ∀ b ∈ brace, (txt "{").isPrefixOf b.1) :
    ∀ {lines fuel next env out}, lines.length < fuel → IsRead guard lines (brace ++ rs) →
    ∃ lines', IsRead guard lines' rs ∧ lines'.length ≤ lines.length ∧ ∃ fuel', lines'.length < fuel' ∧
      enumLoop guard eval fuel lines next env out = enumLoop guard eval fuel' lines' next env out := by
  induction brace with
  | nil => intro lines fuel next env out hf h; exact ⟨lines, h, by omega, fuel, hf, rfl⟩
  | cons b brace ih =>
    intro lines fuel next env out hf h
    obtain ⟨rest, h1, h2, h3⟩ := isRead_cons h
    cases fuel with
    | zero => omega
    | succ f =>
      obtain ⟨lines', a1, a2, f', a3, a4⟩ := ih (fun x hx => hb x (by simp [hx])) (lines := rest) (fuel := f) (next := next) (env := env)
        (out := out) (by omega) h3
      refine ⟨lines', a1, by omega, f', a3, ?_⟩
      rw [enumLoop, h1]
      simp only
      rw [if_pos (hb b (by simp)), a4]

theorem enum_entries (hdec : ∀ env n, eval env (decimal n) = .ok n) {fin : Str × Str} {rs : List (Str × Str)} (hfin : EnumEnd fin.1) :
    ∀ {es : List Entry} {vs : List Int} {lines fuel next env out}, (∀ e ∈ es, e.Ok) → values eval next env es = .ok vs →
    lines.length < fuel → IsRead guard lines (es.map (fun e => (e.text, e.comment)) ++ fin :: rs) →
    ∃ lines', IsRead guard lines' rs ∧ lines'.length < lines.length ∧
      enumLoop guard eval fuel lines next env out = .ok (out ++ es.zipWith Entry.line vs, lines') := by
  intro es
  induction es with
  | nil =>
    intro vs lines fuel next env out _ hv hf h
    cases hv
    obtain ⟨rest, h1, h2, h3⟩ := isRead_cons h
    cases fuel with
    | zero => omega
    | succ f =>
      obtain ⟨b1, b2⟩ := end_of hfin
      refine ⟨rest, h3, h2, ?_⟩
      rw [enumLoop, h1]
      simp only
      rw [if_neg (by rw [b1]; decide), if_pos b2]
      simp
  | cons e es ih =>
    intro vs lines fuel next env out hok hv hf h
    obtain ⟨rest, h1, h2, h3⟩ := isRead_cons h
    cases fuel with
    | zero => omega
    | succ f =>
      obtain ⟨b1, b2, b3, b4⟩ := entry_facts (hok e (by simp))
      rw [enumLoop, h1]
      simp only
      rw [if_neg (by rw [b1]; decide), if_neg (by rw [b2]; decide), b3]
      have hval : ∀ v vs', e.valueOf eval next env = .ok v →
          values eval (v + 1) ((e.name, v) :: env) es = .ok vs' →
          ∃ lines', IsRead guard lines' rs ∧ lines'.length < lines.length ∧
            (do let (name, value) ← (Except.ok (e.name, e.value.getD []) : Py (Str × Str))
                let value := if value = [] then pyStr next else value
                let intValue ← eval env value
                enumLoop guard eval f rest (intValue + 1) ((name, intValue) :: env) (out ++ [outputLine name value e.comment]))
              = .ok (out ++ (e :: es).zipWith Entry.line (v :: vs'), lines') := by
        intro v vs' h1 h4
        unfold Entry.valueOf at h1
        have hx : ∃ t, (if e.value.getD [] = [] then pyStr next else e.value.getD []) = t ∧ eval env t = .ok v ∧
            t = e.value.getD (decimal v) := by
          cases hev : e.value with
          | none =>
            rw [hev] at h1
            cases h1
            exact ⟨pyStr next, by simp, by rw [pyStr_eq]; exact hdec _ _, by rw [pyStr_eq]; rfl⟩
          | some t =>
            rw [hev] at h1
            have ht : t ≠ [] := by rintro rfl; exact b4 hev
            exact ⟨t, by simp [ht], h1, rfl⟩
        obtain ⟨t, ht1, ht2, ht3⟩ := hx
        obtain ⟨lines', a1, a2, a3⟩ := ih (lines := rest) (fuel := f) (out := out ++ [outputLine e.name t e.comment])
          (fun x hx => hok x (by simp [hx])) h4 (by omega) h3
        refine ⟨lines', a1, by omega, ?_⟩
        show (eval env (if e.value.getD [] = [] then pyStr next else e.value.getD []) >>= fun intValue =>
          enumLoop guard eval f rest (intValue + 1) ((e.name, intValue) :: env)
            (out ++ [outputLine e.name (if e.value.getD [] = [] then pyStr next else e.value.getD []) e.comment])) = _
        rw [ht1, ht2]
        show enumLoop guard eval f rest (v + 1) ((e.name, v) :: env) (out ++ [outputLine e.name t e.comment]) = _
        rw [a3, ht3, List.append_assoc]
        rfl
      rw [values] at hv
      cases hm : e.valueOf eval next env with
      | error x => rw [hm] at hv; cases hv
      | ok v =>
        rw [hm] at hv
        cases hr : values eval (v + 1) ((e.name, v) :: env) es with
        | error x =>
          have : (Except.error x : Py (List Int)) >>= (fun vs => Except.ok (v :: vs)) = .ok vs := by rw [← hr]; exact hv
          cases this
        | ok vs' =>
          have : (Except.ok vs' : Py (List Int)) >>= (fun vs => Except.ok (v :: vs)) = .ok vs := by rw [← hr]; exact hv
          cases this
          exact hval v vs' hm hr

theorem step_define {ignore : List Str} {f : Nat} {lines rest acc acc' : List Str} {l c : Str}
    (h1 : nextLine guard lines = (some (l, c), rest)) (ht : firstToken l = .ok (txt "#define"))
    (hd : translateDefine ignore l c acc = .ok acc') :
    translateLoop guard eval ignore (f + 1) lines acc = translateLoop guard eval ignore f rest acc' := by
  rw [translateLoop, h1]
  simp only
  rw [ht]
  simp only [bind, Except.bind]
  rw [if_pos trivial, hd]

/-- C77. For every header whose lines of code have the given forms, `translate` succeeds and appends to its output exactly
the Python lines for them, in order: `NAME = value` for each constant defined with a value, and for each enumerator its
expression or the value that C gives it. `eval` stands for Python's `eval`, which reads decimal numbers. -/
theorem translate_items_partial (hdec : ∀ env n, eval env (decimal n) = .ok n) (ignore header lines : List Str) (rs : List (Str × Str))
    (out : List Str) (hr : IsRead guard lines rs) (h : Translates eval ignore rs out) :
    translate guard eval ignore header lines = .ok (header ++ out) := by
  have key : ∀ fuel lines acc, lines.length < fuel → IsRead guard lines rs →
      translateLoop guard eval ignore fuel lines acc = .ok (acc ++ out) := by
    clear hr
    induction h with
    | nil =>
      intro fuel lines acc hf h
      obtain ⟨rest, h⟩ := isRead_nil h
      cases fuel with
      | zero => omega
      | succ f => rw [translateLoop, h]; simp
    | other ho _ ih =>
      intro fuel lines acc hf h
      obtain ⟨rest, h1, h2, h3⟩ := isRead_cons h
      cases fuel with
      | zero => omega
      | succ f =>
        obtain ⟨k, r, rfl, a1, a2, a3, a4, a5, a6⟩ := ho
        rw [translateLoop, h1]
        simp only
        rw [firstToken_of a1 a2 a3]
        show (if k = txt "#define" then _ else if k = txt "enum" ∨ (k = txt "typedef" ∧ _) then _ else _) = _
        rw [if_neg a4, if_neg (by simp [a5, a6])]
        exact ih f rest acc (by omega) h3
    | value hn hs h0 hv h10 hi _ ih =>
      intro fuel lines acc hf h
      obtain ⟨rest, h1, h2, h3⟩ := isRead_cons h
      cases fuel with
      | zero => omega
      | succ f =>
        rename_i n sp v c rs out _
        have ht : firstToken (txt "#define " ++ n ++ sp ++ v) = .ok (txt "#define") := by
          rw [List.append_assoc, List.append_assoc]; exact define_token _
        have hd : translateDefine ignore (txt "#define " ++ n ++ sp ++ v) c acc = .ok (acc ++ [assignment n v c]) := by
          unfold translateDefine
          rw [define_value hn hs h0 hv h10]
          show (if n ∈ ignore then Except.ok acc else if v ≠ [] ∧ 40 ∉ n then Except.ok (acc ++ [outputLine n v c]) else Except.ok acc) = _
          rw [if_neg hi, if_pos ⟨begins_ne hv, name_no_paren hn⟩]
          rfl
        rw [step_define h1 ht hd]
        rw [ih f rest _ (by omega) h3]
        simp
    | ignored hn hs h0 hv h10 hi _ ih =>
      intro fuel lines acc hf h
      obtain ⟨rest, h1, h2, h3⟩ := isRead_cons h
      cases fuel with
      | zero => omega
      | succ f =>
        rename_i n sp v c rs out _
        have ht : firstToken (txt "#define " ++ n ++ sp ++ v) = .ok (txt "#define") := by
          rw [List.append_assoc, List.append_assoc]; exact define_token _
        have hd : translateDefine ignore (txt "#define " ++ n ++ sp ++ v) c acc = .ok acc := by
          unfold translateDefine
          rw [define_value hn hs h0 hv h10]
          show (if n ∈ ignore then Except.ok acc else if v ≠ [] ∧ 40 ∉ n then Except.ok (acc ++ [outputLine n v c]) else Except.ok acc) = _
          rw [if_pos hi]
        rw [step_define h1 ht hd]
        exact ih f rest _ (by omega) h3
    | flag hn _ ih =>
      intro fuel lines acc hf h
      obtain ⟨rest, h1, h2, h3⟩ := isRead_cons h
      cases fuel with
      | zero => omega
      | succ f =>
        rename_i n c rs out _
        have hd : translateDefine ignore (txt "#define " ++ n) c acc = .ok acc := by
          unfold translateDefine
          rw [define_flag hn]
          show (if n ∈ ignore then Except.ok acc else if [] ≠ [] ∧ 40 ∉ n then Except.ok (acc ++ [outputLine n [] c]) else Except.ok acc) = _
          split
          · rfl
          · rw [if_neg (by simp)]
        rw [step_define h1 (define_token _) hd]
        exact ih f rest _ (by omega) h3
    | function hn _ ih =>
      intro fuel lines acc hf h
      obtain ⟨rest, h1, h2, h3⟩ := isRead_cons h
      cases fuel with
      | zero => omega
      | succ f =>
        rename_i n r c rs out _
        have ht : firstToken (txt "#define " ++ n ++ txt "(" ++ r) = .ok (txt "#define") := by
          rw [List.append_assoc, List.append_assoc]; exact define_token _
        rw [step_define h1 ht (define_function hn)]
        exact ih f rest _ (by omega) h3
    | enum hh hb hok hv hfin _ ih =>
      intro fuel lines acc hf h
      obtain ⟨rest, h1, h2, h3⟩ := isRead_cons h
      cases fuel with
      | zero => omega
      | succ f =>
        rename_i head fin brace rs es vs out _
        obtain ⟨k, a1, a2, a3⟩ := head_of hh
        obtain ⟨lines1, b1, b2, f1, b3, b4⟩ := enum_braces hb (eval := eval) (lines := rest) (fuel := rest.length + 1) (next := 0)
          (env := []) (out := acc) (by omega) h3
        obtain ⟨lines2, c1, c2, c3⟩ := enum_entries hdec hfin (out := acc) hok hv b3 b1
        rw [translateLoop, h1]
        obtain ⟨hl, hc⟩ := head
        dsimp only at a1 a3 ⊢
        rw [a1]
        show (if k = txt "#define" then _ else if k = txt "enum" ∨ (k = txt "typedef" ∧ isTypedefEnum hl = true) then
          enumLoop guard eval (rest.length + 1) rest 0 [] acc >>= fun r => translateLoop guard eval ignore f r.2 r.1 else _) = _
        rw [if_neg a2, if_pos a3, b4, c3]
        show translateLoop guard eval ignore f lines2 _ = _
        rw [ih f lines2 _ (by omega) c1, List.append_assoc]
  exact key _ _ _ (by omega) hr

/-- C77. The same for a header that is laid out line by line. -/
theorem translate_header_partial (hdec : ∀ env n, eval env (decimal n) = .ok n) (ignore header lines ts : List Str) (out : List Str)
    (hr : Reads guard lines ts) (h : Translates eval ignore (ts.map getTrailingComment) out) :
    translate guard eval ignore header lines = .ok (header ++ out) :=
  translate_items_partial hdec ignore header lines _ out (readAll_reads_partial guard lines ts hr _ (by omega)) h

end

/-! ## A translation -/

theorem decLoop_digits : ∀ fuel n, n < fuel → ∀ x ∈ decLoop fuel n, 48 ≤ x ∧ x ≤ 57 := by
  intro fuel
  induction fuel with
  | zero => intro n h; omega
  | succ f ih =>
    intro n h x hx
    rw [decLoop] at hx
    split at hx
    · simp at hx; omega
    · rw [List.mem_append] at hx
      rcases hx with hx | hx
      · exact ih _ (by omega) x hx
      · simp at hx; omega

theorem digitsLoop_decLoop : ∀ fuel n, n < fuel → ∃ k, ∀ p acc rest,
    digitsLoop 10 p acc (decLoop fuel n ++ rest) = digitsLoop 10 .digit (acc * k + n) rest := by
  have hd : ∀ d, d < 10 → ∀ p acc rest, digitsLoop 10 p acc ((48 + d) :: rest) = digitsLoop 10 .digit (acc * 10 + d) rest := by
    intro d hd p acc rest
    rw [digitsLoop, if_neg (by omega)]
    have : digitOf (48 + d) = some d := by
      unfold digitOf
      rw [if_pos (by omega)]
      simp
    rw [this]
    simp only
    rw [if_pos hd]
  intro fuel
  induction fuel with
  | zero => intro n h; omega
  | succ f ih =>
    intro n h
    rw [decLoop]
    split
    · rename_i hn
      exact ⟨10, fun p acc rest => hd n hn p acc rest⟩
    · obtain ⟨k, hk⟩ := ih (n / 10) (by omega)
      refine ⟨k * 10, fun p acc rest => ?_⟩
      rw [List.append_assoc, hk, List.singleton_append, hd _ (Nat.mod_lt _ (by decide))]
      congr 1
      rw [Nat.add_mul, ← Nat.mul_assoc]
      omega

/-- `int` reads back what `str` writes. -/
theorem pyInt_decimal (n : Int) : pyInt 10 (decimal n) = .ok n := by
  rw [← pyStr_eq]
  have hu : ∀ m : Nat, unsigned 10 (decLoop (m + 1) m) = .ok m := by
    intro m
    have h : digitsLoop 10 .start 0 (decLoop (m + 1) m) = .ok m := by
      obtain ⟨k, hk⟩ := digitsLoop_decLoop (m + 1) m (by omega)
      have := hk .start 0 []
      rw [List.append_nil] at this
      rw [this]
      simp [digitsLoop]
    unfold unsigned
    split
    · rw [if_neg (by omega)]; exact h
    · exact h
  have hs : ∀ m : Nat, ∀ x ∈ decLoop (m + 1) m, isSpace x = false := by
    intro m x hx
    have := decLoop_digits _ _ (by omega) x hx
    unfold isSpace
    simp
    omega
  have hid : ∀ s : Str, (∀ x ∈ s, isSpace x = false) → strip s = s := by
    intro s h
    cases s with
    | nil => rfl
    | cons c s =>
      unfold strip
      rw [List.dropWhile_cons_of_neg (by simp [h c (by simp)])]
      cases e : (c :: s).reverse with
      | nil => simp at e
      | cons d r =>
        have hd : d ∈ c :: s := by rw [← List.mem_reverse, e]; simp
        rw [List.dropWhile_cons_of_neg (by simp [h d hd]), ← e, List.reverse_reverse]
  unfold pyInt pyStr
  by_cases hn : n < 0
  · rw [if_pos hn]
    rw [hid _ (by intro x hx; rcases List.mem_cons.mp hx with rfl | hx; decide; exact hs _ x hx)]
    simp only
    rw [hu]
    simp only [bind, Except.bind]
    congr 1
    omega
  · rw [if_neg hn, hid _ (hs _)]
    have hh : ∀ x t, decLoop (n.natAbs + 1) n.natAbs = x :: t → x ≠ 45 ∧ x ≠ 43 := by
      intro x t e
      have := decLoop_digits (n.natAbs + 1) n.natAbs (by omega) x (by rw [e]; simp)
      omega
    split
    · rename_i e; exact absurd rfl (hh _ _ e).1
    · rename_i e; exact absurd rfl (hh _ _ e).2
    · rw [hu]
      simp only [bind, Except.bind]
      congr 1
      omega

/-- Expressions that are decimal numbers. -/
def numbers : List (Str × Int) → Str → Py Int := fun _ t => pyInt 10 t

example : translate ucharGuard numbers [txt "U_IGNORED"] []
    [txt "#define U_MAX 0x10FFFF // last\n", txt "#define U_IGNORED 1\n", txt "#define F(x) x\n", txt "int f(int);\n",
      txt "typedef enum UX {\n", txt "  U_A,\n", txt "  U_B = 7, /* seven */\n", txt "  U_C\n", txt "} UX;\n"] =
    .ok [txt "U_MAX = 0x10FFFF  # last", txt "U_A = 0", txt "U_B = 7  #  seven ", txt "U_C = 8"] := by
  refine translate_items_partial (fun _ n => pyInt_decimal n) [txt "U_IGNORED"] [] _
    [(txt "#define U_MAX 0x10FFFF", txt "last"), (txt "#define U_IGNORED 1", []), (txt "#define F(x) x", []),
      (txt "int f(int);", []), (txt "typedef enum UX {", []), (txt "U_A,", []), (txt "U_B = 7,", txt " seven "), (txt "U_C", []),
      (txt "} UX;", [])] _ (by unfold IsRead; decide +kernel) ?_
  refine .value (n := txt "U_MAX") (sp := txt " ") (v := txt "0x10FFFF") (by unfold Name; decide) (by unfold Spaces; decide) (by decide)
    ⟨48, _, rfl, by decide⟩ (by decide) (by decide) ?_
  refine .ignored (n := txt "U_IGNORED") (sp := txt " ") (v := txt "1") (by unfold Name; decide) (by unfold Spaces; decide) (by decide)
    ⟨49, _, rfl, by decide⟩ (by decide) (by decide) ?_
  refine .function (n := txt "F") (r := txt "x) x") (by unfold Name; decide) ?_
  refine .other ⟨txt "int", txt " f(int);", by decide, by decide, by decide, by intro x s e; cases e; decide, by decide, by decide, by decide⟩ ?_
  refine Translates.enum (brace := []) (head := (txt "typedef enum UX {", [])) (fin := (txt "} UX;", []))
    (es := [⟨txt "U_A", [], none, [], true, []⟩, ⟨txt "U_B", txt " ", some (txt "7"), txt " ", true, txt " seven "⟩,
      ⟨txt "U_C", [], none, [], false, []⟩]) (vs := [0, 7, 8]) (rs := []) (out := []) ?_ (by simp) ?_ ?_ ?_ .nil
  · exact ⟨txt " ", txt "UX", txt " ", txt "{", by unfold Spaces; decide, by decide, by unfold Spaces; decide, .inr rfl,
      .inr ⟨txt " ", by unfold Spaces; decide, by decide, by decide, by decide⟩⟩
  · intro e he
    rcases List.mem_cons.mp he with rfl | he
    · exact ⟨by unfold Name; decide, by unfold Spaces; decide, by unfold Spaces; decide, by intro v e; cases e⟩
    rcases List.mem_cons.mp he with rfl | he
    · exact ⟨by unfold Name; decide, by unfold Spaces; decide, by unfold Spaces; decide,
        by intro v e; cases e; exact ⟨⟨55, _, rfl, by decide⟩, by decide, by decide⟩⟩
    rcases List.mem_cons.mp he with rfl | he
    · exact ⟨by unfold Name; decide, by unfold Spaces; decide, by unfold Spaces; decide, by intro v e; cases e⟩
    · cases he
  · decide +kernel
  · exact ⟨txt " ", txt "UX", [], [], by unfold Spaces; decide, by decide, by unfold Spaces; decide, by decide⟩

/-- Of several enumerators on one line, only the first is translated; the numbering goes on after it. -/
theorem translate_two_refuted : translate ucharGuard numbers [] [] [txt "enum {", txt "A, B,", txt "C", txt "};"] =
    .ok [txt "A = 0", txt "C = 1"] := by decide +kernel

/-- The enumerators of an enumeration on one line are left out, and the declarations after it are translated as enumerators. -/
theorem translate_oneline_refuted : translate ucharGuard numbers [] [] [txt "enum { A, B };", txt "int f(void);"] =
    .ok [txt "int = 0"] := by decide +kernel

/-- Two spaces after `#define` raise `IndexError`. -/
theorem translate_define_refuted : translate ucharGuard numbers [] [] [txt "#define  X 1"] = .error .indexError := by decide +kernel

/-- A closing brace without a semicolon on its line raises `IndexError`. -/
theorem translate_brace_refuted : translate ucharGuard numbers [] [] [txt "enum {", txt "A", txt "}", txt ";"] = .error .indexError := by
  decide +kernel

/-- A value is cut at its first comma. -/
theorem translate_comma_refuted : findEntry (txt "A = F(1, 2),") = .ok (txt "A", txt "F(1") := by decide +kernel

end Verif.Header.Props

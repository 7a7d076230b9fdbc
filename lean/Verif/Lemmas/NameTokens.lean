import Verif.Spec.CharNames
import Verif.Lemmas.Bytes
/-! # Expanding tokenised strings -/
namespace Verif.CharNames
open Verif.CharNames.Spec
open Verif.ICUData (untilNul)

theorem untilNul_ok {b : List Nat} {w : Str} : untilNul b = .ok w ↔ ∃ rest, b = w ++ 0 :: rest ∧ 0 ∉ w := by
  induction b generalizing w with
  | nil => simp [untilNul]
  | cons c cs ih =>
    unfold untilNul
    by_cases hc : c = 0
    · subst hc
      simp only [ne_eq, not_true_eq_false, if_false, Except.ok.injEq]
      constructor
      · rintro rfl; exact ⟨cs, rfl, by simp⟩
      · rintro ⟨rest, h, h0⟩
        cases w with
        | nil => rfl
        | cons x xs => simp at h; simp [← h.1] at h0
    · rw [if_pos hc]
      constructor
      · intro h
        cases hu : untilNul cs with
        | error e => rw [hu] at h; exact absurd h (by simp [bind, Except.bind])
        | ok r =>
          rw [hu] at h
          simp only [bind, Except.bind, Except.ok.injEq] at h
          obtain ⟨rest, e, h0⟩ := (ih).mp hu
          subst h
          exact ⟨rest, by rw [e]; rfl, by simp [h0, Ne.symm hc]⟩
      · rintro ⟨rest, h, h0⟩
        cases w with
        | nil => simp at h; exact absurd h.1 hc
        | cons x xs =>
          simp only [List.cons_append, List.cons.injEq] at h
          obtain ⟨rfl, h⟩ := h
          rw [(ih (w := xs)).mpr ⟨rest, h, fun hx => h0 (by simp [hx])⟩]
          rfl

theorem wordAt_iff {t : Tokens} {k : Nat} {w : Str} : WordAt t k w ↔ untilNul (t.strings.drop k) = .ok w :=
  untilNul_ok.symm

theorem wordAt_unique {t : Tokens} {k : Nat} {w w' : Str} (h : WordAt t k w) (h' : WordAt t k w') : w = w' := by
  rw [wordAt_iff] at h h'
  rw [h] at h'
  exact Except.ok.inj h'

theorem tokenStep_word {t : Tokens} {nc c k : Nat} {w acc : Str} (hk : k ≠ 0xFFFF) (hw : WordAt t k w) :
    tokenStep t nc c k acc = .ok (true, acc ++ w) := by
  unfold tokenStep
  rw [if_neg hk, wordAt_iff.mp hw]
  rfl

theorem tokenStep_literal {t : Tokens} {nc c : Nat} {acc : Str} (hc : c ≠ 59) :
    tokenStep t nc c 0xFFFF acc = .ok (true, acc ++ [c]) := by
  unfold tokenStep CP_SEMICOLON
  rw [if_pos rfl, if_pos hc]

theorem tokenStep_field {t : Tokens} {nc : Nat} {acc : Str} (hn : nc ≠ 2 ∨ acc ≠ []) :
    tokenStep t nc 59 0xFFFF acc = .ok (false, acc) := by
  unfold tokenStep CP_SEMICOLON U_EXTENDED_CHAR_NAME
  rw [if_pos rfl, if_neg (by simp), if_neg]
  rintro ⟨h1, h2⟩
  rcases hn with h | h
  · exact h h2
  · exact h (List.length_eq_zero_iff.mp h1)

theorem tokenStep_ok {t : Tokens} {nc c k : Nat} {acc : Str} {b : Bool} {e : Str} (hn : nc ≠ 2 ∨ acc ≠ [])
    (h : tokenStep t nc c k acc = .ok (b, e)) :
    (k ≠ 0xFFFF ∧ b = true ∧ ∃ w, WordAt t k w ∧ e = acc ++ w) ∨ (k = 0xFFFF ∧ c ≠ 59 ∧ b = true ∧ e = acc ++ [c]) ∨
      (k = 0xFFFF ∧ c = 59 ∧ b = false ∧ e = acc) := by
  by_cases hk : k = 0xFFFF
  · subst hk
    by_cases hc : c = 59
    · subst hc
      rw [tokenStep_field hn] at h
      injection h with h; injection h with h1 h2
      exact .inr (.inr ⟨rfl, rfl, h1.symm, h2.symm⟩)
    · rw [tokenStep_literal hc] at h
      injection h with h; injection h with h1 h2
      exact .inr (.inl ⟨rfl, hc, h1.symm, h2.symm⟩)
  · unfold tokenStep at h
    rw [if_neg hk] at h
    cases hu : untilNul (t.strings.drop k) with
    | error e => rw [hu] at h; simp [bind, Except.bind] at h
    | ok w =>
      rw [hu] at h
      simp only [bind, Except.bind, Except.ok.injEq, Prod.mk.injEq] at h
      exact .inl ⟨hk, h.1.symm, w, wordAt_iff.mpr hu, h.2.symm⟩

theorem getD_of_some {l : List Nat} {c k d : Nat} (h : l[c]? = some k) : l.getD c d = k := by
  simp [List.getD_eq_getElem?_getD, h]

theorem pairIndex {c d : Nat} (hd : d < 256) : c * 2 ^ 8 ||| d = c * 256 + d := or_field (by simpa using hd)

/-- The equations of the loop. -/
theorem loop_nil (t : Tokens) (nc : Nat) (acc : Str) : expandLoop t nc [] acc = .ok acc := by simp [expandLoop]

theorem loop_high {t : Tokens} {nc c : Nat} {rest : List Nat} {acc : Str} (hc : t.tokens.length ≤ c) :
    expandLoop t nc (c :: rest) acc = if c ≠ 59 then expandLoop t nc rest (acc ++ [c]) else .ok acc := by
  cases rest with
  | nil => unfold expandLoop; rw [if_pos hc]; rfl
  | cons d rest => conv => lhs; unfold expandLoop
                   rw [if_pos hc]; rfl

theorem loop_one {t : Tokens} {nc c k : Nat} {rest : List Nat} {acc : Str} (hc : t.tokens[c]? = some k) (hk : k ≠ 0xFFFE) :
    expandLoop t nc (c :: rest) acc =
      match tokenStep t nc c k acc with
      | .error e => .error e
      | .ok (false, e) => .ok e
      | .ok (true, e) => expandLoop t nc rest e := by
  have hlt : ¬ c ≥ t.tokens.length := by
    have := (List.getElem?_eq_some_iff.mp hc).1
    omega
  cases rest with
  | nil =>
    unfold expandLoop
    rw [if_neg hlt]
    simp only [getD_of_some hc, if_neg hk]
    cases tokenStep t nc c k acc with
    | error e => rfl
    | ok p => obtain ⟨b, e⟩ := p; cases b <;> simp
  | cons d rest =>
    conv => lhs; unfold expandLoop
    rw [if_neg hlt]
    simp only [getD_of_some hc, if_neg hk]
    rfl

theorem loop_two {t : Tokens} {nc c d : Nat} {rest : List Nat} {acc : Str} (hc : t.tokens[c]? = some 0xFFFE) (hd : d < 256) :
    expandLoop t nc (c :: d :: rest) acc =
      match t.tokens[c * 256 + d]? with
      | none => .error .indexError
      | some k =>
        match tokenStep t nc c k acc with
        | .error e => .error e
        | .ok (false, e) => .ok e
        | .ok (true, e) => expandLoop t nc rest e := by
  have hlt : ¬ c ≥ t.tokens.length := by
    have := (List.getElem?_eq_some_iff.mp hc).1
    omega
  conv => lhs; unfold expandLoop
  rw [if_neg hlt]
  simp only [getD_of_some hc, if_true, pairIndex hd]
  rfl

theorem loop_cut {t : Tokens} {nc c : Nat} {acc : Str} (hc : t.tokens[c]? = some 0xFFFE) :
    expandLoop t nc [c] acc = .error .indexError := by
  have hlt : ¬ c ≥ t.tokens.length := by
    have := (List.getElem?_eq_some_iff.mp hc).1
    omega
  unfold expandLoop
  rw [if_neg hlt]
  simp only [getD_of_some hc, if_true]

/-- What the loop adds is what the string stands for, unless it is skipping empty fields. -/
theorem loop_of_expands {t : Tokens} {nc : Nat} {s : List Nat} {out : Str} (hs : ∀ b ∈ s, b < 256) (h : Expands t s out) :
    ∀ acc : Str, nc ≠ 2 → expandLoop t nc s acc = .ok (acc ++ out) := by
  induction h with
  | done => intro acc hn; rw [loop_nil, List.append_nil]
  | field rest h =>
    intro acc hn
    rcases h with h | h
    · rw [loop_high h, if_neg (by simp), List.append_nil]
    · rw [loop_one h (by decide), tokenStep_field (.inl hn)]; simp
  | literal c rest out h hc _ ih =>
    intro acc hn
    have ih := ih (fun b hb => hs b (by simp [hb])) (acc ++ [c]) hn
    rcases h with h | h
    · rw [loop_high h, if_pos hc, ih]; simp
    · rw [loop_one h (by decide), tokenStep_literal hc]; simp only [ih]; simp
  | word c k w rest out hc hk hk' hw _ ih =>
    intro acc hn
    rw [loop_one hc hk, tokenStep_word hk' hw]
    simp only [ih (fun b hb => hs b (by simp [hb])) (acc ++ w) hn]; simp
  | pair c d k w rest out hc hd hk hw _ ih =>
    intro acc hn
    rw [loop_two hc (hs d (by simp)), hd]
    simp only [tokenStep_word hk hw, ih (fun b hb => hs b (by simp [hb])) (acc ++ w) hn]; simp
  | pairLiteral c d rest out hc hd hk _ ih =>
    intro acc hn
    rw [loop_two hc (hs d (by simp)), hd]
    simp only [tokenStep_literal hk, ih (fun b hb => hs b (by simp [hb])) (acc ++ [c]) hn]; simp
  | pairField d rest hc hd =>
    intro acc hn
    rw [loop_two hc (hs d (by simp)), hd]
    simp [tokenStep_field (t := t) (acc := acc) (.inl hn)]

/-- A returned text is what the string stands for. -/
theorem expands_of_loop {t : Tokens} {nc : Nat} (hn : nc ≠ 2) : ∀ (n : Nat) (s : List Nat), s.length ≤ n →
    (∀ b ∈ s, b < 256) → ∀ (acc res : Str), expandLoop t nc s acc = .ok res → ∃ out, res = acc ++ out ∧ Expands t s out := by
  intro n
  induction n with
  | zero =>
    intro s hl hs acc res h
    have : s = [] := List.length_eq_zero_iff.mp (by omega)
    subst this
    rw [loop_nil] at h
    exact ⟨[], by injection h with h; simp [h], .done⟩
  | succ n ih =>
    intro s hl hs acc res h
    cases s with
    | nil => rw [loop_nil] at h; exact ⟨[], by injection h with h; simp [h], .done⟩
    | cons c rest =>
      have hs' : ∀ b ∈ rest, b < 256 := fun b hb => hs b (by simp [hb])
      simp only [List.length_cons] at hl
      by_cases hc : t.tokens.length ≤ c
      · rw [loop_high hc] at h
        by_cases h59 : c = 59
        · rw [if_neg (by simp [h59])] at h
          subst h59
          exact ⟨[], by injection h with h; simp [h], .field _ (.inl hc)⟩
        · rw [if_pos h59] at h
          obtain ⟨out, e, ho⟩ := ih rest (by omega) hs' _ _ h
          exact ⟨c :: out, by rw [e]; simp, .literal _ _ _ (.inl hc) h59 ho⟩
      · obtain ⟨k, hk⟩ : ∃ k, t.tokens[c]? = some k := ⟨_, List.getElem?_eq_getElem (by omega)⟩
        by_cases hk2 : k = 0xFFFE
        · subst hk2
          cases rest with
          | nil => rw [loop_cut hk] at h; cases h
          | cons d rest =>
            rw [loop_two hk (hs d (by simp))] at h
            cases hd : t.tokens[c * 256 + d]? with
            | none => rw [hd] at h; cases h
            | some k =>
              rw [hd] at h
              simp only at h
              cases hstep : tokenStep t nc c k acc with
              | error e => rw [hstep] at h; cases h
              | ok p =>
                obtain ⟨b, e⟩ := p
                rw [hstep] at h
                rcases tokenStep_ok (.inl hn) hstep with ⟨hk', rfl, w, hw, rfl⟩ | ⟨rfl, hc59, rfl, rfl⟩ | ⟨rfl, rfl, rfl, rfl⟩
                · obtain ⟨out, e, ho⟩ := ih rest (by simp at hl; omega) (fun b hb => hs' b (by simp [hb])) _ _ h
                  exact ⟨w ++ out, by rw [e]; simp, .pair _ _ _ _ _ _ hk hd hk' hw ho⟩
                · obtain ⟨out, e, ho⟩ := ih rest (by simp at hl; omega) (fun b hb => hs' b (by simp [hb])) _ _ h
                  exact ⟨c :: out, by rw [e]; simp, .pairLiteral _ _ _ _ hk hd hc59 ho⟩
                · exact ⟨[], by injection h with h; simp [h], .pairField _ _ hk hd⟩
        · rw [loop_one hk hk2] at h
          cases hstep : tokenStep t nc c k acc with
          | error e => rw [hstep] at h; cases h
          | ok p =>
            obtain ⟨b, e⟩ := p
            rw [hstep] at h
            rcases tokenStep_ok (.inl hn) hstep with ⟨hk', rfl, w, hw, rfl⟩ | ⟨rfl, hc59, rfl, rfl⟩ | ⟨rfl, rfl, rfl, rfl⟩
            · obtain ⟨out, e, ho⟩ := ih rest (by omega) hs' _ _ h
              exact ⟨w ++ out, by rw [e]; simp, .word _ _ _ _ _ hk hk2 hk' hw ho⟩
            · obtain ⟨out, e, ho⟩ := ih rest (by omega) hs' _ _ h
              exact ⟨c :: out, by rw [e]; simp, .literal _ _ _ (.inr hk) hc59 ho⟩
            · exact ⟨[], by injection h with h; simp [h], .field _ (.inr hk)⟩

/-- With a well-formed token table the only failure is a string that ends after a lead byte. -/
theorem loop_total {t : Tokens} (ht : TokensOk t) (nc : Nat) : ∀ (n : Nat) (s : List Nat), s.length ≤ n →
    (∀ b ∈ s, b < 256) → ∀ acc : Str, (∃ res, expandLoop t nc s acc = .ok res) ∨
      expandLoop t nc s acc = .error .indexError ∧ ∃ c, s.getLast? = some c ∧ t.tokens[c]? = some 0xFFFE := by
  intro n
  induction n with
  | zero =>
    intro s hl hs acc
    have : s = [] := List.length_eq_zero_iff.mp (by omega)
    subst this
    exact .inl ⟨_, loop_nil _ _ _⟩
  | succ n ih =>
    intro s hl hs acc
    have lastOf : ∀ (c : Nat) (r : List Nat) (x : Nat), r.getLast? = some x → (c :: r).getLast? = some x := by
      intro c r x h
      cases r with
      | nil => simp at h
      | cons y ys => rw [List.getLast?_cons_cons]; exact h
    cases s with
    | nil => exact .inl ⟨_, loop_nil _ _ _⟩
    | cons c rest =>
      have hs' : ∀ b ∈ rest, b < 256 := fun b hb => hs b (by simp [hb])
      simp only [List.length_cons] at hl
      -- one step that does not fail
      have stepOk : ∀ k acc, (k ≠ 0xFFFF → ∃ w, WordAt t k w) → ∃ b e, tokenStep t nc c k acc = .ok (b, e) := by
        intro k acc hw
        by_cases hk : k = 0xFFFF
        · subst hk
          unfold tokenStep
          rw [if_pos rfl]
          split
          · exact ⟨_, _, rfl⟩
          · split
            · split
              · exact ⟨_, _, rfl⟩
              · exact ⟨_, _, rfl⟩
            · exact ⟨_, _, rfl⟩
        · obtain ⟨w, hw⟩ := hw hk
          exact ⟨_, _, tokenStep_word hk hw⟩
      have carryOn : ∀ (r : List Nat) (acc : Str), r.length ≤ n → (∀ b ∈ r, b < 256) →
          (∀ x, r.getLast? = some x → (c :: rest).getLast? = some x) →
          (∃ res, expandLoop t nc r acc = .ok res) ∨ expandLoop t nc r acc = .error .indexError ∧
            ∃ x, (c :: rest).getLast? = some x ∧ t.tokens[x]? = some 0xFFFE := by
        intro r acc hr hb hlast
        rcases ih r hr hb acc with h | ⟨h, x, hx, hx'⟩
        · exact .inl h
        · exact .inr ⟨h, x, hlast x hx, hx'⟩
      by_cases hc : t.tokens.length ≤ c
      · rw [loop_high hc]
        by_cases h59 : c = 59
        · rw [if_neg (by simp [h59])]; exact .inl ⟨_, rfl⟩
        · rw [if_pos h59]
          exact carryOn rest _ (by omega) hs' (lastOf c rest)
      · obtain ⟨k, hk⟩ : ∃ k, t.tokens[c]? = some k := ⟨_, List.getElem?_eq_getElem (by omega)⟩
        by_cases hk2 : k = 0xFFFE
        · subst hk2
          cases rest with
          | nil => exact .inr ⟨loop_cut hk, c, rfl, hk⟩
          | cons d rest =>
            have hd := hs d (by simp)
            rw [loop_two hk hd]
            obtain ⟨k, hk', hw⟩ := ht.trail c hk d hd
            rw [hk']
            simp only
            obtain ⟨b, e, hstep⟩ := stepOk k acc hw
            rw [hstep]
            cases b with
            | false => exact .inl ⟨_, rfl⟩
            | true =>
              refine carryOn rest e (by simp at hl; omega) (fun b hb => hs' b (by simp [hb])) (fun x hx => ?_)
              exact lastOf _ _ _ (lastOf _ _ _ hx)
        · rw [loop_one hk hk2]
          obtain ⟨b, e, hstep⟩ := stepOk k acc (fun hne => ht.word _ _ hk hne hk2)
          rw [hstep]
          cases b with
          | false => exact .inl ⟨_, rfl⟩
          | true => exact carryOn rest e (by omega) hs' (lastOf c rest)

/-- A step for extended names is a step for names, once there is some text or when the byte is no skipped semicolon; and the
text goes on being there. -/
theorem tokenStep_extended {t : Tokens} {c k : Nat} {acc : Str}
    (h : acc ≠ [] ∨ c ≠ 59 ∨ (59 < t.tokens.length ∧ t.tokens[59]? ≠ some 0xFFFF)) :
    tokenStep t 2 c k acc = tokenStep t 0 c k acc := by
  unfold tokenStep CP_SEMICOLON U_EXTENDED_CHAR_NAME
  split
  · split
    · rfl
    · rename_i hc
      rw [if_neg (by simp : ¬ (acc.length = 0 ∧ (0 : Nat) = 2))]
      split
      · rename_i h0
        rw [if_neg]
        rintro (h1 | h1)
        · rcases h with h | h | h
          · exact h (List.length_eq_zero_iff.mp h0.1)
          · exact hc h
          · omega
        · rcases h with h | h | h
          · exact h (List.length_eq_zero_iff.mp h0.1)
          · exact hc h
          · apply h.2
            rw [List.getD_eq_getElem?_getD, List.getElem?_eq_getElem h.1, Option.getD_some] at h1
            rw [List.getElem?_eq_getElem h.1, h1]
      · rfl
  · rfl

theorem tokenStep_text {t : Tokens} {c k : Nat} {acc e : Str} (hw : k ≠ 0xFFFF → ¬ WordAt t k [])
    (h : tokenStep t 0 c k acc = .ok (true, e)) : e ≠ [] := by
  rcases tokenStep_ok (.inl (by decide)) h with ⟨hk, _, w, hww, rfl⟩ | ⟨_, _, _, rfl⟩ | ⟨_, _, hb, _⟩
  · intro h0
    have : w = [] := (List.append_eq_nil_iff.mp h0).2
    subst this
    exact hw hk hww
  · simp
  · cases hb

/-- The loop for extended names is the loop for names, once there is some text or when the string does not begin with a skipped
semicolon. -/
theorem loop_extended {t : Tokens} (hw : ∀ k ∈ t.tokens, k ≠ 0xFFFF → ¬ WordAt t k []) : ∀ (n : Nat) (s : List Nat),
    s.length ≤ n → (∀ b ∈ s, b < 256) → ∀ acc : Str, acc ≠ [] ∨ s.head? ≠ some 59 ∨ t.tokens[59]? ≠ some 0xFFFF →
    expandLoop t 2 s acc = expandLoop t 0 s acc := by
  intro n
  induction n with
  | zero =>
    intro s hl hs acc _
    have : s = [] := List.length_eq_zero_iff.mp (by omega)
    subst this
    rw [loop_nil, loop_nil]
  | succ n ih =>
    intro s hl hs acc h
    cases s with
    | nil => rw [loop_nil, loop_nil]
    | cons c rest =>
      have hs' : ∀ b ∈ rest, b < 256 := fun b hb => hs b (by simp [hb])
      simp only [List.length_cons] at hl
      by_cases hc : t.tokens.length ≤ c
      · rw [loop_high hc, loop_high hc]
        by_cases h59 : c = 59
        · rw [if_neg (by simp [h59]), if_neg (by simp [h59])]
        · rw [if_pos h59, if_pos h59, ih rest (by omega) hs' _ (.inl (by simp))]
      · have same : ∀ k, tokenStep t 2 c k acc = tokenStep t 0 c k acc := by
          intro k
          apply tokenStep_extended
          rcases h with h | h | h
          · exact .inl h
          · exact .inr (.inl (fun e => h (by simp [e])))
          · by_cases h59 : c = 59
            · exact .inr (.inr ⟨by omega, h⟩)
            · exact .inr (.inl h59)
        obtain ⟨k, hk⟩ : ∃ k, t.tokens[c]? = some k := ⟨_, List.getElem?_eq_getElem (by omega)⟩
        by_cases hk2 : k = 0xFFFE
        · subst hk2
          cases rest with
          | nil => rw [loop_cut hk, loop_cut hk]
          | cons d rest =>
            rw [loop_two hk (hs d (by simp)), loop_two hk (hs d (by simp))]
            cases hd : t.tokens[c * 256 + d]? with
            | none => rfl
            | some k =>
              simp only [same]
              cases hstep : tokenStep t 0 c k acc with
              | error e => rfl
              | ok p =>
                obtain ⟨b, e⟩ := p
                cases b with
                | false => rfl
                | true =>
                  exact ih rest (by simp at hl; omega) (fun b hb => hs' b (by simp [hb])) e
                    (.inl (tokenStep_text (hw k (List.mem_of_getElem? hd)) hstep))
        · rw [loop_one hk hk2, loop_one hk hk2, same]
          cases hstep : tokenStep t 0 c k acc with
          | error e => rfl
          | ok p =>
            obtain ⟨b, e⟩ := p
            cases b with
            | false => rfl
            | true => exact ih rest (by omega) hs' e (.inl (tokenStep_text (hw k (List.mem_of_getElem? hk)) hstep))

/-- With an empty text and a semicolon that stands for itself, the loop for extended names skips the semicolon. -/
theorem loop_skip {t : Tokens} (h : t.tokens[59]? = some 0xFFFF) (rest : List Nat) :
    expandLoop t 2 (59 :: rest) [] = expandLoop t 2 rest [] := by
  rw [loop_one h (by decide)]
  have : tokenStep t 2 59 0xFFFF [] = .ok (true, []) := by
    unfold tokenStep CP_SEMICOLON U_EXTENDED_CHAR_NAME
    rw [if_pos rfl, if_neg (by simp), if_pos ⟨rfl, rfl⟩, if_pos (.inr (getD_of_some h))]
  rw [this]

end Verif.CharNames

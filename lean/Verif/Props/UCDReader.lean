import Verif.Model.UCDReader
import Verif.Spec.UCDReader
import Verif.Lemmas.Trie2Enum
/-!
# Generated dictionaries: `UCDReader.py` (C59)
-/
namespace Verif.UCDReader.Props
open Verif.UCDReader.Spec
open Verif.ICUData (Dict dictGet dictSet)

theorem lookup_find {β : Type} : ∀ (l : List (Str × β)) (k : Str), l.lookup k = (l.find? (fun p => p.1 = k)).map (·.2) := by
  intro l
  induction l with
  | nil => intro k; rfl
  | cons p l ih =>
    intro k
    obtain ⟨a, b⟩ := p
    rw [List.lookup_cons, List.find?_cons]
    by_cases h : k = a
    · subst h; simp
    · have h' : ¬ a = k := fun e => h e.symm
      rw [show (k == a) = false by simpa using h, ih]
      simp [h']

theorem find_key {β : Type} {l : List (Str × β)} {k : Str} {p : Str × β} (h : l.find? (fun p => p.1 = k) = some p) : p.1 = k := by
  have := List.find?_some h
  simpa using this

theorem keyOf_eq (upper : Str → Str) (t : TypeEntry) (l : Str) : keyOf upper t l = constantName upper t l := by
  unfold keyOf constantName
  rw [lookup_find]
  cases h : t.mappings.find? (fun p => p.1 = l) with
  | none => rfl
  | some p =>
    obtain ⟨a, b⟩ := p
    cases b with
    | nil => rfl
    | cons x b => simp

theorem replace_space : ∀ s : Str, replace 95 (txt " ") s = s.map (fun c => if c = 95 then 32 else c) := by
  intro s
  induction s with
  | nil => rfl
  | cons c s ih =>
    rw [replace, ih, List.map_cons]
    by_cases h : c = 95
    · simp [h]; rfl
    · simp [h]

theorem apply_eq (lower : Str → Str) (t : TypeEntry) (s : Str) : t.short.apply lower s = shortText lower t s := by
  unfold ShortNames.apply shortText
  cases t.short with
  | lower => rfl
  | copy => rfl
  | spaces => exact replace_space s

/-! ## Lists of distinct elements -/

theorem mem_firsts {x : Str} : ∀ {l : List Str}, x ∈ firsts l ↔ x ∈ l := by
  intro l
  induction l with
  | nil => simp [firsts]
  | cons y l ih =>
    simp only [firsts, List.mem_cons, List.mem_filter, ih]
    by_cases h : x = y <;> simp [h]

theorem firsts_snoc (x : Str) : ∀ l : List Str, firsts (l ++ [x]) = if x ∈ l then firsts l else firsts l ++ [x] := by
  intro l
  induction l with
  | nil => simp [firsts]
  | cons y l ih =>
    rw [List.cons_append, firsts, ih, firsts]
    by_cases h : x ∈ l
    · simp [h]
    · by_cases e : x = y
      · subst e
        simp [h]
      · simp [h, e]

/-! ## Dictionaries -/

theorem dictGet_map {α : Type} (f : Str → α) : ∀ (l : List Str) (k : Str), k ∈ l →
    dictGet (l.map (fun x => (x, f x))) k = .ok (f k) := by
  intro l
  induction l with
  | nil => intro k h; simp at h
  | cons x l ih =>
    intro k h
    rw [List.map_cons, dictGet]
    by_cases e : x = k
    · rw [if_pos e, e]
    · rw [if_neg e]
      exact ih k ((List.mem_cons.mp h).resolve_left (fun e' => e e'.symm))

theorem dictSet_map {α : Type} (f : Str → α) (v : α) (k : Str) : ∀ (l : List Str), l.Nodup → k ∈ l →
    dictSet (l.map (fun x => (x, f x))) k v = l.map (fun x => (x, if x = k then v else f x)) := by
  intro l
  induction l with
  | nil => intro _ h; simp at h
  | cons x l ih =>
    intro hd h
    rw [List.nodup_cons] at hd
    rw [List.map_cons, dictSet, List.map_cons]
    by_cases e : x = k
    · subst e
      rw [if_pos rfl, if_pos rfl]
      congr 1
      refine List.map_congr_left ?_
      intro y hy
      have : y ≠ x := fun e => hd.1 (e ▸ hy)
      simp [this]
    · rw [if_neg e, if_neg e, ih hd.2 ((List.mem_cons.mp h).resolve_left (fun e' => e e'.symm))]

theorem dictSet_new {α : Type} (v : α) (k : Str) : ∀ (d : Dict α), k ∉ d.map (·.1) → dictSet d k v = d ++ [(k, v)] := by
  intro d
  induction d with
  | nil => intro _; rfl
  | cons p d ih =>
    intro h
    obtain ⟨a, b⟩ := p
    simp only [List.map_cons, List.mem_cons, not_or] at h
    rw [dictSet, if_neg (fun e => h.1 e.symm), ih h.2]
    rfl

theorem nodup_firsts : ∀ l : List Str, (firsts l).Nodup := by
  intro l
  induction l with
  | nil => simp [firsts]
  | cons x l ih =>
    rw [firsts, List.nodup_cons]
    exact ⟨by simp, ih.filter _⟩

/-! ## The loop -/

/-- The state after some rows. -/
def after (upper lower : Str → Str) (rows : List (List Str)) : State := ⟨version rows, dictionaries upper lower rows⟩

theorem keys_after (upper lower : Str → Str) (rows : List (List Str)) :
    (dictionaries upper lower rows).map (·.1) = firsts (rows.filterMap knownType) := by
  unfold dictionaries
  rw [List.map_map]
  exact List.map_id' _

theorem version_snoc (rows : List (List Str)) (row : List Str) :
    version (rows ++ [row]) = match row with
      | k :: v :: _ => if k = txt "ucd" then some v else version rows
      | _ => version rows := by
  unfold version
  rw [List.filterMap_append]
  match row with
  | [] => simp
  | [k] => simp
  | k :: v :: rest =>
    by_cases h : k = txt "ucd"
    · simp [h]
    · simp [h]

theorem dictionaries_other (upper lower : Str → Str) (rows : List (List Str)) (row : List Str) (h : knownType row = none) :
    dictionaries upper lower (rows ++ [row]) = dictionaries upper lower rows := by
  unfold dictionaries
  rw [List.filterMap_append, show [row].filterMap knownType = [] by simp [h], List.append_nil]
  refine List.map_congr_left ?_
  intro type hm
  rw [List.filterMap_append]
  have hk : type ∈ prefixes.map (·.1) := by
    obtain ⟨r, _, e⟩ := List.mem_filterMap.mp (mem_firsts.mp hm)
    unfold knownType at e
    split at e
    · split at e
      · cases e; rename_i h; exact h.2
      · cases e
    · cases e
  have : rowLine upper lower type row = none := by
    unfold rowLine
    unfold knownType at h
    split
    · rename_i k type' s l rest
      by_cases hc : k = txt "value" ∧ type' = type
      · simp only [hc.1, hc.2, hk, and_self, if_true] at h
        cases h
      · rw [if_neg hc]
    · rfl
  simp [this]

theorem row_known {upper lower : Str → Str} {rows : List (List Str)} {type : Str} {t : TypeEntry} {s l : Str} {rest : List Str}
    (ht : prefixes.find? (fun p => p.1 = type) = some (type, t)) :
    dictionaries upper lower (rows ++ [txt "value" :: type :: s :: l :: rest]) =
      (if type ∈ rows.filterMap knownType then firsts (rows.filterMap knownType)
        else firsts (rows.filterMap knownType) ++ [type]).map
        (fun x => (x, if x = type then rows.filterMap (rowLine upper lower type) ++
            ((constantName upper t l).map (fun key => txt "    " ++ t.pre ++ txt "_" ++ key ++ txt ": \"" ++ shortText lower t s ++
              txt "\"")).toList
          else rows.filterMap (rowLine upper lower x))) := by
  have hk : type ∈ prefixes.map (·.1) := List.mem_map.mpr ⟨_, List.mem_of_find?_eq_some ht, rfl⟩
  unfold dictionaries
  rw [List.filterMap_append, show [txt "value" :: type :: s :: l :: rest].filterMap knownType = [type] by
    simp [knownType, hk], firsts_snoc]
  refine List.map_congr_left ?_
  intro x _
  rw [List.filterMap_append]
  by_cases e : x = type
  · subst e
    rw [if_pos rfl]
    congr 2
    simp only [List.filterMap_cons, List.filterMap_nil, rowLine, and_self, if_true, ht]
    cases constantName upper t l <;> rfl
  · rw [if_neg e]
    have : rowLine upper lower x (txt "value" :: type :: s :: l :: rest) = none := by
      unfold rowLine
      simp only
      rw [if_neg (fun h => e h.2.symm)]
    simp [this]

theorem find_iff {type : Str} : (∃ t, prefixes.find? (fun p => p.1 = type) = some (type, t)) ↔ type ∈ prefixes.map (·.1) := by
  constructor
  · rintro ⟨t, h⟩
    exact List.mem_map.mpr ⟨_, List.mem_of_find?_eq_some h, rfl⟩
  · intro h
    obtain ⟨p, hp, e⟩ := List.mem_map.mp h
    cases hf : prefixes.find? (fun p => p.1 = type) with
    | none => exact absurd e (by simpa using List.find?_eq_none.mp hf p hp)
    | some q =>
      have := find_key hf
      obtain ⟨a, b⟩ := q
      exact ⟨b, by rw [← this]⟩

theorem processRow_after (upper lower : Str → Str) (rows : List (List Str)) (row : List Str) (h : ¬ Short row) :
    processRow upper lower (after upper lower rows) row = .ok (after upper lower (rows ++ [row])) := by
  unfold Short at h
  match row with
  | [] =>
    simp only [processRow, after]
    rw [version_snoc, dictionaries_other _ _ _ _ rfl]
  | kind :: rest =>
    simp only [processRow]
    by_cases h1 : kind = txt "ucd"
    · rw [if_pos h1]
      match rest with
      | [] => exact absurd (.inl ⟨by simp [h1], by simp⟩) h
      | v :: rest =>
        have hk : knownType (kind :: v :: rest) = none := by
          unfold knownType
          split
          · rename_i e
            injection e with e1 _
            rw [if_neg]
            rintro ⟨e2, _⟩
            rw [← e1, h1] at e2
            exact absurd e2 (by decide)
          · rfl
        simp only [field, List.getElem?_cons_succ, List.getElem?_cons_zero, bind, Except.bind]
        unfold after
        rw [version_snoc, dictionaries_other _ _ _ _ hk]
        simp only [if_pos h1]
    · rw [if_neg h1]
      have hver : version (rows ++ [kind :: rest]) = version rows := by
        rw [version_snoc]
        split
        · rename_i e
          injection e with e _
          rw [if_neg (e ▸ h1)]
        · rfl
      by_cases h2 : kind = txt "value"
      · rw [if_pos h2]
        subst h2
        match rest with
        | [] => exact absurd (.inr ⟨by simp, by simp⟩) h
        | [_] => exact absurd (.inr ⟨by simp, by simp⟩) h
        | [_, _] => exact absurd (.inr ⟨by simp, by simp⟩) h
        | type :: s :: l :: rest =>
          simp only [field, List.getElem?_cons_succ, List.getElem?_cons_zero, bind, Except.bind]
          rw [lookup_find]
          cases hf : prefixes.find? (fun p => p.1 = type) with
          | none =>
            simp only [Option.map_none]
            unfold after
            rw [hver, dictionaries_other]
            unfold knownType
            have : type ∉ prefixes.map (·.1) := by
              intro hm
              obtain ⟨t, ht⟩ := find_iff.mpr hm
              rw [hf] at ht
              cases ht
            simp only
            rw [if_neg (fun hc => this hc.2)]
          | some p =>
            obtain ⟨a, t⟩ := p
            have := find_key hf
            simp only at this
            subst this
            simp only [Option.map_some]
            have hd := row_known (upper := upper) (lower := lower) (rows := rows) (s := s) (l := l) (rest := rest) hf
            have hlines : (if ((after upper lower rows).lines.map (·.1)).contains a then (after upper lower rows).lines
                else dictSet (after upper lower rows).lines a []) =
                (if a ∈ rows.filterMap knownType then firsts (rows.filterMap knownType)
                  else firsts (rows.filterMap knownType) ++ [a]).map
                  (fun x => (x, rows.filterMap (rowLine upper lower x))) := by
              show (if ((dictionaries upper lower rows).map (·.1)).contains a then dictionaries upper lower rows
                else dictSet (dictionaries upper lower rows) a []) = _
              rw [keys_after]
              by_cases hm : a ∈ rows.filterMap knownType
              · rw [if_pos hm, if_pos (by simpa using mem_firsts.mpr hm)]
                rfl
              · rw [if_neg hm, if_neg (by simpa using fun h => hm (mem_firsts.mp h)),
                  dictSet_new _ _ _ (by rw [keys_after]; exact fun h => hm (mem_firsts.mp h)), List.map_append]
                have : rows.filterMap (rowLine upper lower a) = [] := by
                  rw [List.filterMap_eq_nil_iff]
                  intro r hr
                  cases hl : rowLine upper lower a r with
                  | none => rfl
                  | some x =>
                    refine absurd (List.mem_filterMap.mpr ⟨r, hr, ?_⟩) hm
                    unfold rowLine at hl
                    unfold knownType
                    split at hl
                    · split at hl
                      · rename_i hc
                        rw [if_pos ⟨hc.1, hc.2 ▸ find_iff.mp ⟨t, hf⟩⟩, hc.2]
                      · cases hl
                    · cases hl
                simp [this, dictionaries]
            rw [hlines, keyOf_eq]
            have hmem : a ∈ (if a ∈ rows.filterMap knownType then firsts (rows.filterMap knownType)
                else firsts (rows.filterMap knownType) ++ [a]) := by
              split
              · rename_i hm; exact mem_firsts.mpr hm
              · simp
            have hnd : (if a ∈ rows.filterMap knownType then firsts (rows.filterMap knownType)
                else firsts (rows.filterMap knownType) ++ [a]).Nodup := by
              rw [← firsts_snoc]
              exact nodup_firsts _
            cases hc : constantName upper t l with
            | none =>
              simp only
              unfold after
              rw [hver, hd, hc]
              congr 2
              refine List.map_congr_left ?_
              intro x _
              by_cases e : x = a
              · subst e; simp
              · simp [e]
            | some key =>
              simp only [appendLine, bind, Except.bind]
              rw [dictGet_map _ _ _ hmem]
              simp only
              rw [dictSet_map _ _ _ _ hnd hmem]
              unfold after
              rw [hver, hd, hc]
              congr 2
              refine List.map_congr_left ?_
              intro x _
              by_cases e : x = a
              · subst e; simp [lineOf, apply_eq]
              · simp [e]
      · rw [if_neg h2]
        unfold after
        rw [hver, dictionaries_other]
        unfold knownType
        split
        · rename_i e
          injection e with e _
          rw [if_neg]
          rintro ⟨e2, _⟩
          exact h2 (e.trans e2)
        · rfl

theorem processRows_after (upper lower : Str → Str) : ∀ (rows done : List (List Str)), (∀ row ∈ rows, ¬ Short row) →
    processRows upper lower (after upper lower done) rows = .ok (after upper lower (done ++ rows)) := by
  intro rows
  induction rows with
  | nil => intro done _; rw [List.append_nil]; rfl
  | cons row rows ih =>
    intro done h
    rw [processRows, processRow_after _ _ _ _ (h row (by simp))]
    simp only [bind, Except.bind]
    rw [ih _ (fun r hr => h r (by simp [hr])), List.append_assoc, List.singleton_append]

/-- C59. On any file without short rows the result is, for each known type that occurs, in the order of first occurrence,
one line for each of its value rows, in file order, except those whose long name is mapped to the empty text; and the version
of the last version row. -/
theorem generateDictionaries_ok (upper lower : Str → Str) (rows : List (List Str)) (h : ∀ row ∈ rows, ¬ Short row) :
    generateDictionaries upper lower rows = .ok ⟨version rows, dictionaries upper lower rows⟩ := by
  have := processRows_after upper lower rows [] h
  exact this

theorem processRow_short (upper lower : Str → Str) (s : State) (row : List Str) (h : Short row) :
    processRow upper lower s row = .error .indexError := by
  unfold Short at h
  match row with
  | [] => simp at h
  | [k] =>
    simp only [List.head?_cons, Option.some.injEq] at h
    rcases h with ⟨h, _⟩ | ⟨h, _⟩ <;> subst h <;> rfl
  | [k, a] =>
    simp only [List.head?_cons, Option.some.injEq] at h
    rcases h with ⟨_, h⟩ | ⟨h, _⟩
    · simp at h
    · subst h; rfl
  | [k, a, b] =>
    simp only [List.head?_cons, Option.some.injEq] at h
    rcases h with ⟨_, h⟩ | ⟨h, _⟩
    · simp at h
    · subst h; rfl
  | k :: a :: b :: c :: rest =>
    rcases h with ⟨_, h⟩ | ⟨_, h⟩ <;> simp at h <;> omega

/-- C59. A short row is the only thing that makes the reader fail, with `IndexError`. -/
theorem generateDictionaries_error (upper lower : Str → Str) (rows : List (List Str)) (h : ∃ row ∈ rows, Short row) :
    generateDictionaries upper lower rows = .error .indexError := by
  suffices ∀ (rows done : List (List Str)), (∃ row ∈ rows, Short row) →
      processRows upper lower (after upper lower done) rows = .error .indexError from this rows [] h
  intro rows
  induction rows with
  | nil => rintro done ⟨r, hr, _⟩; simp at hr
  | cons row rows ih =>
    rintro done ⟨r, hr, hs⟩
    rw [processRows]
    by_cases hrow : Short row
    · rw [processRow_short _ _ _ _ hrow]; rfl
    · rw [processRow_after _ _ _ _ hrow]
      refine ih _ ⟨r, (List.mem_cons.mp hr).resolve_left ?_, hs⟩
      rintro rfl
      exact hrow hs

theorem mapPy_ok {α β : Type} (f : α → Py β) (g : α → β) : ∀ l : List α, (∀ x ∈ l, f x = .ok (g x)) → mapPy f l = .ok (l.map g) := by
  intro l
  induction l with
  | nil => intro _; rfl
  | cons x l ih =>
    intro h
    rw [mapPy, h x (by simp)]
    simp only [bind, Except.bind]
    rw [ih (fun y hy => h y (by simp [hy]))]
    rfl

/-- C59. `writeFile` writes the header lines and then the dictionaries one after the other. -/
theorem fileText_ok (upper lower : Str → Str) (rows : List (List Str)) (header : List Str) (h : ∀ row ∈ rows, ¬ Short row) :
    (generateDictionaries upper lower rows >>= fileText header) =
      .ok ((header.map (· ++ txt "\n")).flatten ++ ((dictionaries upper lower rows).map Spec.dictionaryText).flatten) := by
  rw [generateDictionaries_ok _ _ _ h]
  simp only [bind, Except.bind, fileText]
  rw [mapPy_ok _ Spec.dictionaryText]
  intro d hd
  obtain ⟨type, hm, rfl⟩ := List.mem_map.mp hd
  obtain ⟨r, _, e⟩ := List.mem_filterMap.mp (mem_firsts.mp hm)
  have hk : type ∈ prefixes.map (·.1) := by
    unfold knownType at e
    split at e
    · split at e
      · cases e; rename_i h; exact h.2
      · cases e
    · cases e
  obtain ⟨t, ht⟩ := find_iff.mpr hk
  simp only [UCDReader.dictionaryText, Spec.dictionaryText, dictionaryName]
  rw [lookup_find, ht]
  simp only [Option.map_some]
  congr 1
  rw [show txt " = {\n" = txt " = " ++ txt "{\n" from rfl, show txt "Names = " = txt "Names" ++ txt " = " from rfl]
  simp [join]

/-- A file with rows of two types, an unknown type and an unmapped value. -/
example : ∀ row ∈ [[txt "ucd", txt "13.0.0"], [], [txt "value", txt "gc", txt "Lu", txt "Uppercase_Letter"],
    [txt "value", txt "sc", txt "Zsym", txt "Zsym"], [txt "value", txt "gc", txt "C", txt "Other"],
    [txt "value", txt "gc", txt "Cc", txt "Control", txt "cntrl"], [txt "value", txt "age", txt "1.1", txt "V1_1"]],
    ¬ Short row := by
  unfold Short; decide

example : generateDictionaries id id [[txt "ucd", txt "13.0.0"], [], [txt "value", txt "gc", txt "Lu", txt "Uppercase_Letter"],
    [txt "value", txt "sc", txt "Zsym", txt "Zsym"], [txt "value", txt "gc", txt "C", txt "Other"],
    [txt "value", txt "gc", txt "Cc", txt "Control", txt "cntrl"], [txt "value", txt "age", txt "1.1", txt "V1_1"]] =
    .ok ⟨some (txt "13.0.0"), [(txt "gc", [txt "    U_Uppercase_Letter: \"Lu\"", txt "    U_CONTROL_CHAR: \"Cc\""]),
      (txt "sc", [txt "    USCRIPT_SYMBOLS: \"Zsym\""])]⟩ := by decide

end Verif.UCDReader.Props

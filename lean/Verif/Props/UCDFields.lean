import Verif.Props.UCD
/-!
# The attributes that the fields of the records hold (C76)
-/
namespace Verif.UCD.Props
open Verif.UCD.Spec

/-- C76. Every binary property of the Unicode standard that the class lists is a field of the object, and tells whether the
property has the value `Y`. -/
theorem binaryProperties_attributes (char group : Element) (hc : UniqueKeys char) (hg : UniqueKeys group) (b : BinaryProperties)
    (h : binaryProperties char group = .ok b) (field tag : Str) (hp : (field, tag) ∈ binaryFields) :
    ∃ v, b.fields.lookup field = some v ∧ Flag char group tag v :=
  binaryProperties_fields char group hc hg b h field tag (by
    have : ∀ p ∈ binaryFields, p ∈ propsList := by decide +kernel
    exact this _ hp)

section
variable {char group : Element} {u : UCDProperties}

theorem ucd_elements (hu : ucdProperties char group = .ok u) : u.char = char ∧ u.group = group := by
  unfold ucdProperties at hu
  cases hi : pyInt 16 (charProperty char group (txt "cp")) with
  | error e => simp only [hi] at hu; cases hu
  | ok n =>
    simp only [hi, bind, Except.bind, Except.ok.injEq] at hu
    rw [← hu]
    exact ⟨rfl, rfl⟩

theorem text_value (hc : UniqueKeys char) (hg : UniqueKeys group) (hu : ucdProperties char group = .ok u) (p : Str) :
    Value char group p (u.getCharProperty p) := by
  rw [← value_iff hc hg]
  unfold UCDProperties.getCharProperty
  rw [(ucd_elements hu).1, (ucd_elements hu).2]

theorem flag_value (hc : UniqueKeys char) (hg : UniqueKeys group) (hu : ucdProperties char group = .ok u) (p : Str) :
    Flag char group p (u.getBooleanProperty p) := by
  have := getBooleanProperty_iff u (by rw [(ucd_elements hu).1]; exact hc) (by rw [(ucd_elements hu).2]; exact hg) p
  rw [(ucd_elements hu).1, (ucd_elements hu).2] at this
  exact this
end

/-- C76. The fields of the decomposition record hold the attributes that the UCD names for them. -/
theorem decompProperties_attributes (char group : Element) (hc : UniqueKeys char) (hg : UniqueKeys group) (d : DecompProperties)
    (h : decompProperties char group = .ok d) :
    Value char group (txt "dt") d.decompositionType ∧ Flag char group (txt "CE") d.compositionExclusion ∧
    Flag char group (txt "Comp_Ex") d.fullCompositionExclusion ∧ Value char group (txt "NFC_QC") d.nfcQuickCheck ∧
    Value char group (txt "NFD_QC") d.nfdQuickCheck ∧ Value char group (txt "NFKC_QC") d.nfkcQuickCheck ∧
    Value char group (txt "NFKD_QC") d.nfkdQuickCheck ∧ Flag char group (txt "XO_NFC") d.expandOnNFC ∧
    Flag char group (txt "XO_NFD") d.expandOnNFD ∧ Flag char group (txt "XO_NFKC") d.expandOnNFKC ∧
    Flag char group (txt "XO_NFKD") d.expandOnNFKD := by
  unfold decompProperties at h
  cases hu : ucdProperties char group with
  | error e => rw [hu] at h; cases h
  | ok u =>
    rw [hu] at h
    simp only [bind, Except.bind] at h
    repeat' (split at h <;> first | contradiction | skip)
    injection h with h
    subst h
    have t := text_value hc hg hu
    have f := flag_value hc hg hu
    exact ⟨t _, f _, f _, t _, t _, t _, t _, f _, f _, f _, f _⟩

/-- C76. The fields of the case record hold the attributes that the UCD names for them. -/
theorem caseProperties_attributes (char group : Element) (hc : UniqueKeys char) (hg : UniqueKeys group) (d : CaseProperties)
    (h : caseProperties char group = .ok d) :
    Flag char group (txt "Upper") d.upper ∧ Flag char group (txt "Lower") d.lower ∧ Flag char group (txt "OUpper") d.otherUpper ∧
    Flag char group (txt "OLower") d.otherLower ∧ Flag char group (txt "CI") d.caseIgnorable ∧ Flag char group (txt "Cased") d.cased ∧
    Flag char group (txt "CWCF") d.changesWhenCaseFolded ∧ Flag char group (txt "CWCM") d.changesWhenCasedMapped ∧
    Flag char group (txt "CWL") d.changesWhenLowercased ∧ Flag char group (txt "CWKCF") d.changesWhenNFKCCaseFolded ∧
    Flag char group (txt "CWT") d.changesWhenTitlecased ∧ Flag char group (txt "CWU") d.changesWhenUppercased := by
  unfold caseProperties at h
  cases hu : ucdProperties char group with
  | error e => rw [hu] at h; cases h
  | ok u =>
    rw [hu] at h
    simp only [bind, Except.bind] at h
    repeat' (split at h <;> first | contradiction | skip)
    injection h with h
    subst h
    have f := flag_value hc hg hu
    exact ⟨f _, f _, f _, f _, f _, f _, f _, f _, f _, f _, f _, f _⟩

/-- C76. The fields of the bidi record hold the attributes that the UCD names for them. -/
theorem bidiProperties_attributes (char group : Element) (hc : UniqueKeys char) (hg : UniqueKeys group) (d : BidiProperties)
    (h : bidiProperties char group = .ok d) :
    Value char group (txt "bc") d.bidiClass ∧ Flag char group (txt "Bidi_M") d.bidiMirrored ∧
    Flag char group (txt "Bidi_C") d.bidiControl ∧ Value char group (txt "bpt") d.bidiPairedBracketType := by
  unfold bidiProperties at h
  cases hu : ucdProperties char group with
  | error e => rw [hu] at h; cases h
  | ok u =>
    rw [hu] at h
    simp only [bind, Except.bind] at h
    repeat' (split at h <;> first | contradiction | skip)
    injection h with h
    subst h
    have t := text_value hc hg hu
    have f := flag_value hc hg hu
    exact ⟨t _, f _, f _, t _⟩

/-- C76. The fields of the Indic record hold the attributes that the UCD names for them. -/
theorem indicProperties_attributes (char group : Element) (hc : UniqueKeys char) (hg : UniqueKeys group) (d : IndicProperties)
    (h : indicProperties char group = .ok d) :
    Value char group (txt "InSC") d.syllabicCategory ∧ Value char group (txt "InPC") d.positionalCategory := by
  unfold indicProperties at h
  cases hu : ucdProperties char group with
  | error e => rw [hu] at h; cases h
  | ok u =>
    rw [hu] at h
    simp only [bind, Except.bind] at h
    injection h with h
    subst h
    have t := text_value hc hg hu
    exact ⟨t _, t _⟩

/-- C76. The fields of a character's record hold the attributes that the UCD names for them, and its parts are the
decomposition, case, bidi, Indic and binary records of the same character. -/
theorem characterData_attributes {α : Type} (eval : Str → Py α) (char group : Element) (hc : UniqueKeys char) (hg : UniqueKeys group)
    (d : CharacterData α) (h : characterData eval char group = .ok d) :
    Value char group (txt "gc") d.generalCategory ∧ Value char group (txt "nt") d.numericType ∧ Value char group (txt "sc") d.script ∧
    Value char group (txt "jt") d.joiningType ∧ Flag char group (txt "Join_C") d.isJoiningControl ∧
    Value char group (txt "lb") d.lineBreak ∧ Value char group (txt "SB") d.sentenceBreak ∧ Value char group (txt "WB") d.wordBreak ∧
    Value char group (txt "GCB") d.graphemeClusterBreak ∧ Value char group (txt "ea") d.eastAsianWidth ∧
    Value char group (txt "hst") d.hangulSyllableType ∧ Value char group (txt "JSN") d.jamoShortName ∧
    Value char group (txt "vo") d.verticalOrientation ∧ Flag char group (txt "Emoji") d.emoji ∧
    Flag char group (txt "EPres") d.emojiPresentation ∧ Flag char group (txt "EMod") d.emojiModifier ∧
    Flag char group (txt "EBase") d.emojiModifierBase ∧ Flag char group (txt "EComp") d.emojiComponent ∧
    Flag char group (txt "ExtPict") d.extendedPictograph ∧
    (∃ v, Value char group (txt "blk") v ∧ d.block = v.map (fun c => if c = 95 then 32 else c)) ∧
    (∃ v, Value char group (txt "jg") v ∧ d.joiningGroup = v.map (fun c => if c = 95 then 32 else c)) ∧
    (∃ v, Value char group (txt "scx") v ∧ [32].intercalate d.scriptExtensions = v ∧ ∀ s ∈ d.scriptExtensions, 32 ∉ s) ∧
    decompProperties char group = .ok d.decompProperties ∧ caseProperties char group = .ok d.caseProperties ∧
    bidiProperties char group = .ok d.bidiProperties ∧ indicProperties char group = .ok d.indicProperties ∧
    binaryProperties char group = .ok d.binaryProperties := by
  have hspace : ∀ s : Str, replace 95 (txt " ") s = s.map (fun c => if c = 95 then 32 else c) := by
    intro s
    induction s with
    | nil => rfl
    | cons c s ih =>
      rw [replace, ih, List.map_cons]
      by_cases h : c = 95
      · simp [h]; rfl
      · simp [h]
  have hsplit : ∀ s : Str, [32].intercalate (splitOn 32 s) = s ∧ ∀ f ∈ splitOn 32 s, 32 ∉ f := by
    intro s
    induction s with
    | nil => exact ⟨rfl, by simp [splitOn]⟩
    | cons c s ih =>
      obtain ⟨h1, h2⟩ := ih
      rw [splitOn]
      cases e : splitOn 32 s with
      | nil =>
        exfalso
        cases s with
        | nil => simp [splitOn] at e
        | cons x s =>
          rw [splitOn] at e
          split at e
          · cases e
          · split at e <;> cases e
      | cons f fs =>
        rw [e] at h1 h2
        by_cases hc : c = 32
        · rw [if_pos hc]
          refine ⟨?_, ?_⟩
          · rw [← h1, hc]; rfl
          · intro g hg
            rcases List.mem_cons.mp hg with rfl | hg
            · simp
            · exact h2 g hg
        · rw [if_neg hc]
          refine ⟨?_, ?_⟩
          · rw [← h1]
            cases fs <;> rfl
          · intro g hg
            rcases List.mem_cons.mp hg with rfl | hg
            · intro hm
              rcases List.mem_cons.mp hm with rfl | hm
              · exact hc rfl
              · exact h2 f (by simp) hm
            · exact h2 g (by simp [hg])
  unfold characterData at h
  cases hu : ucdProperties char group with
  | error e => rw [hu] at h; cases h
  | ok u =>
    rw [hu] at h
    simp only [bind, Except.bind] at h
    cases h1 : pyInt 10 (u.getCharProperty (txt "ccc")) with
    | error e => rw [h1] at h; cases h
    | ok ccc =>
      rw [h1] at h; simp only at h
      cases h2 : bidiProperties char group with
      | error e => rw [h2] at h; cases h
      | ok bi =>
        rw [h2] at h; simp only at h
        cases h3 : numericOf eval (u.getCharProperty (txt "nv")) with
        | error e => rw [h3] at h; cases h
        | ok nv =>
          rw [h3] at h; simp only at h
          cases h4 : decompProperties char group with
          | error e => rw [h4] at h; cases h
          | ok de =>
            rw [h4] at h; simp only at h
            cases h5 : caseProperties char group with
            | error e => rw [h5] at h; cases h
            | ok ca =>
              rw [h5] at h; simp only at h
              cases h6 : indicProperties char group with
              | error e => rw [h6] at h; cases h
              | ok ic =>
                rw [h6] at h; simp only at h
                cases h7 : binaryProperties char group with
                | error e => rw [h7] at h; cases h
                | ok bn =>
                  rw [h7] at h
                  injection h with h
                  subst h
                  have t := text_value hc hg hu
                  have f := flag_value hc hg hu
                  exact ⟨t _, t _, t _, t _, f _, t _, t _, t _, t _, t _, t _, t _, t _, f _, f _, f _, f _, f _, f _,
                    ⟨_, t _, hspace _⟩, ⟨_, t _, hspace _⟩, ⟨_, t _, hsplit _⟩, rfl, rfl, rfl, rfl, rfl⟩

example : UniqueKeys fullChar ∧ UniqueKeys fullGroup ∧
    ∃ d : CharacterData Unit, characterData (fun _ => .error .valueError) fullChar fullGroup = .ok d := by
  obtain ⟨d, hd, _⟩ := characterData_total _ fullChar fullGroup fullRecord
  exact ⟨fullRecord.charKeys, fullRecord.groupKeys, d, hd⟩

end Verif.UCD.Props

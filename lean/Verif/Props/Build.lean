import Verif.Lemmas.BuildPlan
import Verif.Props.HeaderTranslate
import Verif.Props.ModuleText
/-! # What `build` does to the disk (C115, C116) -/
namespace Verif.Build.Props
open Verif.Build.Spec

/-- The outputs with their paths. -/
def buildPlan (w : World) (icuSource icuBuild outDir : Path) (d : Disk) : Plan :=
  (outputs w icuSource icuBuild outDir d).map fun o => (outDir ++ [o.1], o.2)

theorem headerName_of {w : World} (hw : AsciiCase w) {s t : Str}
    (e : (replace 46 (txt "_") s).map (fun c => if 65 ≤ c ∧ c ≤ 90 then c + 32 else c) = t) (h' : ∀ c ∈ replace 46 (txt "_") s, c < 128) :
    headerName w s = t := by
  unfold headerName
  rw [(hw _ h').1, e]

theorem follows_versioned {out : Path} {W : List Str} {d : Disk} {base B : Path} {m n : Str} {g : Str → Py (Str × Str × Str)}
    {M : Str × Str × Str → Str} {rest : Prog Unit} {plan : Plan} (hs : m ∉ W) (hM : ∀ v, M v ∉ n :: W)
    (hr : Follows out (n :: W) d rest plan) :
    Follows out W d (read (base ++ [m]) >>= fun uv => lift (g uv) >>= fun v => copy (B ++ [M v]) (out ++ [n]) >>= fun _ => rest)
      ((out ++ [n], do let v ← made (g (← file d (base ++ [m]))); file d (B ++ [M v])) :: plan) := by
  intro d' hd
  have h1 := hd _ (other_name (base := base) hs)
  unfold file
  rw [← h1]
  cases h : d' (base ++ [m]) with
  | none => rw [bind_error (show read (base ++ [m]) d' = ([], .error (.missing _)) by unfold read; rw [h])]; rfl
  | some s =>
    rw [bind_ok (show read (base ++ [m]) d' = ([], .ok s) by unfold read; rw [h])]
    change (_ ++ ((lift (g s) >>= _) d').1, ((lift (g s) >>= _) d').2) = runPlan ((out ++ [n], made (g s) >>= _) :: plan)
    cases g s with
    | error e => rw [bind_error (show lift (.error e : Py (Str × Str × Str)) _ = ([], .error (.raised e)) from rfl)]; rfl
    | ok v =>
      rw [bind_ok (show lift (.ok v : Py (Str × Str × Str)) _ = ([], .ok v) from rfl)]
      have hv := follows_cons (W := W) (out := out) (d := d) (c := file d (B ++ [M v])) (m := copy (B ++ [M v]) (out ++ [n])) ?_ hr
      · exact hv d' hd
      · intro d2 hd2
        have hm := hM v
        rw [List.mem_cons, not_or] at hm
        rw [copy_eq d2 (hd2 _ (other_name hm.2))]
        have hne : B ++ [M v] ≠ out ++ [n] := by
          intro e
          have := (List.append_inj' e rfl).2
          cases this
          exact hm.1 rfl
        simp only [if_neg hne]
        cases file d (B ++ [M v]) <;> rfl

theorem fileText_some {w : World} {rows : List (List Str)} {st : UCDReader.State}
    (h : UCDReader.generateDictionaries w.upper w.lower rows = .ok st) : ∃ t, UCDReader.fileText (prefixLines w) st = .ok t := by
  by_cases hs : ∃ row ∈ rows, UCDReader.Spec.Short row
  · rw [UCDReader.Props.generateDictionaries_error _ _ _ hs] at h; cases h
  · have := UCDReader.Props.fileText_ok w.upper w.lower rows (prefixLines w) (fun r hr hx => hs ⟨r, hr, hx⟩)
    rw [h] at this
    exact ⟨_, this⟩

theorem not_icudt {W : List Str} {v : Str} (h : (W.all fun n => !(txt "icudt").isPrefixOf n) = true) : txt "icudt" ++ v ++ txt "l.dat" ∉ W := by
  intro hm
  have := List.all_eq_true.1 h _ hm
  rw [List.append_assoc, List.isPrefixOf_iff_prefix.mpr (List.prefix_append _ _)] at this
  cases this

theorem follows_dictionaries {w : World} {out : Path} {W : List Str} {d : Disk} {base : Path} {m : Str} (hs : m ∉ W) :
    Follows out W d (read (base ++ [m]) >>= fun pp => lift (UCDReader.generateDictionaries w.upper w.lower (propertyRows pp)) >>= fun st =>
        create (out ++ [txt "UCDTypeDictionaries.py"]) >>= fun _ => lift (UCDReader.fileText (prefixLines w) st) >>= fun dicts =>
        write (out ++ [txt "UCDTypeDictionaries.py"]) dicts >>= fun _ => create (out ++ [txt "UnicodeVersion.py"]) >>= fun _ =>
        write (out ++ [txt "UnicodeVersion.py"]) (ModuleText.unicodeVersionFile (st.ucdVersion.getD (txt "None"))))
      [(out ++ [txt "UCDTypeDictionaries.py"], do made (UCDReader.fileText (prefixLines w) (← (do
          let pp ← file d (base ++ [m])
          made (UCDReader.generateDictionaries w.upper w.lower (propertyRows pp)))))),
       (out ++ [txt "UnicodeVersion.py"], do
          let st ← (do
            let pp ← file d (base ++ [m])
            made (UCDReader.generateDictionaries w.upper w.lower (propertyRows pp)))
          .ok (txt "unicodeVersion = \"" ++ st.ucdVersion.getD (txt "None") ++ txt "\"\n"))] := by
  intro d' hd
  have h1 := hd _ (other_name (base := base) hs)
  unfold file
  rw [← h1]
  cases h : d' (base ++ [m]) with
  | none => rw [bind_error (show read (base ++ [m]) d' = ([], .error (.missing _)) by unfold read; rw [h])]; rfl
  | some s =>
    rw [bind_ok (show read (base ++ [m]) d' = ([], .ok s) by unfold read; rw [h])]
    dsimp only [bind, Except.bind]
    cases hg : UCDReader.generateDictionaries w.upper w.lower (propertyRows s) with
    | error e => rfl
    | ok st =>
      obtain ⟨t, ht⟩ := fileText_some hg
      dsimp only [made, Except.mapError]
      rw [ht]
      simp only [Prog.bind, lift, ht]
      rfl

theorem build_plan {w : World} (hw : AsciiCase w) (icuSource icuBuild outDir : Path) (d : Disk) :
    build w icuSource icuBuild outDir d = runPlan (buildPlan w icuSource icuBuild outDir d) := by
  suffices Follows outDir [] d (build w icuSource icuBuild outDir) (buildPlan w icuSource icuBuild outDir d) from this d (fun _ _ => rfl)
  unfold build buildPlan outputs makeHeader
  rw [headerName_of (s := txt "uprops.h") (t := txt "uprops_h") hw (by decide) (by decide),
    headerName_of (s := txt "ucase.h") (t := txt "ucase_h") hw (by decide) (by decide),
    headerName_of (s := txt "uchar.h") (t := txt "uchar_h") hw (by decide) (by decide),
    headerName_of (s := txt "uscript.h") (t := txt "uscript_h") hw (by decide) (by decide)]
  dsimp only
  simp only [List.map_cons, List.map_nil]
  have two : ∀ (a : Path) (b c : Str), a ++ [b, c] = (a ++ [b]) ++ [c] := by simp
  have three : ∀ (a : Path) (b c e : Str), a ++ [b, c, e] = (a ++ [b, c]) ++ [e] := by simp
  rw [two icuSource (txt "common") (txt "ubidi_props_data.h"), two icuSource (txt "common") (txt "uchar_props_data.h"),
    two icuSource (txt "common") (txt "ucase_props_data.h"), three icuSource (txt "common") (txt "unicode") (txt "uvernum.h"),
    three icuSource (txt "data") (txt "unidata") (txt "ppucd.txt")]
  simp only [three icuBuild (txt "data") (txt "out")]
  refine follows_make (by decide) ?_
  refine follows_make (by decide) ?_
  refine follows_make (by decide) ?_
  refine follows_make (by decide) ?_
  refine follows_make (by decide) ?_
  refine follows_make (by decide) ?_
  refine follows_make (by decide) ?_
  refine follows_versioned (g := ModuleText.icuVersions) (M := fun v => txt "icudt" ++ v.2.1 ++ txt "l.dat")
    (B := icuBuild ++ [txt "data", txt "out"]) ?_ (fun v => not_icudt ?_) ?_
  · decide
  · decide
  have lic : (do
      let s ← file d (icuSource.dropLast ++ [txt "LICENSE"])
      if outDir = icuSource.dropLast then .error (.sameFile (icuSource.dropLast ++ [txt "LICENSE"])) else .ok s : Except Fault Str) =
      (do
      let s ← file d (icuSource.dropLast ++ [txt "LICENSE"])
      if icuSource.dropLast ++ [txt "LICENSE"] = outDir ++ [txt "LICENSE"] then .error (.sameFile (icuSource.dropLast ++ [txt "LICENSE"]))
      else .ok s) := by
    simp only [List.append_left_inj, eq_comm]
  rw [lic]
  refine follows_copy (by decide) ?_
  exact follows_dictionaries (base := icuSource ++ [txt "data", txt "unidata"]) (by decide)

/-- The disk path of each output, and of nothing else. -/
theorem names_nodup (w : World) (icuSource icuBuild outDir : Path) (d : Disk) :
    (paths (buildPlan w icuSource icuBuild outDir d)).Nodup := by
  have : paths (buildPlan w icuSource icuBuild outDir d) = ((outputs w icuSource icuBuild outDir d).map (·.1)).map fun n => outDir ++ [n] := by
    unfold paths buildPlan
    rw [List.map_map, List.map_map]; rfl
  rw [this]
  have hn : ((outputs w icuSource icuBuild outDir d).map (·.1)).Nodup := by
    show [txt "BidiPropsData.py", txt "CharPropsData.py", txt "CasePropsData.py", txt "uprops_h.py", txt "ucase_h.py", txt "uchar_h.py",
      txt "uscript_h.py", txt "icudata.dat", txt "LICENSE", txt "UCDTypeDictionaries.py", txt "UnicodeVersion.py"].Nodup
    decide
  generalize (outputs w icuSource icuBuild outDir d).map (·.1) = l at hn
  rw [List.Nodup, List.pairwise_map]
  exact hn.imp (fun h e => h (by simpa using e))

theorem firstFault_forget {α : Type} (f : α → Str) (g : α → Except Fault Str) (l : List α) :
    firstFault (l.map fun o => ([], g o)) = firstFault (l.map fun o => (f o, g o)) := by
  induction l with
  | nil => rfl
  | cons o l ih =>
    rw [List.map_cons, List.map_cons]
    cases h : g o with
    | error e => simp [firstFault]
    | ok s => simpa [firstFault] using ih

theorem firstFault_plan (outDir : Path) (l : List (Str × Except Fault Str)) :
    firstFault ((l.map fun o => (outDir ++ [o.1], o.2)).map fun o : Path × Except Fault Str => (([] : Str), o.2)) = firstFault l := by
  rw [List.map_map]
  have := firstFault_forget (fun o : Str × Except Fault Str => o.1) (fun o => o.2) l
  rw [show (l.map fun o : Str × Except Fault Str => (o.1, o.2)) = l by simp] at this
  exact this

section
variable {w : World} (hw : AsciiCase w) (icuSource icuBuild outDir : Path) (d : Disk)
include hw

/-- C115. `build` succeeds if every output can be made from the sources, and otherwise fails with the first fault. -/
theorem build_result : (build w icuSource icuBuild outDir d).2 = firstFault (outputs w icuSource icuBuild outDir d) := by
  rw [build_plan hw, runPlan_result]
  exact firstFault_plan _ _

/-- C115. After `build`, whether it succeeded or not, the outputs before the first fault are complete in the output directory,
and every other file is as it was. -/
theorem build_files :
    (∀ p, (∀ o ∈ outputs w icuSource icuBuild outDir d, p ≠ outDir ++ [o.1]) →
      after d (build w icuSource icuBuild outDir d).1 p = d p) ∧
    ∀ (i : Nat) (o : Str × Except Fault Str), (outputs w icuSource icuBuild outDir d)[i]? = some o →
      (firstFault ((outputs w icuSource icuBuild outDir d).take (i + 1)) = .ok () →
        ∃ s, o.2 = .ok s ∧ after d (build w icuSource icuBuild outDir d).1 (outDir ++ [o.1]) = some s) ∧
      (firstFault ((outputs w icuSource icuBuild outDir d).take (i + 1)) ≠ .ok () →
        after d (build w icuSource icuBuild outDir d).1 (outDir ++ [o.1]) = d (outDir ++ [o.1])) := by
  rw [build_plan hw]
  obtain ⟨h1, h2⟩ := after_plan (buildPlan w icuSource icuBuild outDir d) d (names_nodup ..)
  refine ⟨fun p hp => h1 p (fun hm => ?_), fun i o ho => ?_⟩
  · unfold paths buildPlan at hm
    rw [List.map_map, List.mem_map] at hm
    obtain ⟨o, ho, e⟩ := hm
    exact hp o ho e.symm
  · have := h2 i (outDir ++ [o.1], o.2) (by unfold buildPlan; rw [List.getElem?_map, ho]; rfl)
    unfold buildPlan at this ⊢
    rw [← List.map_take, firstFault_plan] at this
    exact this

/-- C116. At any moment during `build`, if the machine stops for instance: some outputs are complete, the next one is as it was
or has the beginning of its contents, and every other file is as it was. -/
theorem build_interrupted (d' : Disk) (h : During d (build w icuSource icuBuild outDir d).1 d') :
    (∀ p, (∀ o ∈ outputs w icuSource icuBuild outDir d, p ≠ outDir ++ [o.1]) → d' p = d p) ∧
    ∃ k : Nat, ∀ (i : Nat) (o : Str × Except Fault Str), (outputs w icuSource icuBuild outDir d)[i]? = some o →
      (i < k → ∃ s, o.2 = .ok s ∧ d' (outDir ++ [o.1]) = some s) ∧
      (k < i → d' (outDir ++ [o.1]) = d (outDir ++ [o.1])) ∧
      (i = k → d' (outDir ++ [o.1]) = d (outDir ++ [o.1]) ∨ ∃ s t, o.2 = .ok s ∧ t <+: s ∧ d' (outDir ++ [o.1]) = some t) := by
  rw [build_plan hw] at h
  obtain ⟨h1, k, h2⟩ := during_plan (buildPlan w icuSource icuBuild outDir d) d d' (names_nodup ..) h
  refine ⟨fun p hp => h1 p (fun hm => ?_), k, fun i o ho => ?_⟩
  · unfold paths buildPlan at hm
    rw [List.map_map, List.mem_map] at hm
    obtain ⟨o, ho, e⟩ := hm
    exact hp o ho e.symm
  · exact h2 i (outDir ++ [o.1], o.2) (by unfold buildPlan; rw [List.getElem?_map, ho]; rfl)

/-- C115. `build` never succeeds if the output directory is the one above the ICU sources: the licence would be copied to itself. -/
theorem build_beside_refuted : (build w icuSource icuBuild icuSource.dropLast d).2 ≠ .ok () := by
  rw [build_result hw]
  have key : ∀ l : List (Str × Except Fault Str), (∃ o ∈ l, ∃ e, o.2 = .error e) → firstFault l ≠ .ok () := by
    rintro l ⟨⟨n, c⟩, ho, e, rfl⟩
    induction l with
    | nil => cases ho
    | cons a l ih =>
      obtain ⟨m, r⟩ := a
      cases r with
      | error e => rintro ⟨⟩
      | ok s =>
        rcases List.mem_cons.1 ho with h | h
        · cases h
        · exact ih h
  refine key _ ⟨(outputs w icuSource icuBuild icuSource.dropLast d)[8]'(Nat.lt_of_lt_of_eq (show 8 < 11 by omega) rfl), List.getElem_mem _, ?_⟩
  show ∃ e, (do
      let s ← file d (icuSource.dropLast ++ [txt "LICENSE"])
      if icuSource.dropLast = icuSource.dropLast then .error (.sameFile (icuSource.dropLast ++ [txt "LICENSE"])) else .ok s : Except Fault Str) = .error e
  cases file d (icuSource.dropLast ++ [txt "LICENSE"]) with
  | error e => exact ⟨e, rfl⟩
  | ok s => exact ⟨_, if_pos rfl⟩

end

/-! ## Examples -/

def demoSplit (c : Nat) : Str → List Str
  | [] => [[]]
  | x :: t =>
    if x = c then [] :: demoSplit c t
    else
      match demoSplit c t with
      | [] => [[x]]
      | l :: ls => (x :: l) :: ls

/-- ASCII letters and decimal numbers. -/
def demoWorld : World where
  today := txt "June 1, 2021"
  upper s := s.map fun c => if 97 ≤ c ∧ c ≤ 122 then c - 32 else c
  lower s := s.map fun c => if 65 ≤ c ∧ c ≤ 90 then c + 32 else c
  eval := Header.Props.numbers
  path s := demoSplit 47 s

def demoChar : Str :=
  txt "static const uint16_t propsTrie_index[2]={1,2};\n" ++
  (txt "static const UTrie2 propsTrie={\n" ++ join (txt ",\n") ModuleText.Props.demoFields ++ txt "\n};\n") ++
  txt "static const uint16_t propsVectorsTrie_index[1]={3};\n" ++
  (txt "static const UTrie2 propsVectorsTrie={\n" ++ join (txt ",\n") ModuleText.Props.demoFields ++ txt "\n};\n") ++
  txt "static const uint32_t propsVectors[3]={4,5,6};\n" ++ txt "static const int32_t propsVectorsColumns=3;\n" ++
  txt "static const uint16_t scriptExtensions[1]={7};\n"

def demoCase : Str :=
  txt "static const int32_t ucase_props_indexes[2]={0x10,2};\n" ++ txt "static const uint16_t ucase_props_trieIndex[2]={\n1,2\n};\n" ++
  txt "static const uint16_t ucase_props_exceptions[1]={\n3\n};\n" ++ txt "static const UChar ucase_props_unfold[1]={\n4\n};\n" ++
  (txt "static const UCaseProps ucase_props_singleton={\n  NULL,\n  {\n" ++
    join (txt ",\n") (ModuleText.Props.demoFields.dropLast ++ [txt "  NULL, 0\n  "]) ++ txt "},\n  { 2,2,0,0 }\n};\n")

def demoHeader : Str := txt "#ifndef UPROPS_H\n#define U_MAX 7 // last\nenum {\n  U_A,\n  U_B\n};\n#endif\n"

/-- Sources in `icu/source` and `b`. -/
def demoFiles : List (Path × Str) :=
  let s : Path := [txt "icu", txt "source"]
  [(s ++ [txt "common", txt "ubidi_props_data.h"], ModuleText.Props.demoBidi),
   (s ++ [txt "common", txt "uchar_props_data.h"], demoChar), (s ++ [txt "common", txt "ucase_props_data.h"], demoCase),
   (s ++ [txt "common", txt "uprops.h"], demoHeader), (s ++ [txt "common", txt "ucase.h"], []),
   (s ++ [txt "common", txt "unicode", txt "uchar.h"], demoHeader), (s ++ [txt "common", txt "unicode", txt "uscript.h"], []),
   (s ++ [txt "common", txt "unicode", txt "uvernum.h"], txt "#define U_ICU_VERSION \"69.1\"\n#define U_ICU_VERSION_SHORT \"69\"\n"),
   ([txt "b", txt "data", txt "out", txt "icudt69l.dat"], txt "data"), ([txt "icu", txt "LICENSE"], txt "licence"),
   (s ++ [txt "data", txt "unidata", txt "ppucd.txt"], txt "ucd;13.0.0\nvalue;gc;Lu;Uppercase_Letter\n")]

def demoDisk : Disk := fun p => (demoFiles.find? fun f => f.1 = p).map (·.2)

theorem demoWorld_ascii : AsciiCase demoWorld := fun _ _ => ⟨rfl, rfl⟩

/-- The hypothesis of the theorems is met; on this disk `build` succeeds. -/
example : AsciiCase demoWorld := demoWorld_ascii

example : (build demoWorld [txt "icu", txt "source"] [txt "b"] [txt "out"] demoDisk).2 = .ok () := by decide +kernel

/-- A state in the middle: the first module is complete, and the second is still empty. -/
example : ∃ d', During demoDisk (build demoWorld [txt "icu", txt "source"] [txt "b"] [txt "out"] demoDisk).1 d' ∧
    d' [txt "out", txt "BidiPropsData.py"] ≠ none ∧ d' [txt "out", txt "CharPropsData.py"] = some [] :=
  ⟨_, ⟨_, _, (List.take_append_drop 3 _).symm, .inl rfl⟩, by decide +kernel⟩

end Verif.Build.Props

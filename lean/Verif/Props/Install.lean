import Verif.Props.Build
/-! # What `install` does to the disk (C118, C119) -/
namespace Verif.Build.Props
open Verif.Build.Spec

/-- The contents of a file that is copied. -/
def copied (d : Disk) (src tgt : Path) : Except Fault Str := do
  let s ← file d src
  if src = tgt then .error (.sameFile src) else .ok s

def installPlan (sourcePath : Path) (names : List Str) (d : Disk) : Plan :=
  names.map fun n => (place n, copied d (sourcePath ++ [n]) (place n))

theorem copies_plan (sourcePath : Path) (d : Disk) : ∀ (names : List Str) (d' : Disk), names.Nodup →
    (∀ n ∈ names, d' (sourcePath ++ [n]) = d (sourcePath ++ [n])) → ∀ (rest : Prog Unit) (plan : Plan),
    (∀ d2 : Disk, (∀ n, n ∉ names → d2 (sourcePath ++ [n]) = d' (sourcePath ++ [n])) → rest d2 = runPlan plan) →
    (names.foldr (fun n m => copy (sourcePath ++ [n]) (place n) >>= fun _ => m) rest) d' = runPlan (installPlan sourcePath names d ++ plan) := by
  intro names
  induction names with
  | nil => intro d' _ _ rest plan hr; exact hr d' (fun _ _ => rfl)
  | cons n names ih =>
    intro d' hn hd rest plan hr
    obtain ⟨hn1, hn2⟩ := List.nodup_cons.1 hn
    have hc := copy_eq (tgt := place n) d' (hd n (by simp))
    change copy _ _ d' = match copied d (sourcePath ++ [n]) (place n) with
      | .ok s => ([.create (place n), .append (place n) s], .ok ())
      | .error e => ([], .error e) at hc
    rw [List.foldr_cons, installPlan, List.map_cons, List.cons_append]
    have keep : ∀ (s m : Str), m ≠ n → after d' [.create (place n), .append (place n) s] (sourcePath ++ [m]) = d' (sourcePath ++ [m]) := by
      intro s m hm
      apply after_other
      intro e
      have : (sourcePath ++ [m]).getLast? = (place n).getLast? := by rw [e]
      rw [List.getLast?_concat, place] at this
      split at this
      · exact hm (by simpa using this)
      · exact hm (by simpa using this)
    cases h : copied d (sourcePath ++ [n]) (place n) with
    | error e => rw [h] at hc; rw [bind_error hc]; rfl
    | ok s =>
      rw [h] at hc
      rw [bind_ok hc, runPlan]
      have := ih (after d' [.create (place n), .append (place n) s]) hn2 (fun m hm => by
        rw [keep s m (fun e => hn1 (e ▸ hm)), hd m (by simp [hm])]) rest plan (fun d2 h2 => hr d2 (fun m hm => by
          rw [List.mem_cons, not_or] at hm
          rw [h2 m hm.2, keep s m hm.1]))
      rw [this]
      rfl

theorem not_special {n : Str} (h : txt ".py" <:+ n) : n ≠ txt "icudata.dat" ∧ n ≠ txt "LICENSE" := by
  constructor
  all_goals
    rintro rfl
    exact absurd h (by decide)

theorem place_py {n : Str} (h : txt ".py" <:+ n) : place n = [txt "UnicodeData", n] := by
  obtain ⟨h1, h2⟩ := not_special h
  rw [place, if_neg (by simp [h1, h2])]

/-- All files in the order in which they are copied. -/
def copiedNames (names : List Str) : List Str := names ++ [txt "icudata.dat", txt "LICENSE"]

theorem install_plan {d : Disk} {sourcePath : Path} {names : List Str} (h : PythonFiles d sourcePath names) :
    install sourcePath names d = runPlan (installPlan sourcePath (copiedNames names) d) := by
  have hpy : ∀ n ∈ names, txt ".py" <:+ n := fun n hn => ((h.2 n).1 hn).1
  have hnd : (copiedNames names).Nodup := by
    refine List.nodup_append.2 ⟨h.1, by decide, fun a ha b hb e => ?_⟩
    have := not_special (hpy a ha)
    simp only [List.mem_cons, List.not_mem_nil, or_false] at hb
    grind
  have := copies_plan sourcePath d (copiedNames names) d hnd (fun _ _ => rfl) (pure ()) [] (fun _ _ => rfl)
  rw [List.append_nil] at this
  rw [← this]
  unfold copiedNames install
  rw [List.foldr_append]
  have pb : ∀ (m : Prog Unit), (m >>= fun _ => pure ()) = m := by
    intro m
    funext d
    show Prog.bind m _ d = m d
    unfold Prog.bind
    rcases e : m d with ⟨ops, r⟩
    cases r with
    | error e => rfl
    | ok a =>
      show (ops ++ [], Except.ok ()) = (ops, Except.ok a)
      rw [List.append_nil]
  rw [List.foldr_cons, List.foldr_cons, List.foldr_nil, pb]
  have asc : ∀ (a : Prog Unit) (b c : Prog Unit), ((a >>= fun _ => b) >>= fun _ => c) = (a >>= fun _ => b >>= fun _ => c) := by
    intro a b c
    funext d
    show Prog.bind (Prog.bind a _) _ d = Prog.bind a (fun _ => Prog.bind b _) d
    unfold Prog.bind
    rcases e : a d with ⟨ops, r⟩
    cases r with
    | error e => rfl
    | ok x =>
      dsimp only
      rcases e2 : b (after d ops) with ⟨ops2, r2⟩
      cases r2 with
      | error e => rfl
      | ok y => simp [after]
  have all : ∀ (l : List Str) (m : Prog Unit), (∀ n ∈ l, txt ".py" <:+ n) → (copyAll sourcePath [txt "UnicodeData"] l >>= fun _ => m) =
      l.foldr (fun n m => copy (sourcePath ++ [n]) (place n) >>= fun _ => m) m := by
    intro l m hl
    induction l with
    | nil =>
      funext d
      show Prog.bind _ _ d = _
      rfl
    | cons n l ih =>
      rw [List.foldr_cons, ← ih (fun x hx => hl x (by simp [hx])), copyAll, asc, place_py (hl n (by simp))]
      rfl
  rw [← all names _ hpy]
  rfl

theorem place_inj {a b : Str} (h : place a = place b) : a = b := by
  have : (place a).getLast? = (place b).getLast? := by rw [h]
  have hl : ∀ n : Str, (place n).getLast? = some n := by
    intro n
    rw [place]
    split <;> rfl
  rw [hl, hl] at this
  exact Option.some.inj this

theorem install_nodup {d : Disk} {sourcePath : Path} {names : List Str} (h : PythonFiles d sourcePath names) :
    (paths (installPlan sourcePath (copiedNames names) d)).Nodup := by
  unfold paths installPlan
  rw [List.map_map]
  have hnd : (copiedNames names).Nodup := by
    refine List.nodup_append.2 ⟨h.1, by decide, fun a ha b hb e => ?_⟩
    have := not_special ((h.2 a).1 ha).1
    simp only [List.mem_cons, List.not_mem_nil, or_false] at hb
    grind
  rw [List.Nodup, List.pairwise_map]
  exact hnd.imp (fun h e => h (place_inj e))

theorem copied_ok {d : Disk} {src tgt : Path} {s : Str} : copied d src tgt = .ok s ↔ d src = some s ∧ src ≠ tgt := by
  unfold copied file
  cases d src with
  | none => simp [bind, Except.bind]
  | some t => by_cases e : src = tgt <;> simp [e, bind, Except.bind]

theorem firstFault_ok {α : Type} (g : α → Except Fault Str) (l : List α) :
    firstFault (l.map fun o => (([] : Str), g o)) = .ok () ↔ ∀ o ∈ l, ∃ s, g o = .ok s := by
  induction l with
  | nil => simp [firstFault]
  | cons o l ih =>
    rw [List.map_cons, List.forall_mem_cons]
    cases h : g o with
    | error e => simp [firstFault]
    | ok s => rw [firstFault, ih]; simp

/-- C118. `install` succeeds if the source directory has the data file and the licence and is not a directory to which the files go. -/
theorem install_result {d : Disk} {sourcePath : Path} {names : List Str} (h : PythonFiles d sourcePath names) :
    (install sourcePath names d).2 = .ok () ↔
      d (sourcePath ++ [txt "icudata.dat"]) ≠ none ∧ d (sourcePath ++ [txt "LICENSE"]) ≠ none ∧
      sourcePath ≠ [txt "UnicodeData", txt "Data"] ∧ (sourcePath = [txt "UnicodeData"] → names = []) := by
  rw [install_plan h, runPlan_result, firstFault_ok]
  unfold installPlan copiedNames
  rw [List.map_append]
  simp only [List.map_cons, List.map_nil, List.forall_mem_append, List.forall_mem_cons, List.forall_mem_map, copied_ok]
  have e1 : ∀ n, n ∈ names → (sourcePath ++ [n] ≠ place n ↔ sourcePath ≠ [txt "UnicodeData"]) := by
    intro n hn
    rw [place_py ((h.2 n).1 hn).1, show ([txt "UnicodeData", n] : Path) = [txt "UnicodeData"] ++ [n] from rfl]
    simp only [ne_eq, List.append_left_inj]
  have e2 : ∀ n, n = txt "icudata.dat" ∨ n = txt "LICENSE" → (sourcePath ++ [n] ≠ place n ↔ sourcePath ≠ [txt "UnicodeData", txt "Data"]) := by
    intro n hn
    rw [place, if_pos hn, show ([txt "UnicodeData", txt "Data", n] : Path) = [txt "UnicodeData", txt "Data"] ++ [n] from rfl]
    simp only [ne_eq, List.append_left_inj]
  rw [e2 _ (.inl rfl), e2 _ (.inr rfl)]
  simp only [Option.ne_none_iff_exists']
  constructor
  · rintro ⟨a, ⟨s, hs, hx⟩, ⟨t, ht, _⟩, _⟩
    refine ⟨⟨s, hs⟩, ⟨t, ht⟩, hx, fun e => List.eq_nil_iff_forall_not_mem.2 (fun n hn => ?_)⟩
    obtain ⟨u, _, hu⟩ := a n hn
    exact (e1 n hn).1 hu e
  · rintro ⟨⟨s, hs⟩, ⟨t, ht⟩, hx, hy⟩
    refine ⟨fun n hn => ?_, ⟨s, hs, hx⟩, ⟨t, ht, hx⟩, by simp⟩
    obtain ⟨u, hu⟩ := Option.ne_none_iff_exists'.1 ((h.2 n).1 hn).2
    exact ⟨u, hu, (e1 n hn).2 (fun e => by rw [hy e] at hn; cases hn)⟩

theorem mem_place {d : Disk} {sourcePath : Path} {names : List Str} {p : Path}
    (hp : ∀ n ∈ names ++ [txt "icudata.dat", txt "LICENSE"], p ≠ place n) : p ∉ paths (installPlan sourcePath (copiedNames names) d) := by
  intro hm
  unfold paths installPlan at hm
  rw [List.map_map, List.mem_map] at hm
  obtain ⟨n, hn, e⟩ := hm
  exact hp n hn e.symm

/-- C118. After `install` has succeeded, the Python files are in `UnicodeData`, the data file and the licence in `UnicodeData/Data`,
and every other file is as it was. -/
theorem install_files {d : Disk} {sourcePath : Path} {names : List Str} (h : PythonFiles d sourcePath names)
    (hok : (install sourcePath names d).2 = .ok ()) :
    (∀ n ∈ names ++ [txt "icudata.dat", txt "LICENSE"], after d (install sourcePath names d).1 (place n) = d (sourcePath ++ [n])) ∧
    ∀ p, (∀ n ∈ names ++ [txt "icudata.dat", txt "LICENSE"], p ≠ place n) → after d (install sourcePath names d).1 p = d p := by
  rw [install_plan h, runPlan_result] at hok
  rw [install_plan h]
  obtain ⟨h1, h2⟩ := after_plan (installPlan sourcePath (copiedNames names) d) d (install_nodup h)
  refine ⟨fun n hn => ?_, fun p hp => h1 p (mem_place hp)⟩
  obtain ⟨i, hi⟩ := List.mem_iff_getElem?.1 hn
  have hi' : (installPlan sourcePath (copiedNames names) d)[i]? = some (place n, copied d (sourcePath ++ [n]) (place n)) := by
    unfold installPlan copiedNames
    rw [List.getElem?_map, hi]; rfl
  obtain ⟨s, hs, hr⟩ := (h2 i _ hi').1 ((firstFault_ok _ _).2 fun o ho => (firstFault_ok _ _).1 hok o (List.mem_of_mem_take ho))
  rw [hr, (copied_ok.1 hs).1]

/-- C119. At any moment during `install`, and after it, whether it succeeded or not: some files are in place, the next one is as it
was or has the beginning of its contents, and every other file is as it was. -/
theorem install_interrupted {d d' : Disk} {sourcePath : Path} {names : List Str} (h : PythonFiles d sourcePath names)
    (hd : During d (install sourcePath names d).1 d') :
    (∀ p, (∀ n ∈ names ++ [txt "icudata.dat", txt "LICENSE"], p ≠ place n) → d' p = d p) ∧
    ∃ k : Nat, ∀ (i : Nat) (n : Str), (names ++ [txt "icudata.dat", txt "LICENSE"])[i]? = some n →
      (i < k → d' (place n) = d (sourcePath ++ [n])) ∧ (k < i → d' (place n) = d (place n)) ∧
      (i = k → d' (place n) = d (place n) ∨ ∃ s t, d (sourcePath ++ [n]) = some s ∧ t <+: s ∧ d' (place n) = some t) := by
  rw [install_plan h] at hd
  obtain ⟨h1, k, h2⟩ := during_plan (installPlan sourcePath (copiedNames names) d) d d' (install_nodup h) hd
  refine ⟨fun p hp => h1 p (mem_place hp), k, fun i n hi => ?_⟩
  obtain ⟨a, b, c⟩ := h2 i (place n, copied d (sourcePath ++ [n]) (place n)) (by
    unfold installPlan copiedNames
    rw [List.getElem?_map, hi]; rfl)
  refine ⟨fun hk => ?_, b, fun hk => (c hk).imp id ?_⟩
  · obtain ⟨s, hs, hr⟩ := a hk
    rw [hr, (copied_ok.1 hs).1]
  · rintro ⟨s, t, hs, ht, hr⟩
    exact ⟨s, t, (copied_ok.1 hs).1, ht, hr⟩

/-- The state after the end is one of those during the execution. -/
theorem during_after (d : Disk) (ops : List Op) : During d ops (after d ops) := ⟨ops, [], by simp, .inl rfl⟩

/-- C118. `install` after a successful `build`, from the output directory: it succeeds, and every output is in its place. -/
theorem build_install {w : World} (hw : AsciiCase w) {icuSource icuBuild outDir : Path} {d : Disk} {names : List Str}
    (hok : (build w icuSource icuBuild outDir d).2 = .ok ())
    (hp : PythonFiles (after d (build w icuSource icuBuild outDir d).1) outDir names)
    (h1 : outDir ≠ [txt "UnicodeData"]) (h2 : outDir ≠ [txt "UnicodeData", txt "Data"]) :
    (install outDir names (after d (build w icuSource icuBuild outDir d).1)).2 = .ok () ∧
    ∀ o ∈ outputs w icuSource icuBuild outDir d, ∃ s, o.2 = .ok s ∧
      after (after d (build w icuSource icuBuild outDir d).1) (install outDir names (after d (build w icuSource icuBuild outDir d).1)).1
        (place o.1) = some s := by
  obtain ⟨_, hf⟩ := build_files hw icuSource icuBuild outDir d
  rw [build_result hw] at hok
  have hall : ∀ o ∈ outputs w icuSource icuBuild outDir d, ∃ s, o.2 = .ok s ∧
      after d (build w icuSource icuBuild outDir d).1 (outDir ++ [o.1]) = some s := by
    intro o ho
    obtain ⟨i, hi⟩ := List.mem_iff_getElem?.1 ho
    refine (hf i o hi).1 ?_
    have e := firstFault_plan outDir (outputs w icuSource icuBuild outDir d)
    rw [hok] at e
    rw [← firstFault_plan outDir]
    refine (firstFault_ok _ _).2 fun o ho => (firstFault_ok _ _).1 e o ?_
    rw [List.map_take] at ho
    exact List.mem_of_mem_take ho
  have hsome : ∀ o ∈ outputs w icuSource icuBuild outDir d, after d (build w icuSource icuBuild outDir d).1 (outDir ++ [o.1]) ≠ none := by
    intro o ho
    obtain ⟨s, _, hs⟩ := hall o ho
    rw [hs]; simp
  have hnames : (outputs w icuSource icuBuild outDir d).map (·.1) = [txt "BidiPropsData.py", txt "CharPropsData.py", txt "CasePropsData.py",
      txt "uprops_h.py", txt "ucase_h.py", txt "uchar_h.py", txt "uscript_h.py", txt "icudata.dat", txt "LICENSE",
      txt "UCDTypeDictionaries.py", txt "UnicodeVersion.py"] := rfl
  have hmem : ∀ n, n ∈ (outputs w icuSource icuBuild outDir d).map (·.1) →
      after d (build w icuSource icuBuild outDir d).1 (outDir ++ [n]) ≠ none := by
    intro n hn
    obtain ⟨o, ho, rfl⟩ := List.mem_map.1 hn
    exact hsome o ho
  have hi : (install outDir names (after d (build w icuSource icuBuild outDir d).1)).2 = .ok () := by
    rw [install_result hp]
    refine ⟨hmem _ (by rw [hnames]; decide), hmem _ (by rw [hnames]; decide), h2, fun e => absurd e h1⟩
  refine ⟨hi, fun o ho => ?_⟩
  obtain ⟨s, hs, ha⟩ := hall o ho
  refine ⟨s, hs, ?_⟩
  rw [(install_files hp hi).1 o.1 ?_, ha]
  have hn : o.1 ∈ (outputs w icuSource icuBuild outDir d).map (·.1) := List.mem_map.2 ⟨o, ho, rfl⟩
  have hcase : ∀ n, n ∈ (outputs w icuSource icuBuild outDir d).map (·.1) → txt ".py" <:+ n ∨ n ∈ [txt "icudata.dat", txt "LICENSE"] := by
    rw [hnames]; decide
  rcases hcase _ hn with h | h
  · exact List.mem_append_left _ ((hp.2 _).2 ⟨h, hmem _ hn⟩)
  · exact List.mem_append_right _ h

/-! ## Examples -/

/-- A directory to install from. -/
def demoOut : Disk := fun p =>
  if p = [txt "out", txt "BidiPropsData.py"] then some (txt "new")
  else if p = [txt "out", txt "icudata.dat"] then some (txt "data")
  else if p = [txt "out", txt "LICENSE"] then some (txt "licence")
  else if p = [txt "UnicodeData", txt "BidiPropsData.py"] then some (txt "old")
  else none

theorem demoOut_files : PythonFiles demoOut [txt "out"] [txt "BidiPropsData.py"] := by
  refine ⟨by decide, fun n => ⟨fun h => ?_, fun ⟨h1, h2⟩ => ?_⟩⟩
  · rw [List.mem_singleton] at h
    subst h
    decide
  · obtain ⟨h3, h4⟩ := not_special h1
    unfold demoOut at h2
    rw [List.mem_singleton]
    by_cases e : n = txt "BidiPropsData.py"
    · exact e
    · exfalso
      apply h2
      simp only [List.cons_append, List.nil_append, List.cons.injEq, and_true, true_and, e, h3, h4, if_false]
      rw [if_neg (by decide)]

/-- The hypotheses of the theorems are met, by a disk on which `install` succeeds and by a state in the middle. -/
example : PythonFiles demoOut [txt "out"] [txt "BidiPropsData.py"] ∧ (install [txt "out"] [txt "BidiPropsData.py"] demoOut).2 = .ok () :=
  ⟨demoOut_files, by decide +kernel⟩

example : ∃ d', During demoOut (install [txt "out"] [txt "BidiPropsData.py"] demoOut).1 d' ∧
    d' [txt "UnicodeData", txt "BidiPropsData.py"] = some (txt "n") :=
  ⟨after demoOut ([.create [txt "UnicodeData", txt "BidiPropsData.py"]] ++ [.append [txt "UnicodeData", txt "BidiPropsData.py"] (txt "n")]),
    ⟨[.create [txt "UnicodeData", txt "BidiPropsData.py"]], (install [txt "out"] [txt "BidiPropsData.py"] demoOut).1.drop 1,
      by decide +kernel, .inr ⟨[txt "UnicodeData", txt "BidiPropsData.py"], txt "new", txt "n",
        (install [txt "out"] [txt "BidiPropsData.py"] demoOut).1.drop 2, by decide +kernel, by decide +kernel, rfl⟩⟩, by decide +kernel⟩

/-- The hypotheses of `build_install` are met: see the example for `build_result`; the directory `out` was empty before. -/
example : [txt "out"] ≠ [txt "UnicodeData"] ∧ [txt "out"] ≠ [txt "UnicodeData", txt "Data"] := by decide

end Verif.Build.Props

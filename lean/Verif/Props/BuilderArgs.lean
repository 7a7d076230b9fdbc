import Verif.Model.BuilderArgs
import Verif.Lemmas.Trie2Enum
/-!
# The arguments of the module builder: `ModuleBuilder.py` (C58)
-/
namespace Verif.BuilderArgs.Props

/-- The three options with their values. -/
def options (s b o : Str) : List (Str × Str) :=
  [(txt "--sourceDir", s), (txt "--buildDir", b), (txt "--outputDir", o)]

/-- An argument list that gives each option once, in some order, each followed by its value. -/
def Complete (okExtra : Str → Bool) (args : List Str) (s b o : Str) : Prop :=
  (s ≠ [] ∧ b ≠ [] ∧ o ≠ []) ∧ (okExtra s ∧ okExtra b ∧ okExtra o) ∧
    ∃ l : List (Str × Str), l.Perm (options s b o) ∧ args = l.flatMap (fun p => [p.1, p.2])

theorem names_ne : txt "--sourceDir" ≠ txt "--buildDir" ∧ txt "--sourceDir" ≠ txt "--outputDir" ∧
    txt "--buildDir" ≠ txt "--outputDir" := by decide

/-- The fields after the option `p` has been given. -/
def put (a : Args) (p : Str × Str) : Args :=
  if p.1 = txt "--sourceDir" then { a with icuSourceDir := p.2 }
  else if p.1 = txt "--buildDir" then { a with icuBuildDir := p.2 }
  else { a with outputDir := p.2 }

def known (n : Str) : Prop := n = txt "--sourceDir" ∨ n = txt "--buildDir" ∨ n = txt "--outputDir"

theorem processArgument_ok {ok : Str → Bool} {a : Args} {n : Str} {args : List Str} {r : Args × List Str} :
    processArgument ok a n args = .ok r ↔ known n ∧ ∃ v, ok v ∧ args = v :: r.2 ∧ r.1 = put a (n, v) := by
  obtain ⟨h1, h2, h3⟩ := names_ne
  unfold processArgument known put nextExtra
  cases args with
  | nil =>
    simp only [reduceCtorEq, false_and, and_false, exists_false, iff_false]
    (repeat' split) <;> simp [bind, Except.bind]
  | cons v rest =>
    by_cases hv : ok v
    · simp only [hv, if_true, bind, Except.bind]
      obtain ⟨ra, rb⟩ := r
      by_cases e1 : n = txt "--sourceDir"
      · simp [e1]
        constructor
        · rintro ⟨rfl, rfl⟩; exact ⟨v, hv, ⟨rfl, rfl⟩, rfl⟩
        · rintro ⟨w, _, ⟨rfl, rfl⟩, rfl⟩; exact ⟨rfl, rfl⟩
      · by_cases e2 : n = txt "--buildDir"
        · subst e2
          simp [e1]
          constructor
          · rintro ⟨rfl, rfl⟩; exact ⟨v, hv, ⟨rfl, rfl⟩, rfl⟩
          · rintro ⟨w, _, ⟨rfl, rfl⟩, rfl⟩; exact ⟨rfl, rfl⟩
        · by_cases e3 : n = txt "--outputDir"
          · subst e3
            simp [e1, e2]
            constructor
            · rintro ⟨rfl, rfl⟩; exact ⟨v, hv, ⟨rfl, rfl⟩, rfl⟩
            · rintro ⟨w, _, ⟨rfl, rfl⟩, rfl⟩; exact ⟨rfl, rfl⟩
          · simp [e1, e2, e3]
    · simp only [hv]
      have : ¬ ∃ w, ok w ∧ v :: rest = w :: r.2 ∧ r.1 = (if n = txt "--sourceDir" then { a with icuSourceDir := w }
        else if n = txt "--buildDir" then { a with icuBuildDir := w } else { a with outputDir := w }) := by
        rintro ⟨w, hw, e, _⟩
        injection e with e _
        exact hv (e ▸ hw)
      simp only [this, and_false, iff_false]
      (repeat' split) <;> simp_all [bind, Except.bind]

/-- The loop succeeds exactly on pairs of new option names and accepted values. -/
theorem argLoop_ok (ok : Str → Bool) : ∀ (fuel : Nat) (args seen : List Str) (a r : Args), args.length < fuel →
    (argLoop ok fuel args seen a = .ok r ↔
      ∃ l : List (Str × Str), args = l.flatMap (fun p => [p.1, p.2]) ∧ (∀ p ∈ l, known p.1 ∧ ok p.2) ∧
        (l.map (·.1)).Nodup ∧ (∀ p ∈ l, p.1 ∉ seen) ∧ completeInit (l.foldl put a) = .ok r) := by
  intro fuel
  induction fuel with
  | zero => intro args _ _ _ h; omega
  | succ fuel ih =>
    intro args seen a r hf
    cases args with
    | nil =>
      constructor
      · intro h; exact ⟨[], rfl, by simp, by simp, by simp, h⟩
      · rintro ⟨l, e, _, _, _, h⟩
        cases l with
        | nil => exact h
        | cons p l => simp at e
    | cons n args =>
      rw [argLoop]
      by_cases hs : n ∈ seen
      · rw [if_pos hs]
        constructor
        · intro h; cases h
        · rintro ⟨l, e, _, _, h, _⟩
          cases l with
          | nil => simp at e
          | cons p l =>
            simp only [List.flatMap_cons, List.cons_append, List.cons.injEq] at e
            exact absurd (e.1 ▸ hs) (h p (by simp))
      · rw [if_neg hs]
        constructor
        · intro h
          obtain ⟨q, hq, h'⟩ := bind_ok h
          obtain ⟨hk, v, hv, e1, e2⟩ := processArgument_ok.mp hq
          obtain ⟨qa, qr⟩ := q
          simp only at e1 e2 h'
          subst e1
          obtain ⟨l, e, hl, hn, hns, hc⟩ := (ih qr (seen ++ [n]) qa r (by simp at hf; omega)).mp h'
          refine ⟨(n, v) :: l, by simp [e], ?_, ?_, ?_, ?_⟩
          · intro p hp
            rcases List.mem_cons.mp hp with rfl | hp
            · exact ⟨hk, hv⟩
            · exact hl p hp
          · rw [List.map_cons, List.nodup_cons]
            refine ⟨?_, hn⟩
            intro hm
            obtain ⟨p, hp, e⟩ := List.mem_map.mp hm
            exact hns p hp (by simp [e])
          · intro p hp
            rcases List.mem_cons.mp hp with rfl | hp
            · exact hs
            · intro hm; exact hns p hp (by simp [hm])
          · rw [List.foldl_cons, ← e2]; exact hc
        · rintro ⟨l, e, hl, hn, hns, hc⟩
          cases l with
          | nil => simp at e
          | cons p l =>
            simp only [List.flatMap_cons, List.cons_append, List.nil_append, List.cons.injEq] at e
            obtain ⟨e1, e2⟩ := e
            subst e1
            subst e2
            rw [List.map_cons, List.nodup_cons] at hn
            have := hl p (by simp)
            rw [(processArgument_ok (r := (put a p, l.flatMap fun p => [p.1, p.2]))).mpr ⟨this.1, p.2, this.2, rfl, rfl⟩]
            simp only [bind, Except.bind]
            refine (ih _ _ _ _ (by simp at hf ⊢; omega)).mpr ⟨l, rfl, fun q hq => hl q (by simp [hq]), hn.2, ?_, hc⟩
            intro q hq hm
            rcases List.mem_append.mp hm with h | h
            · exact hns q (by simp [hq]) h
            · simp at h
              exact hn.1 (List.mem_map.mpr ⟨q, hq, h⟩)

theorem completeInit_ok {a r : Args} : completeInit a = .ok r ↔
    (a.icuSourceDir ≠ [] ∧ a.icuBuildDir ≠ [] ∧ a.outputDir ≠ []) ∧ r = a := by
  unfold completeInit
  by_cases h1 : a.icuSourceDir = []
  · simp [h1]
  · by_cases h2 : a.icuBuildDir = []
    · simp [h1, h2]
    · by_cases h3 : a.outputDir = []
      · simp [h1, h2, h3]
      · simp [h1, h2, h3, eq_comm]

/-- The field that an option sets. -/
def field (a : Args) (n : Str) : Str :=
  if n = txt "--sourceDir" then a.icuSourceDir else if n = txt "--buildDir" then a.icuBuildDir else a.outputDir

theorem field_put (a : Args) (p : Str × Str) (n : Str) (hn : known n) (hp : known p.1) :
    field (put a p) n = if p.1 = n then p.2 else field a n := by
  obtain ⟨h1, h2, h3⟩ := names_ne
  obtain ⟨m, v⟩ := p
  unfold known at hp hn
  unfold put field
  simp only at hp hn ⊢
  rcases hp with rfl | rfl | rfl <;> rcases hn with rfl | rfl | rfl <;> simp_all [eq_comm]

theorem field_foldl : ∀ (l : List (Str × Str)) (a : Args) (n v : Str), known n → (∀ p ∈ l, known p.1) → (l.map (·.1)).Nodup →
    (field (l.foldl put a) n = v ↔ (n, v) ∈ l ∨ ((∀ w, (n, w) ∉ l) ∧ field a n = v)) := by
  intro l
  induction l with
  | nil => intro a n v _ _ _; simp
  | cons p l ih =>
    intro a n v hn hk hd
    rw [List.map_cons, List.nodup_cons] at hd
    rw [List.foldl_cons, ih _ n v hn (fun q hq => hk q (by simp [hq])) hd.2, field_put a p n hn (hk p (by simp))]
    obtain ⟨m, x⟩ := p
    by_cases h : m = n
    · subst h
      have : ∀ w, (m, w) ∉ l := fun w hw => hd.1 (List.mem_map.mpr ⟨_, hw, rfl⟩)
      simp [this, eq_comm]
    · have h' : n ≠ m := fun e => h e.symm
      simp [h, h']

theorem known_options {s b o : Str} : ∀ p ∈ options s b o, known p.1 := by
  intro p hp
  simp only [options, List.mem_cons, List.not_mem_nil, or_false] at hp
  rcases hp with rfl | rfl | rfl <;> simp [known]

theorem nodup_options (s b o : Str) : ((options s b o).map (·.1)).Nodup := by
  show [txt "--sourceDir", txt "--buildDir", txt "--outputDir"].Nodup
  decide

/-- C58. `forArguments` succeeds exactly when each of `--sourceDir`, `--buildDir` and `--outputDir` is given once, in any
order, with a non-empty value, and nothing else is given; the result holds the three values. -/
theorem forArguments_ok (okExtra : Str → Bool) (args : List Str) (r : Args) :
    forArguments okExtra args = .ok r ↔ Complete okExtra args r.icuSourceDir r.icuBuildDir r.outputDir := by
  have kS : known (txt "--sourceDir") := .inl rfl
  have kB : known (txt "--buildDir") := .inr (.inl rfl)
  have kO : known (txt "--outputDir") := .inr (.inr rfl)
  obtain ⟨h1, h2, h3⟩ := names_ne
  unfold forArguments Complete
  rw [argLoop_ok _ _ _ _ _ _ (Nat.lt_succ_self _)]
  constructor
  · rintro ⟨l, e, hl, hn, _, hc⟩
    obtain ⟨⟨c1, c2, c3⟩, rfl⟩ := completeInit_ok.mp hc
    have hk : ∀ p ∈ l, known p.1 := fun p hp => (hl p hp).1
    have mem : ∀ n, known n → field (l.foldl put ⟨[], [], []⟩) n ≠ [] → (n, field (l.foldl put ⟨[], [], []⟩) n) ∈ l := by
      intro n hn' hne
      rcases (field_foldl l _ n _ hn' hk hn).mp rfl with h | ⟨_, h⟩
      · exact h
      · refine absurd ?_ hne
        rw [← h]
        unfold field
        (repeat' split) <;> rfl
    have mS : (txt "--sourceDir", (l.foldl put ⟨[], [], []⟩).icuSourceDir) ∈ l := mem _ kS c1
    have mB : (txt "--buildDir", (l.foldl put ⟨[], [], []⟩).icuBuildDir) ∈ l := mem _ kB c2
    have mO : (txt "--outputDir", (l.foldl put ⟨[], [], []⟩).outputDir) ∈ l := mem _ kO c3
    refine ⟨⟨c1, c2, c3⟩, ⟨(hl _ mS).2, (hl _ mB).2, (hl _ mO).2⟩, l, ?_, e⟩
    have uniq : ∀ {n v w : Str}, (n, v) ∈ l → (n, w) ∈ l → v = w := by
      intro n v w hv hw
      have a := (field_foldl l ⟨[], [], []⟩ n v (hk _ hv) hk hn).mpr (.inl hv)
      have b := (field_foldl l ⟨[], [], []⟩ n w (hk _ hw) hk hn).mpr (.inl hw)
      exact a.symm.trans b
    have nd : l.Nodup := (List.pairwise_map.mp hn).imp (fun h e => h (congrArg _ e))
    have nd' := (List.pairwise_map.mp (nodup_options (l.foldl put ⟨[], [], []⟩).icuSourceDir
      (l.foldl put ⟨[], [], []⟩).icuBuildDir (l.foldl put ⟨[], [], []⟩).outputDir)).imp
      (S := (· ≠ ·)) (fun h e => h (congrArg _ e))
    refine (List.perm_ext_iff_of_nodup nd nd').mpr ?_
    rintro ⟨n, v⟩
    simp only [options, List.mem_cons, List.not_mem_nil, or_false, Prod.mk.injEq]
    constructor
    · intro h
      rcases hk _ h with e | e | e
      · simp only at e; subst e; exact .inl ⟨rfl, uniq h mS⟩
      · simp only at e; subst e; exact .inr (.inl ⟨rfl, uniq h mB⟩)
      · simp only at e; subst e; exact .inr (.inr ⟨rfl, uniq h mO⟩)
    · rintro (⟨rfl, rfl⟩ | ⟨rfl, rfl⟩ | ⟨rfl, rfl⟩)
      · exact mS
      · exact mB
      · exact mO
  · rintro ⟨⟨c1, c2, c3⟩, ⟨o1, o2, o3⟩, l, hp, e⟩
    have hk : ∀ p ∈ l, known p.1 := fun p h => known_options p (hp.mem_iff.mp h)
    have hn : (l.map (·.1)).Nodup := ((hp.map (·.1)).nodup_iff).mpr (nodup_options _ _ _)
    refine ⟨l, e, ?_, hn, by simp, ?_⟩
    · intro p h
      refine ⟨hk p h, ?_⟩
      have := hp.mem_iff.mp h
      simp only [options, List.mem_cons, List.not_mem_nil, or_false] at this
      rcases this with rfl | rfl | rfl
      · exact o1
      · exact o2
      · exact o3
    · have f : ∀ n v, (n, v) ∈ options r.icuSourceDir r.icuBuildDir r.outputDir → field (l.foldl put ⟨[], [], []⟩) n = v :=
        fun n v h => (field_foldl l _ n v (known_options _ h) hk hn).mpr (.inl (hp.mem_iff.mpr h))
      have fS : (l.foldl put ⟨[], [], []⟩).icuSourceDir = r.icuSourceDir := f (txt "--sourceDir") _ (by simp [options])
      have fB : (l.foldl put ⟨[], [], []⟩).icuBuildDir = r.icuBuildDir := f (txt "--buildDir") _ (by simp [options])
      have fO : (l.foldl put ⟨[], [], []⟩).outputDir = r.outputDir := f (txt "--outputDir") _ (by simp [options])
      rw [completeInit_ok, fS, fB, fO]
      refine ⟨⟨c1, c2, c3⟩, ?_⟩
      generalize hg : l.foldl put ⟨[], [], []⟩ = g at fS fB fO
      obtain ⟨g1, g2, g3⟩ := g
      obtain ⟨r1, r2, r3⟩ := r
      simp_all

/-- A list that is accepted, not in the order of the fields. -/
example : forArguments (fun _ => true) [txt "--outputDir", txt "o", txt "--sourceDir", txt "s", txt "--buildDir", txt "b"] =
    .ok ⟨txt "s", txt "b", txt "o"⟩ := by decide

/-- C58. The order of the options makes no difference. -/
theorem forArguments_perm (okExtra : Str → Bool) (l m : List (Str × Str)) (h : l.Perm m) (r : Args)
    (hl : forArguments okExtra (l.flatMap fun p => [p.1, p.2]) = .ok r) :
    forArguments okExtra (m.flatMap fun p => [p.1, p.2]) = .ok r := by
  rw [forArguments_ok] at hl ⊢
  obtain ⟨c, o, k, hk, e⟩ := hl
  refine ⟨c, o, m, h.symm.trans ?_, rfl⟩
  have inj : ∀ (l k : List (Str × Str)), l.flatMap (fun p => [p.1, p.2]) = k.flatMap (fun p => [p.1, p.2]) → l = k := by
    intro l
    induction l with
    | nil => intro k e; cases k with
      | nil => rfl
      | cons q k => simp at e
    | cons p l ih => intro k e; cases k with
      | nil => simp at e
      | cons q k =>
        simp only [List.flatMap_cons, List.cons_append, List.nil_append, List.cons.injEq] at e
        rw [ih k e.2.2, Prod.ext e.1 e.2.1]
  rw [inj l k e]
  exact hk

theorem argLoop_err (ok : Str → Bool) : ∀ (fuel : Nat) (args seen : List Str) (a : Args) (e : PyErr), args.length < fuel →
    argLoop ok fuel args seen a = .error e → e = .valueError := by
  intro fuel
  induction fuel with
  | zero => intro args _ _ _ h; omega
  | succ fuel ih =>
    intro args seen a e hf h
    cases args with
    | nil =>
      simp only [argLoop, completeInit] at h
      (repeat' split at h) <;> simp_all
    | cons n args =>
      rw [argLoop] at h
      split at h
      · cases h; rfl
      · cases hq : processArgument ok a n args with
        | ok q =>
          rw [hq] at h
          obtain ⟨_, v, _, e1, _⟩ := processArgument_ok.mp hq
          exact ih q.2 _ q.1 e (by rw [e1] at hf; simp at hf; omega) h
        | error e' =>
          rw [hq] at h
          cases h
          unfold processArgument nextExtra at hq
          cases args with
          | nil => (repeat' split at hq) <;> simp_all [bind, Except.bind]
          | cons v rest =>
            by_cases hv : ok v <;> simp only [hv] at hq <;> (repeat' split at hq) <;> simp_all [bind, Except.bind]

/-- C58. Any other argument list is rejected with `ValueError`, which the program reports. -/
theorem forArguments_error (okExtra : Str → Bool) (args : List Str) (h : ¬ ∃ s b o, Complete okExtra args s b o) :
    forArguments okExtra args = .error .valueError := by
  cases hr : forArguments okExtra args with
  | ok r => exact absurd ⟨_, _, _, (forArguments_ok okExtra args r).mp hr⟩ h
  | error e => rw [argLoop_err okExtra _ _ _ _ e (Nat.lt_succ_self _) hr]

/-- Lists that are rejected: an option missing, given twice, unknown, or without value. -/
example : forArguments (fun _ => true) [txt "--sourceDir", txt "s", txt "--buildDir", txt "b"] = .error .valueError ∧
    forArguments (fun _ => true) [txt "--sourceDir", txt "s", txt "--sourceDir", txt "t"] = .error .valueError ∧
    forArguments (fun _ => true) [txt "--target", txt "s"] = .error .valueError ∧
    forArguments (fun _ => true) [txt "--sourceDir"] = .error .valueError := by decide

end Verif.BuilderArgs.Props

import Verif.Lemmas.USetHeap
/-! Every legal history runs, keeps lists well-formed, and refines the reference sets. -/
namespace Verif.USet
open Verif.Spec

/-- Reference and list agree. -/
def Agrees (l : List Int) (P : Int → Prop) : Prop := ∀ c, IsCodePoint c → (mem l c = true ↔ P c)

theorem wf_new : WellFormed [HIGH] := by
  refine ⟨by simp, ?_, by simp [HIGH]⟩
  intro x hx; simp at hx; subst hx; simp [HIGH]

/-- What a call does to the values, given well-formed lists. -/
def ValOk (rd : Nat → Py (List Int)) (n : Nat) (op : Op) (v : List Int) : Prop :=
  WellFormed v ∧ (op.Supported → ∀ S : List (Int → Prop),
    (∀ x, x < n → ∀ l, rd x = .ok l → Agrees l (refGet S x)) → Agrees v (refVal S op))

theorem retainRange_aux {l : List Int} (hl : WellFormed l) {s e : Int} (hs : IsCodePoint s) (he : IsCodePoint e) (pb : Bool) :
    ∃ v, (if pinCodePoint s < pinCodePoint e then retainList l [s, e + 1, HIGH] false pb else .ok l) = .ok v ∧ WellFormed v ∧
      (s < e → ∀ c, c < HIGH → mem v c = (mem l c && (pb ^^ decide (s ≤ c ∧ c ≤ e)))) ∧ (e ≤ s → v = l) := by
  have hs' := cp_high hs
  have he' := cp_high he
  simp only [pin_lt hs he]
  by_cases hlt : s < e
  · simp only [hlt, ↓reduceIte]
    obtain ⟨r, h1, h2, h3⟩ := retainList_ok hl (wf_range hs'.1 (by omega : s ≤ e + 1) (by omega)) false pb
    refine ⟨r, h1, h2, fun _ c hc => ?_, fun h => by omega⟩
    rw [h3 c hc, mem_range (by omega) hc]
    have : decide (s ≤ c ∧ c < e + 1) = decide (s ≤ c ∧ c ≤ e) := by rw [decide_eq_decide]; omega
    rw [this]
    cases mem l c <;> cases pb <;> simp
  · simp only [hlt, ↓reduceIte]
    exact ⟨l, rfl, hl, fun h => h.elim, fun _ => rfl⟩

theorem xorRange_aux {l : List Int} (hl : WellFormed l) {s e : Int} (hs : IsCodePoint s) (he : IsCodePoint e) :
    ∃ v, complementRange l s e = .ok v ∧ WellFormed v ∧
      (s < e → ∀ c, c < HIGH → mem v c = (mem l c ^^ decide (s ≤ c ∧ c ≤ e))) ∧ (e ≤ s → v = l) := by
  have hs' := cp_high hs
  have he' := cp_high he
  unfold complementRange
  simp only [pin_lt hs he]
  by_cases hlt : s < e
  · simp only [hlt, ↓reduceIte]
    obtain ⟨r, h1, h2, h3⟩ := exclusiveOrList_ok hl (wf_range hs'.1 (by omega : s ≤ e + 1) (by omega))
    refine ⟨r, h1, h2, fun _ c hc => ?_, fun h => by omega⟩
    rw [h3 c hc, mem_range (by omega) hc]
    have : decide (s ≤ c ∧ c < e + 1) = decide (s ≤ c ∧ c ≤ e) := by rw [decide_eq_decide]; omega
    rw [this]
  · simp only [hlt, ↓reduceIte]
    exact ⟨l, rfl, hl, fun h => h.elim, fun _ => rfl⟩

theorem val_ok {rd : Nat → Py (List Int)} {n : Nat} (hrd : ∀ x, x < n → ∃ l, rd x = .ok l ∧ WellFormed l)
    {op : Op} (hop : op.Legal n) : ∃ v, val rd op = .ok v ∧ ValOk rd n op v := by
  have cpH : ∀ {c : Int}, IsCodePoint c → c < HIGH := fun h => (cp_high h).2
  cases op with
  | new =>
    refine ⟨_, rfl, wf_new, fun _ S _ c hc => ?_⟩
    show mem [HIGH] c = true ↔ False
    rw [mem_cons_gt (cpH hc)]; simp
  | newCopy x =>
    obtain ⟨l, hl, hw⟩ := hrd x hop
    refine ⟨l, by simp [val, hl, bind, Except.bind, pure, Except.pure, newCopy], hw, fun _ S hS => hS x hop l hl⟩
  | newInt cp =>
    have hcp : IsCodePoint cp := hop
    have h' := cp_high hcp
    refine ⟨_, rfl, wf_range h'.1 (by omega) (by omega), fun _ S _ c hc => ?_⟩
    show mem [cp, cp + 1, HIGH] c = true ↔ c = cp
    rw [mem_range (by omega) (cpH hc)]
    simp; omega
  | newRange s e =>
    obtain ⟨h1, h2, h3⟩ := hop
    refine ⟨_, rfl, wf_range h1 h2 h3, fun _ S _ c hc => ?_⟩
    show mem [s, e, HIGH] c = true ↔ _
    rw [mem_range h2 (cpH hc)]
    simp [refVal]
  | add x cp =>
    obtain ⟨hx, hcp⟩ := hop
    obtain ⟨l, hl, hw⟩ := hrd x hx
    obtain ⟨r, h1, h2, h3, _⟩ := add_ok hw hcp
    refine ⟨r, by simp [val, hl, h1, bind, Except.bind], h2, fun _ S hS c hc => ?_⟩
    rw [h3 c (cpH hc)]
    simp only [Bool.or_eq_true, decide_eq_true_eq, refVal, hS x hx l hl c hc]
  | addRange x s e =>
    obtain ⟨hx, hs, he⟩ := hop
    obtain ⟨l, hl, hw⟩ := hrd x hx
    by_cases hse : s ≤ e
    · obtain ⟨r, h1, h2, h3⟩ := addRange_ok hw hs he hse
      refine ⟨r, by simp [val, hl, h1, bind, Except.bind], h2, fun _ S hS c hc => ?_⟩
      rw [h3 c (cpH hc)]
      simp only [Bool.or_eq_true, decide_eq_true_eq, refVal, hS x hx l hl c hc]
    · refine ⟨l, ?_, hw, fun _ S hS c hc => ?_⟩
      · simp only [val, hl, bind, Except.bind, addRange, addRangeRet, pin_lt hs he]
        rw [if_neg (by omega), if_neg (by omega)]; rfl
      · simp only [refVal, hS x hx l hl c hc]
        constructor
        · exact Or.inl
        · rintro (h | h)
          · exact h
          · omega
  | addAll x y =>
    obtain ⟨hx, hy⟩ := hop
    obtain ⟨l, hl, hw⟩ := hrd x hx
    obtain ⟨m, hm, hw'⟩ := hrd y hy
    obtain ⟨r, h1, h2, h3⟩ := addList_ok hw hw'
    refine ⟨r, by simp [val, hl, hm, h1, addAll, bind, Except.bind], h2, fun _ S hS c hc => ?_⟩
    rw [h3 c (cpH hc)]
    simp only [Bool.or_eq_true, refVal, hS x hx l hl c hc, hS y hy m hm c hc]
  | union x y =>
    obtain ⟨hx, hy⟩ := hop
    obtain ⟨l, hl, hw⟩ := hrd x hx
    obtain ⟨m, hm, hw'⟩ := hrd y hy
    obtain ⟨r, h1, h2, h3⟩ := addList_ok hw hw'
    refine ⟨r, by simp [val, hl, hm, h1, union, newCopy, addAll, bind, Except.bind], h2, fun _ S hS c hc => ?_⟩
    rw [h3 c (cpH hc)]
    simp only [Bool.or_eq_true, refVal, hS x hx l hl c hc, hS y hy m hm c hc]
  | removeAll x y =>
    obtain ⟨hx, hy⟩ := hop
    obtain ⟨l, hl, hw⟩ := hrd x hx
    obtain ⟨m, hm, hw'⟩ := hrd y hy
    obtain ⟨r, h1, h2, h3⟩ := retainList_ok hw hw' false true
    refine ⟨r, by simp [val, hl, hm, h1, removeAll, bind, Except.bind], h2, fun _ S hS c hc => ?_⟩
    rw [h3 c (cpH hc)]
    simp only [refVal, ← hS x hx l hl c hc, ← hS y hy m hm c hc]
    cases mem l c <;> cases mem m c <;> simp
  | difference x y =>
    obtain ⟨hx, hy⟩ := hop
    obtain ⟨l, hl, hw⟩ := hrd x hx
    obtain ⟨m, hm, hw'⟩ := hrd y hy
    obtain ⟨r, h1, h2, h3⟩ := retainList_ok hw hw' false true
    refine ⟨r, by simp [val, hl, hm, h1, difference, newCopy, removeAll, bind, Except.bind], h2, fun _ S hS c hc => ?_⟩
    rw [h3 c (cpH hc)]
    simp only [refVal, ← hS x hx l hl c hc, ← hS y hy m hm c hc]
    cases mem l c <;> cases mem m c <;> simp
  | retainAll x y =>
    obtain ⟨hx, hy⟩ := hop
    obtain ⟨l, hl, hw⟩ := hrd x hx
    obtain ⟨m, hm, hw'⟩ := hrd y hy
    obtain ⟨r, h1, h2, h3⟩ := retainList_ok hw hw' false false
    refine ⟨r, by simp [val, hl, hm, h1, retainAll, bind, Except.bind], h2, fun _ S hS c hc => ?_⟩
    rw [h3 c (cpH hc)]
    simp only [refVal, ← hS x hx l hl c hc, ← hS y hy m hm c hc]
    cases mem l c <;> cases mem m c <;> simp
  | intersection x y =>
    obtain ⟨hx, hy⟩ := hop
    obtain ⟨l, hl, hw⟩ := hrd x hx
    obtain ⟨m, hm, hw'⟩ := hrd y hy
    obtain ⟨r, h1, h2, h3⟩ := retainList_ok hw hw' false false
    refine ⟨r, by simp [val, hl, hm, h1, intersection, newCopy, retainAll, bind, Except.bind], h2, fun _ S hS c hc => ?_⟩
    rw [h3 c (cpH hc)]
    simp only [refVal, ← hS x hx l hl c hc, ← hS y hy m hm c hc]
    cases mem l c <;> cases mem m c <;> simp
  | complementAll x y =>
    obtain ⟨hx, hy⟩ := hop
    obtain ⟨l, hl, hw⟩ := hrd x hx
    obtain ⟨m, hm, hw'⟩ := hrd y hy
    obtain ⟨r, h1, h2, h3⟩ := exclusiveOrList_ok hw hw'
    refine ⟨r, by simp [val, hl, hm, h1, complementAll, bind, Except.bind], h2, fun _ S hS c hc => ?_⟩
    rw [h3 c (cpH hc)]
    simp only [refVal, ← hS x hx l hl c hc, ← hS y hy m hm c hc]
    cases mem l c <;> cases mem m c <;> simp
  | symmetricDifference x y =>
    obtain ⟨hx, hy⟩ := hop
    obtain ⟨l, hl, hw⟩ := hrd x hx
    obtain ⟨m, hm, hw'⟩ := hrd y hy
    obtain ⟨r, h1, h2, h3⟩ := exclusiveOrList_ok hw hw'
    refine ⟨r, by simp [val, hl, hm, h1, symmetricDifference, newCopy, complementAll, bind, Except.bind], h2, fun _ S hS c hc => ?_⟩
    rw [h3 c (cpH hc)]
    simp only [refVal, ← hS x hx l hl c hc, ← hS y hy m hm c hc]
    cases mem l c <;> cases mem m c <;> simp
  | remove x cp =>
    obtain ⟨hx, hcp⟩ := hop
    obtain ⟨l, hl, hw⟩ := hrd x hx
    obtain ⟨v, h1, h2, _, _⟩ := retainRange_aux hw hcp hcp true
    exact ⟨v, by simp only [val, hl, bind, Except.bind]; exact h1, h2, fun h => h.elim⟩
  | retain x cp =>
    obtain ⟨hx, hcp⟩ := hop
    obtain ⟨l, hl, hw⟩ := hrd x hx
    obtain ⟨v, h1, h2, _, _⟩ := retainRange_aux hw hcp hcp false
    exact ⟨v, by simp only [val, hl, bind, Except.bind]; exact h1, h2, fun h => h.elim⟩
  | complementInt x cp =>
    obtain ⟨hx, hcp⟩ := hop
    obtain ⟨l, hl, hw⟩ := hrd x hx
    obtain ⟨v, h1, h2, _, _⟩ := xorRange_aux hw hcp hcp
    exact ⟨v, by simp only [val, hl, bind, Except.bind]; exact h1, h2, fun h => h.elim⟩
  | removeRange x s e =>
    obtain ⟨hx, hs, he⟩ := hop
    obtain ⟨l, hl, hw⟩ := hrd x hx
    obtain ⟨v, h1, h2, h3, h4⟩ := retainRange_aux hw hs he true
    refine ⟨v, by simp only [val, hl, bind, Except.bind]; exact h1, h2, fun hsup S hS c hc => ?_⟩
    simp only [refVal, ← hS x hx l hl c hc]
    by_cases hlt : s < e
    · rw [h3 hlt c (cpH hc)]
      by_cases hin : s ≤ c ∧ c ≤ e <;> cases mem l c <;> simp [hin]
    · have hne : s ≠ e := hsup
      rw [h4 (by omega)]
      have : ¬ (s ≤ c ∧ c ≤ e) := by omega
      simp [this]
  | retainRange x s e =>
    obtain ⟨hx, hs, he, hse⟩ := hop
    obtain ⟨l, hl, hw⟩ := hrd x hx
    obtain ⟨v, h1, h2, h3, h4⟩ := retainRange_aux hw hs he false
    refine ⟨v, by simp only [val, hl, bind, Except.bind]; exact h1, h2, fun hsup S hS c hc => ?_⟩
    have hne : s ≠ e := hsup
    simp only [refVal, ← hS x hx l hl c hc]
    rw [h3 (by omega) c (cpH hc)]
    cases mem l c <;> simp
  | complementRange x s e =>
    obtain ⟨hx, hs, he⟩ := hop
    obtain ⟨l, hl, hw⟩ := hrd x hx
    obtain ⟨v, h1, h2, h3, h4⟩ := xorRange_aux hw hs he
    refine ⟨v, by simp only [val, hl, bind, Except.bind]; exact h1, h2, fun hsup S hS c hc => ?_⟩
    have hne : s ≠ e := hsup
    simp only [refVal, ← hS x hx l hl c hc]
    by_cases hlt : s < e
    · rw [h3 hlt c (cpH hc)]
      by_cases hin : s ≤ c ∧ c ≤ e <;> cases mem l c <;> simp [hin]
    · rw [h4 (by omega)]
      have : ¬ (s ≤ c ∧ c ≤ e) := by omega
      simp [this]
  | complementPyRange x s e =>
    obtain ⟨hx, h0, hse, heH, hsH⟩ := hop
    obtain ⟨l, hl, hw⟩ := hrd x hx
    have hs : IsCodePoint s := ⟨h0, hsH⟩
    by_cases he0 : e = 0
    · -- `range(0, 0)`: end = -1
      have hs0 : s = 0 := by omega
      subst hs0; subst he0
      refine ⟨l, ?_, hw, fun _ S hS c hc => ?_⟩
      · simp only [val, hl, bind, Except.bind, complementPyRange, complementRange]
        rw [if_neg (by decide)]
      · simp only [refVal, ← hS x hx l hl c hc]
        have : ¬ (0 ≤ c ∧ c < 0) := by omega
        simp only [this, iff_false, Classical.not_not]
    · have he : IsCodePoint (e - 1) := ⟨by omega, by omega⟩
      obtain ⟨v, h1, h2, h3, h4⟩ := xorRange_aux hw hs he
      refine ⟨v, by simp only [val, hl, bind, Except.bind]; exact h1, h2, fun hsup S hS c hc => ?_⟩
      have hne : e ≠ s + 1 := hsup
      simp only [refVal, ← hS x hx l hl c hc]
      by_cases hlt : s < e - 1
      · rw [h3 hlt c (cpH hc)]
        have : (s ≤ c ∧ c < e) ↔ (s ≤ c ∧ c ≤ e - 1) := by omega
        rw [this]
        by_cases hin : s ≤ c ∧ c ≤ e - 1 <;> cases mem l c <;> simp [hin]
      · rw [h4 (by omega)]
        have : ¬ (s ≤ c ∧ c < e) := by omega
        simp [this]
  | complement x =>
    obtain ⟨l, hl, hw⟩ := hrd x hop
    obtain ⟨r, h1, h2, h3, _⟩ := complement_ok hw
    refine ⟨r, by simp [val, hl, h1, bind, Except.bind], h2, fun _ S hS c hc => ?_⟩
    rw [h3 c hc.1]
    simp only [refVal, ← hS x hop l hl c hc]
    cases mem l c <;> simp
  | clear x =>
    obtain ⟨l, hl, hw⟩ := hrd x hop
    refine ⟨[HIGH], by simp [val, hl, bind, Except.bind, pure, Except.pure, clear], wf_new, fun _ S hS c hc => ?_⟩
    rw [mem_cons_gt (cpH hc)]; simp [refVal]

/-- All objects exist and hold well-formed lists. -/
def HeapOk (h : Heap) : Prop := HeapInv h ∧ ∀ x, x < h.objs.length → ∃ l, h.read x = .ok l ∧ WellFormed l

theorem heapOk_empty : HeapOk Heap.empty := ⟨⟨by simp [Heap.empty], by simp [Heap.empty]⟩, by simp [Heap.empty]⟩

theorem Op.receiver_lt {n : Nat} {op : Op} (h : op.Legal n) {x : Nat} (hr : op.receiver = some x) : x < n := by
  cases op <;> simp [Op.receiver] at hr <;> subst hr <;> simp [Op.Legal] at h <;> first | exact h | exact h.1

theorem Op.target_lt {n : Nat} {op : Op} (h : op.Legal n) : op.target n < op.count n := by
  unfold Op.target Op.count
  cases hr : op.receiver with
  | none => simp
  | some x => simpa using Op.receiver_lt h hr

theorem step_ok {h : Heap} (hh : HeapOk h) {op : Op} (hop : op.Legal h.objs.length) :
    ∃ v h' ret, OneStep h op v h' ret ∧ HeapOk h' ∧ ValOk h.read h.objs.length op v ∧ val h.read op = .ok v := by
  obtain ⟨v, hv, hok⟩ := val_ok hh.2 hop
  obtain ⟨h', ret, hs⟩ := step_of_val hh.1 hv
  refine ⟨v, h', ret, hs, ⟨hs.2.1, ?_⟩, hok, hv⟩
  obtain ⟨_, _, hcnt, htgt, hfr, _⟩ := hs
  intro x hx
  by_cases hxt : x = op.target h.objs.length
  · exact ⟨v, hxt ▸ htgt, hok.1⟩
  · have hxn : x < h.objs.length ∧ op.receiver ≠ some x := by
      unfold Op.target at hxt
      unfold Op.count at hcnt
      cases hr : op.receiver with
      | none => rw [hr] at hxt hcnt; simp at hxt hcnt; exact ⟨by omega, by simp⟩
      | some z => rw [hr] at hxt hcnt; simp at hxt hcnt; exact ⟨by omega, by simp; exact fun h => hxt h.symm⟩
    rw [hfr x hxn.1 hxn.2]
    exact hh.2 x hxn.1

theorem run_ok : ∀ (ops : List Op) {h : Heap}, HeapOk h → LegalHistory h.objs.length ops →
    ∃ h', run h ops = .ok h' ∧ HeapOk h'
  | [], h, hh, _ => ⟨h, rfl, hh⟩
  | op :: ops, h, hh, hl => by
    obtain ⟨v, h1, ret, hs, hok, _⟩ := step_ok hh hl.1
    have hcnt := hs.2.2.1
    obtain ⟨h2, hr, hok2⟩ := run_ok ops hok (by rw [hcnt]; exact hl.2)
    refine ⟨h2, ?_, hok2⟩
    simp only [run, hs.1, bind, Except.bind]
    exact hr

/-- The objects of the heap agree with the reference store. -/
def Sim (h : Heap) (S : List (Int → Prop)) : Prop :=
  S.length = h.objs.length ∧ ∀ x, x < h.objs.length → ∀ l, h.read x = .ok l → Agrees l (refGet S x)

theorem sim_step {h : Heap} (hh : HeapOk h) {op : Op} (hop : op.Legal h.objs.length) (hsup : op.Supported)
    {S : List (Int → Prop)} (hS : Sim h S) :
    ∃ h' ret, step h op = .ok (h', ret) ∧ HeapOk h' ∧ h'.objs.length = op.count h.objs.length ∧ Sim h' (refStep S op) := by
  obtain ⟨v, h1, ret, hs, hok, hval, _⟩ := step_ok hh hop
  have hagree := hval.2 hsup S hS.2
  refine ⟨h1, ret, hs.1, hok, hs.2.2.1, ?_, ?_⟩
  · rw [hs.2.2.1]
    unfold refStep Op.count
    cases op.receiver <;> simp [hS.1]
  · intro x hx l hl
    obtain ⟨_, _, hcnt, htgt, hfr, _⟩ := hs
    have hn := hS.1
    by_cases hxt : x = op.target h.objs.length
    · subst hxt
      rw [htgt] at hl; cases hl
      have : refGet (refStep S op) (op.target h.objs.length) = refVal S op := by
        unfold refStep refGet Op.target
        cases hr : op.receiver with
        | none => simp [← hn]
        | some z =>
          have := Op.receiver_lt hop hr
          simp [List.getD_eq_getElem?_getD, List.getElem?_set_self (by omega : z < S.length)]
      rw [this]; exact hagree
    · have hxn : x < h.objs.length ∧ op.receiver ≠ some x := by
        unfold Op.target at hxt
        unfold Op.count at hcnt
        cases hr : op.receiver with
        | none => rw [hr] at hxt hcnt; simp at hxt hcnt; exact ⟨by omega, by simp⟩
        | some z => rw [hr] at hxt hcnt; simp at hxt hcnt; exact ⟨by omega, by simp; exact fun h => hxt h.symm⟩
      rw [hfr x hxn.1 hxn.2] at hl
      have : refGet (refStep S op) x = refGet S x := by
        unfold refStep refGet
        cases hr : op.receiver with
        | none => simp [List.getD_eq_getElem?_getD, List.getElem?_append_left (by omega : x < S.length)]
        | some z =>
          have hzx : z ≠ x := fun h => hxn.2 (by rw [hr, h])
          simp [List.getD_eq_getElem?_getD, List.getElem?_set_ne hzx]
      rw [this]; exact hS.2 x hxn.1 l hl

theorem sim_run : ∀ (ops : List Op) {h : Heap} {S : List (Int → Prop)}, HeapOk h → LegalHistory h.objs.length ops →
    (∀ op ∈ ops, op.Supported) → Sim h S → ∃ h', run h ops = .ok h' ∧ HeapOk h' ∧ Sim h' (refRun S ops)
  | [], h, S, hh, _, _, hS => ⟨h, rfl, hh, hS⟩
  | op :: ops, h, S, hh, hl, hsup, hS => by
    obtain ⟨h1, ret, h2, h3, h4, h5⟩ := sim_step hh hl.1 (hsup op (by simp)) hS
    obtain ⟨h', hr, hok, hsim⟩ := sim_run ops h3 (by rw [h4]; exact hl.2) (fun o ho => hsup o (by simp [ho])) h5
    refine ⟨h', ?_, hok, hsim⟩
    simp only [run, h2, bind, Except.bind]
    exact hr

theorem run_frame : ∀ (ops : List Op) {h h' : Heap}, HeapOk h → LegalHistory h.objs.length ops → run h ops = .ok h' →
    ∀ y, y < h.objs.length → (∀ op ∈ ops, op.receiver ≠ some y) → h'.read y = h.read y
  | [], h, h', _, _, hr, y, _, _ => by simp [run] at hr; rw [hr]
  | op :: ops, h, h', hh, hl, hr, y, hy, hne => by
    obtain ⟨v, h1, ret, hs, hok, _⟩ := step_ok hh hl.1
    have hcnt := hs.2.2.1
    simp only [run, hs.1, bind, Except.bind] at hr
    have hle : h.objs.length ≤ h1.objs.length := by rw [hcnt]; unfold Op.count; split <;> omega
    rw [run_frame ops hok (by rw [hcnt]; exact hl.2) hr y (by omega) (fun o ho => hne o (by simp [ho]))]
    exact hs.2.2.2.2.1 y hy (hne op (by simp))

end Verif.USet

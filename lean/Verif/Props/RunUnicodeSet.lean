import Verif.Lemmas.RunUSetText
import Verif.Lemmas.RunUSetLoops
import Verif.Props.UnicodeSetExact
/-!
# UnicodeSet.py, executed from its text (C138)

The text of the file is parsed by `Model/PySyntax` and executed by `Model/PyHeap`, with a heap of mutable lists and objects. `w` is what the
import of the file defines; `n` bounds the depth of calls and the number of times that a `while` goes around, and any large enough `n` gives the
same result. The program starts in any heap `σ₀`: what other code has made does not matter.
-/
namespace Verif.PyHeap
open Verif.PySyntax Verif.Data
open Verif.PyRun (R)

/-- The methods of the classes of a module, and its functions. -/
def methods : Stmt → List Nat
  | .seq a b => methods a ++ methods b
  | .defn x _ _ => [x]
  | .cls _ _ b => methods b
  | _ => []

/-- The methods that `text_programs` is about. -/
def mutators : List Nat := [n% "__init__", n% "add", n% "addRange", n% "addAll", n% "remove", n% "removeRange", n% "removeAll", n% "retain",
  n% "retainRange", n% "retainAll", n% "complement", n% "complementRange", n% "complementAll", n% "clear", n% "union", n% "intersection",
  n% "difference", n% "symmetric_difference"]

/-- The methods that `text_queries` is about. -/
def queries : List Nat := [n% "contains", n% "size", n% "getRangeCount", n% "getRangeStart", n% "getRangeEnd", n% "indexOf", n% "charAt", n% "getRanges",
  n% "__iter__", n% "__str__"]

/-- The methods that `text_operators` is about. -/
def operators : List Nat := [n% "__eq__", n% "__ne__", n% "__contains__", n% "__or__", n% "__and__", n% "__sub__", n% "__xor__", n% "__ior__", n% "__iand__",
  n% "__isub__", n% "__ixor__"]

/-- C138. Nothing of the file is left out but `dump`, which prints; the last four are called by the others. -/
theorem text_methods : ∃ b, parse (textOf Source.UnicodeSet) = some b ∧ ∀ f ∈ methods b, f ∈ mutators ++ queries ++ operators ++
    [n% "dump", n% "_pinCodePoint", n% "_findCodePoint", n% "_retainList", n% "_addList", n% "_exclusiveOrList"] :=
  ⟨_, PyRun.parse_UnicodeSet, by decide +kernel⟩

/-- C138. Every program that calls the constructor, the mutators and the operators, with any arguments: either it raises the exception that the
model raises, or it ends, every object is a set with the list of the model, no two variables have the same object, and every call returned the
object (or `None`) that the model says. -/
theorem text_programs : ∃ w, importModule (textOf Source.UnicodeSet) = .ok w ∧ ∀ ops : List USet.Op, ∃ N, ∀ n, N ≤ n → ∀ σ₀,
    match modelOps USet.Heap.empty ops with
    | .error e => runOps w n ops [] σ₀ = .error (.raised e)
    | .ok (h, us) => ∃ vars σ vs, runOps w n ops [] σ₀ = .ok (vars, σ, vs) ∧ vars.Nodup ∧ vars.length = h.objs.length ∧
        (∀ x l, h.read x = .ok l → ∃ a r, vars[x]? = some a ∧ IsSet σ a r l) ∧ Returned vars us vs := by
  refine ⟨unicodeSet, import_ok, fun ops => ?_⟩
  obtain ⟨N, hN⟩ := ops_sim imported ops USet.Heap.empty
  refine ⟨N, fun n hn σ₀ => ?_⟩
  have h := hN n hn [] [] σ₀ (rep_empty σ₀)
  cases e : modelOps USet.Heap.empty ops with
  | error e' => rw [e] at h; exact h
  | ok p =>
    obtain ⟨h', us⟩ := p
    rw [e] at h
    obtain ⟨vars, lists, σ, vs, h1, P, h3, _⟩ := h
    refine ⟨vars, σ, vs, h1, ?_, P.objs, fun x l hx => ?_, h3⟩
    · refine List.pairwise_iff_getElem.2 fun i j hi hj hij he => ?_
      have := P.objInj i j vars[i] (List.getElem?_eq_getElem hi) (by rw [he]; exact List.getElem?_eq_getElem hj)
      omega
    · rcases P.at x with ⟨_, hr⟩ | ⟨a, r, b, m, A⟩
      · rw [hr] at hx; cases hx
      · rw [A.read] at hx; cases hx
        exact ⟨a, b, A.var, A.isSet⟩

/-- A program with three variables that runs to its end, and one that raises an exception: the third set is changed in place by `addRange`. -/
example : modelOps USet.Heap.empty [.newRange 0x41 0x5B, .newInt 0x61, .union 0 1, .addRange 2 0x100 0x17F, .removeAll 2 0] =
      .ok (⟨[0, 1, 4], [[0x41, 0x5B, 0x110000], [0x61, 0x62, 0x110000], [0x41, 0x5B, 0x110000],
        [0x41, 0x5B, 0x61, 0x62, 0x100, 0x180, 0x110000], [0x61, 0x62, 0x100, 0x180, 0x110000]]⟩, [some 0, some 1, some 2, none, some 2]) := rfl

/-- C138. Every method that asks a set something, for every list that the set may have and all arguments: it returns what the model says, or
raises the same exception, and leaves every object as it is. `getRanges` and `__str__` make lists, the iterator is a new object. -/
theorem text_queries : ∃ w, importModule (textOf Source.UnicodeSet) = .ok w ∧ ∀ σ x r l, IsSet σ x r l → ∀ n, l.length + 3 ≤ n →
    let call := fun (f : Nat) (args : List Val) => callMethod w (run w n) (.ref x) f args σ
    (∀ c, call (n% "contains") [.int c] = ret .bool σ (USet.contains l c)) ∧
    (∀ a b s, call (n% "contains") [.range a b s] = ret .bool σ (USet.containsRange l a b)) ∧
    (∀ v, (v = .other ∨ v = .none ∨ ∃ b, v = .bool b) → call (n% "contains") [v] = .error (.raised .typeError)) ∧
    call (n% "size") [] = ret .int σ (USet.size l) ∧
    call (n% "getRangeCount") [] = .ok (.int (USet.getRangeCount l), σ) ∧
    (∀ i, call (n% "getRangeStart") [.int i] = ret .int σ (USet.getRangeStart l i)) ∧
    (∀ i, call (n% "getRangeEnd") [.int i] = ret .int σ (USet.getRangeEnd l i)) ∧
    (∀ c, call (n% "indexOf") [.int c] = .ok (optional (USet.indexOf l c), σ)) ∧
    (∀ i, call (n% "charAt") [.int i] = .ok (optional (USet.charAt l i), σ)) ∧
    call (n% "getRanges") [] = .ok (.ref σ.next, σ.push (.list ((USet.getRanges l).map fun p => .range p.1 p.2 1))) ∧
    call (n% "__iter__") [] = .ok (.ref σ.next, σ.push (.gen ((USet.iter l).map .int))) ∧
    ∃ ts, call (n% "__str__") [] = .ok (.str (USet.str l), σ.push (.list ts)) := by
  refine ⟨unicodeSet, import_ok, fun σ x r l S n hn => ?_⟩
  have H := imported
  simp only [callMethod, S.obj]
  exact ⟨fun c => contains_int H S c (by omega), fun a b s => contains_range H S a b s (by omega), fun v hv => contains_other H v hv (by omega),
    size_run H S (by omega), getRangeCount_run H S (by omega), fun i => getRangeStart_run H S i (by omega), fun i => getRangeEnd_run H S i (by omega),
    fun c => indexOf_run H S c (by omega), fun i => charAt_run H S i (by omega), getRanges_run H S (by omega), iter_run H S (by omega),
    str_run H S (by omega)⟩

/-- C138. The operators are the methods, and `==` compares the lists. -/
theorem text_operators : ∃ w, importModule (textOf Source.UnicodeSet) = .ok w ∧ ∀ σ x r l, IsSet σ x r l → ∀ n,
    let call := fun (f : Nat) (v : Val) => callMethod w (run w n) (.ref x) f [v] σ
    let operator := fun (o : Op) (v : Val) => apply w (run w (n + 1)) o (.ref x) v σ
    let inPlace := fun (o : Op) (v : Val) => augment w (run w (n + 1)) o (.ref x) v σ
    (∀ v, operator .or v = call (n% "union") v ∧ operator .and v = call (n% "intersection") v ∧ operator .sub v = call (n% "difference") v ∧
      operator .xor v = call (n% "symmetric_difference") v ∧ inPlace .or v = call (n% "addAll") v ∧ inPlace .and v = call (n% "retainAll") v ∧
      inPlace .sub v = call (n% "removeAll") v ∧ inPlace .xor v = call (n% "complementAll") v) ∧
    (∀ v b, call (n% "contains") v = ret .bool σ b → apply w (run w (n + 1)) .in' v (.ref x) σ = ret .bool σ b) ∧
    (∀ y q m, IsSet σ y q m → operator .eq (.ref y) = .ok (.bool (decide (l = m)), σ)) ∧
    (∀ y q m, IsSet σ y q m → 1 ≤ n → operator .ne (.ref y) = .ok (.bool !decide (l = m), σ)) ∧
    ∀ v, (v = .other ∨ v = .none ∨ (∃ b, v = .bool b) ∨ (∃ i, v = .int i) ∨ ∃ a b s, v = .range a b s) →
      operator .eq v = .error (.raised .attributeError) := by
  refine ⟨unicodeSet, import_ok, fun σ x r l S n => ?_⟩
  have H := imported
  simp only [callMethod, S.obj]
  refine ⟨fun v => ⟨or_operator H S v, and_operator H S v, sub_operator H S v, xor_operator H S v, or_inPlace H S v, and_inPlace H S v,
    sub_inPlace H S v, xor_inPlace H S v⟩, fun v b h => in_run H S v h, fun y q m T => eq_run H S T (by omega), fun y q m T hn => ?_,
    fun v hv => eq_other H S v hv (by omega)⟩
  exact ne_run H S (.ref y) (b := .ok (decide (l = m))) (eq_run H S T hn)

/-- Two sets. -/
example : IsSet ⟨4, fun a => match a with
    | 0 => some (.obj (n% "UnicodeSet") [(n% "list", .ref 1)]) | 1 => some (.list [.int 0x41, .int 0x5B, .int 0x110000])
    | 2 => some (.obj (n% "UnicodeSet") [(n% "list", .ref 3)]) | 3 => some (.list [.int 0x110000]) | _ => none⟩ 0 1 [0x41, 0x5B, 0x110000] :=
  ⟨rfl, rfl, by decide, by decide⟩

/-- The result of `x op y` or of a query: the value, and nothing has changed. -/
theorem isIn_run {w : Scope} (H : Imported w) {n : Nat} {h : USet.Heap} {vars lists : List Nat} {σ : Heap} (P : Rep h vars lists σ) (c : Int) (x : Nat)
    (hn : (h.cells.map List.length).sum + 3 ≤ n) : isIn w n vars c x σ = ret .bool σ (h.contains x c) := by
  obtain ⟨n, rfl⟩ : ∃ m, n = m + 1 := ⟨n - 1, by omega⟩
  rw [isIn, USet.Heap.contains]
  rcases P.at x with ⟨hv, hr⟩ | ⟨a, r, b, l, A⟩
  · rw [variable', hv, hr]; rfl
  · have hl := A.le
    rw [A.variable, A.read]
    exact in_run H A.isSet (.int c) (contains_int H A.isSet c (by omega))

theorem isEq_run {w : Scope} (H : Imported w) {n : Nat} {h : USet.Heap} {vars lists : List Nat} {σ : Heap} (P : Rep h vars lists σ) {x y : Nat}
    {l m : List Int} (hx : h.read x = .ok l) (hy : h.read y = .ok m) (hn : 1 ≤ n) : isEq w n vars x y σ = .ok (.bool (USet.eq l m), σ) := by
  rw [isEq]
  rcases P.at x with ⟨_, hr⟩ | ⟨a, r, b, l', A⟩
  · rw [hr] at hx; cases hx
  · rcases P.at y with ⟨_, hr⟩ | ⟨a', r', b', m', B⟩
    · rw [hr] at hy; cases hy
    · rw [A.read] at hx; cases hx
      rw [B.read] at hy; cases hy
      rw [A.variable, B.variable]
      exact eq_run H A.isSet B.isSet hn

/-- C138. So, for the file as it is shipped: every legal program ends, and afterwards `c in x` is True exactly for the code points that the
specification puts in the set, and looking changes nothing. The calls that do nothing, by the findings of C06, are left out in the specification. -/
theorem text_history {ops : List USet.Op} (hl : USet.LegalHistory 0 ops) :
    ∃ w, importModule (textOf Source.UnicodeSet) = .ok w ∧ ∃ N, ∀ n, N ≤ n → ∀ σ₀, ∃ vars σ vs, runOps w n ops [] σ₀ = .ok (vars, σ, vs) ∧
      vars.length = (USet.refRun [] (USet.Props.supportedCalls ops)).length ∧
      ∀ x, x < vars.length → ∀ c, Spec.IsCodePoint c →
        ∃ b : Bool, isIn w n vars c x σ = .ok (.bool b, σ) ∧ (b = true ↔ USet.refGet (USet.refRun [] (USet.Props.supportedCalls ops)) x c) := by
  obtain ⟨h, h1, h2, h3⟩ := USet.Props.history_exact hl
  rw [modelOps_run] at h1
  refine ⟨unicodeSet, import_ok, ?_⟩
  obtain ⟨N, hN⟩ := ops_sim imported ops USet.Heap.empty
  refine ⟨max N ((h.cells.map List.length).sum + 3), fun n hn σ₀ => ?_⟩
  have hr := hN n (Nat.le_trans (Nat.le_max_left ..) hn) [] [] σ₀ (rep_empty σ₀)
  cases e : modelOps USet.Heap.empty ops with
  | error e' => rw [e] at h1; cases h1
  | ok p =>
    rw [e] at h1 hr
    obtain ⟨h', us⟩ := p
    cases h1
    obtain ⟨vars, lists, σ, vs, r1, P, _, _⟩ := hr
    refine ⟨vars, σ, vs, r1, P.objs.trans h2, fun x hx c hc => ?_⟩
    obtain ⟨b, hb, hc'⟩ := h3 x (P.objs ▸ hx) c hc
    exact ⟨b, by rw [isIn_run imported P c x (Nat.le_trans (Nat.le_max_right ..) hn), hb]; rfl, hc'⟩

example : USet.LegalHistory 0 [.newRange 0x41 0x5B, .newInt 0x61, .union 0 1, .addRange 2 0x100 0x17F, .remove 2 0x41, .removeAll 2 0] ∧
    USet.Props.supportedCalls [.newRange 0x41 0x5B, .newInt 0x61, .union 0 1, .addRange 2 0x100 0x17F, .remove 2 0x41, .removeAll 2 0] =
      [.newRange 0x41 0x5B, .newInt 0x61, .union 0 1, .addRange 2 0x100 0x17F, .removeAll 2 0] := by decide

/-- C138. In the same programs the other queries speak of the same members: with `M` the members in ascending order, `size()` is their number,
the iterator yields them, `charAt(i)` is the one with index `i`, and `indexOf(c) == i` says that `c` has index `i`. -/
theorem text_members {ops : List USet.Op} (hl : USet.LegalHistory 0 ops) :
    ∃ w, importModule (textOf Source.UnicodeSet) = .ok w ∧ ∃ N, ∀ n, N ≤ n → ∀ σ₀, ∃ vars σ vs, runOps w n ops [] σ₀ = .ok (vars, σ, vs) ∧
      vars.length = (USet.refRun [] (USet.Props.supportedCalls ops)).length ∧
      ∀ x a, vars[x]? = some a → ∃ M : List Int, M.Pairwise (· < ·) ∧ (∀ c, c ∈ M ↔ Spec.IsCodePoint c ∧ USet.refGet (USet.refRun [] (USet.Props.supportedCalls ops)) x c) ∧
        let call := fun (f : Nat) (args : List Val) => callMethod w (run w n) (.ref a) f args σ
        call (n% "size") [] = .ok (.int M.length, σ) ∧
        call (n% "__iter__") [] = .ok (.ref σ.next, σ.push (.gen (M.map .int))) ∧
        (∀ i : Nat, call (n% "charAt") [.int i] = .ok (optional M[i]?, σ)) ∧
        ∀ c, ∃ v, call (n% "indexOf") [.int c] = .ok (v, σ) ∧ (v = .none ∨ ∃ i : Nat, v = .int i) ∧ ∀ i : Nat, v = .int i ↔ M[i]? = some c := by
  obtain ⟨h, h1, h2, h3⟩ := USet.Props.history_exact hl
  obtain ⟨h', h1', hw⟩ := USet.Props.history_terminates hl
  rw [h1] at h1'
  cases h1'
  rw [modelOps_run] at h1
  refine ⟨unicodeSet, import_ok, ?_⟩
  have H := imported
  obtain ⟨N, hN⟩ := ops_sim H ops USet.Heap.empty
  refine ⟨max N 2, fun n hn σ₀ => ?_⟩
  have hr := hN n (by omega) [] [] σ₀ (rep_empty σ₀)
  cases e : modelOps USet.Heap.empty ops with
  | error e' => rw [e] at h1; cases h1
  | ok p =>
    rw [e] at h1 hr
    obtain ⟨h', us⟩ := p
    cases h1
    obtain ⟨vars, lists, σ, vs, r1, P, _, _⟩ := hr
    refine ⟨vars, σ, vs, r1, P.objs.trans h2, fun x a hx => ?_⟩
    rcases P.at x with ⟨hv, _⟩ | ⟨a', r, b, l, A⟩
    · rw [hx] at hv; cases hv
    · have : a' = a := by have := A.var; rw [hx] at this; exact (Option.some.inj this).symm
      subst this
      have hx' : x < h'.objs.length := P.objs ▸ (List.getElem?_eq_some_iff.1 hx).1
      have hwf : Spec.WellFormed l := by
        obtain ⟨l', e1, e2⟩ := hw x hx'
        rw [A.read] at e1; cases e1; exact e2
      have hmem : ∀ c, c ∈ Spec.membersOf (USet.Props.has l) ↔ Spec.IsCodePoint c ∧ USet.refGet (USet.refRun [] (USet.Props.supportedCalls ops)) x c := by
        intro c
        unfold Spec.membersOf USet.Props.has
        rw [List.mem_filter, USet.mem_codePoints, decide_eq_true_eq]
        refine and_congr_right fun hc => ?_
        obtain ⟨b, e1, e2⟩ := h3 x hx' c hc
        rw [USet.Heap.contains, A.read] at e1
        simp only [Bind.bind, Except.bind] at e1
        rw [← e2, USet.Props.Has, e1]
        simp
      refine ⟨Spec.membersOf (USet.Props.has l), ?_, hmem, ?_⟩
      · unfold Spec.membersOf Spec.codePoints
        refine List.Pairwise.filter _ (List.Pairwise.map _ (fun a b h => ?_) List.pairwise_lt_range)
        exact Int.ofNat_lt.2 h
      · simp only [callMethod, A.isSet.obj]
        refine ⟨?_, ?_, fun i => ?_, fun c => ?_⟩
        · rw [size_run H A.isSet (by omega), USet.Props.size_counts_members hwf]; rfl
        · rw [iter_run H A.isSet (by omega), USet.Props.iter_yields_members hwf]; rfl
        · rw [charAt_run H A.isSet i (by omega), USet.Props.charAt_member hwf, if_pos (by omega), Int.toNat_natCast]
        · refine ⟨_, indexOf_run H A.isSet c (by omega), ?_, fun i => ?_⟩
          · cases ei : USet.indexOf l c with
            | none => exact .inl rfl
            | some t =>
              have ht := ((USet.Props.indexOf_member hwf).1 ei).1
              exact .inr ⟨t.toNat, congrArg Val.int (by omega)⟩
          · have hi := USet.Props.indexOf_member hwf (c := c) (i := i)
            rw [Int.toNat_natCast] at hi
            constructor
            · intro h
              cases ei : USet.indexOf l c with
              | none => rw [ei] at h; cases h
              | some t => rw [ei, optional] at h; cases h; exact (hi.1 ei).2
            · intro h
              rw [hi.2 ⟨by omega, h⟩]; rfl

/-- C138. A call changes no set but its receiver: in a legal program, whatever `c in y` was, for a set `y` of which no method that changes it is
called afterwards, it still is. -/
theorem text_no_aliasing {ops1 ops2 : List USet.Op} (hl : USet.LegalHistory 0 (ops1 ++ ops2)) :
    ∃ w, importModule (textOf Source.UnicodeSet) = .ok w ∧ ∃ N, ∀ n, N ≤ n → ∀ σ₀, ∃ vars σ vs vars' σ' vs',
      runOps w n ops1 [] σ₀ = .ok (vars, σ, vs) ∧ runOps w n ops2 vars σ = .ok (vars', σ', vs') ∧
      ∀ y, y < vars.length → (∀ op ∈ ops2, op.receiver ≠ some y) → ∀ c, Spec.IsCodePoint c →
        ∃ b : Bool, isIn w n vars c y σ = .ok (.bool b, σ) ∧ isIn w n vars' c y σ' = .ok (.bool b, σ') := by
  obtain ⟨h1, h2, e1, e2, h3⟩ := USet.Props.no_aliasing hl
  obtain ⟨hh, eh, hw⟩ := USet.Props.history_terminates hl
  rw [modelOps_run] at e1 e2 eh
  refine ⟨unicodeSet, import_ok, ?_⟩
  obtain ⟨N1, hN1⟩ := ops_sim imported ops1 USet.Heap.empty
  obtain ⟨N2, hN2⟩ := ops_sim imported ops2 h1
  refine ⟨max (max N1 N2) (max ((h1.cells.map List.length).sum + 3) ((h2.cells.map List.length).sum + 3)), fun n hn σ₀ => ?_⟩
  have hr1 := hN1 n (by omega) [] [] σ₀ (rep_empty σ₀)
  cases m1 : modelOps USet.Heap.empty ops1 with
  | error e' => rw [m1] at e1; cases e1
  | ok p =>
    obtain ⟨h1', us1⟩ := p
    rw [m1] at e1 hr1
    cases e1
    obtain ⟨vars, lists, σ, vs, r1, P, _, _⟩ := hr1
    have hr2 := hN2 n (by omega) vars lists σ P
    cases m2 : modelOps h1' ops2 with
    | error e' => rw [m2] at e2; cases e2
    | ok p =>
      obtain ⟨h2', us2⟩ := p
      rw [m2] at e2 hr2
      cases e2
      obtain ⟨vars', lists', σ', vs', r2, P', _, ys, r3⟩ := hr2
      rw [modelOps_append m1 m2] at eh
      cases eh
      refine ⟨vars, σ, vs, vars', σ', vs', r1, r2, fun y hy hrec c hc => ?_⟩
      have hread := h3 y (P.objs ▸ hy) hrec
      obtain ⟨l, hl', hwf⟩ := hw y (by rw [← P'.objs, r3, List.length_append]; omega)
      obtain ⟨b, hb⟩ := USet.Props.contains_total hwf hc
      refine ⟨b, ?_, ?_⟩
      · rw [isIn_run imported P c y (by dsimp only at hn; omega), USet.Heap.contains, ← hread, hl']; simp only [Bind.bind, Except.bind, hb]; rfl
      · rw [isIn_run imported P' c y (by dsimp only at hn; omega), USet.Heap.contains, hl']; simp only [Bind.bind, Except.bind, hb]; rfl

example : USet.LegalHistory 0 ([.newRange 0x41 0x5B, .newCopy 0] ++ [.addRange 1 0x100 0x17F, .complement 1]) ∧
    ∀ op ∈ ([.addRange 1 0x100 0x17F, .complement 1] : List USet.Op), op.receiver ≠ some 0 := by decide

end Verif.PyHeap

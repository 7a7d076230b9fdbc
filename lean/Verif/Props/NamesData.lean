import Verif.Spec.NamesData
import Verif.Props.CharNames
import Verif.Props.DataItems
import Verif.Props.Hex
/-!
# Names loaded from a data file (C81)
-/
namespace Verif.CharNames.Props
open Verif.CharNames.Spec
open Verif.Spec (leAll leBytes Padded)
open Verif.ICUData (State construct)
open Verif.ICUData.Spec (At Body)
open Verif.ICUData.Props (at_left at_right at_part at_slice' at_unpack body_found getString_text)

/-! ## Ranges -/

/-- The elements that are read are the texts up to the limit. -/
theorem elementsLoop_texts {s : State} : ∀ (es : List Str) (fuel pos : Nat) (acc : List Str), (∀ e ∈ es, 0 ∉ e) →
    At s.fileData pos (texts es) → es.length < fuel →
    elementsLoop s (pos + (texts es).length) fuel pos acc = .ok (acc ++ es) := by
  intro es
  induction es with
  | nil =>
    intro fuel pos acc _ _ hf
    cases fuel with
    | zero => simp at hf
    | succ fuel =>
      unfold elementsLoop
      rw [if_neg (by simp [texts]), List.append_nil]
  | cons e es ih =>
    intro fuel pos acc h0 hat hf
    cases fuel with
    | zero => simp at hf
    | succ fuel =>
      have he : texts (e :: es) = (e ++ [0]) ++ texts es := by simp [texts]
      rw [he] at hat
      unfold elementsLoop
      rw [if_pos (by simp [he]; omega), getString_text s pos e (h0 e (by simp)) (at_left hat)]
      simp only [bind, Except.bind]
      have := ih fuel (pos + e.length + 1) (acc ++ [e]) (fun x hx => h0 x (by simp [hx]))
        (by have := at_right hat; simpa [Nat.add_assoc] using this) (by simpa using hf)
      rw [show pos + (texts (e :: es)).length = pos + e.length + 1 + (texts es).length by simp [he]; omega, this]
      simp

theorem texts_zeros (p : Nat) : List.replicate p 0 = texts (List.replicate p []) := by
  induction p with
  | zero => rfl
  | succ p ih => rw [List.replicate_succ, List.replicate_succ, ih]; rfl

theorem texts_append (a b : List Str) : texts (a ++ b) = texts a ++ texts b := by simp [texts]

theorem texts_length (a : List Str) : a.length ≤ (texts a).length := by
  induction a with
  | nil => simp
  | cons x xs ih =>
    have : texts (x :: xs) = (x ++ [0]) ++ texts xs := by simp [texts]
    rw [this]
    simp only [List.length_append, List.length_cons, List.length_nil]
    omega

/-- The range that is read from a record. -/
def rangeOf (r : RangeImage) : AlgorithmicRange :=
  match r.form with
  | .hex digits start _ => ⟨r.first, r.last + 1, 0, digits, 12 + r.form.bytes.length, start, [], []⟩
  | .factors start blocks pad => ⟨r.first, r.last + 1, 1, blocks.length, 12 + r.form.bytes.length, start, blocks.map List.length,
      blocks.flatten ++ List.replicate pad []⟩

theorem leAll_pair (w a b : Nat) : leAll w [a, b] = leBytes w a ++ leBytes w b := by simp [leAll]
theorem leAll_one (w a : Nat) : leAll w [a] = leBytes w a := by simp [leAll]

theorem readRange_image {s : State} {pos : Nat} {r : RangeImage} (hf : r.Fits) (hat : At s.fileData pos r.bytes) :
    readRange s pos = .ok (rangeOf r) := by
  have h1 := hf.order
  have h2 := hf.last
  have h3 := hf.size
  have hv : r.form.kind < 256 ∧ r.form.variant < 256 := by
    have := hf.form
    cases hform : r.form with
    | hex d st p => rw [hform] at this; simp only [Form.Fits] at this; simp only [Form.kind, Form.variant]; omega
    | factors st bl p => rw [hform] at this; simp only [Form.Fits] at this; simp only [Form.kind, Form.variant]; omega
  have hb : s.getData pos (pos + rangeLength) = leAll 4 [r.first, r.last] ++ leAll 1 [r.form.kind, r.form.variant] ++
      leAll 2 [12 + r.form.bytes.length] :=
    at_slice' (at_left hat) (by simp [leAll_length, rangeLength])
  have hrest : At s.fileData (pos + 12) r.form.bytes := by
    have := at_right hat
    simpa [leAll_length] using this
  have l1 : ∀ v, (leBytes 1 v).length = 1 := fun v => leBytes_length 1 v
  have l2 : ∀ v, (leBytes 2 v).length = 2 := fun v => leBytes_length 2 v
  have l4 : ∀ v, (leBytes 4 v).length = 4 := fun v => leBytes_length 4 v
  rw [leAll_pair, leAll_pair, leAll_one] at hb
  have s0 : slice (s.getData pos (pos + rangeLength)) 0 4 = leBytes 4 r.first := by
    rw [hb]; exact at_slice' ⟨[], leBytes 4 r.last ++ (leBytes 1 r.form.kind ++ leBytes 1 r.form.variant) ++
      leBytes 2 (12 + r.form.bytes.length), by simp, rfl⟩ (by simp [l4])
  have s1 : slice (s.getData pos (pos + rangeLength)) 4 8 = leBytes 4 r.last := by
    rw [hb]; exact at_slice' ⟨leBytes 4 r.first, (leBytes 1 r.form.kind ++ leBytes 1 r.form.variant) ++
      leBytes 2 (12 + r.form.bytes.length), by simp, by simp [l4]⟩ (by simp [l4])
  have s2 : slice (s.getData pos (pos + rangeLength)) 8 9 = leBytes 1 r.form.kind := by
    rw [hb]; exact at_slice' ⟨leBytes 4 r.first ++ leBytes 4 r.last, leBytes 1 r.form.variant ++
      leBytes 2 (12 + r.form.bytes.length), by simp, by simp [l4]⟩ (by simp [l1])
  have s3 : slice (s.getData pos (pos + rangeLength)) 9 10 = leBytes 1 r.form.variant := by
    rw [hb]; exact at_slice' ⟨leBytes 4 r.first ++ leBytes 4 r.last ++ leBytes 1 r.form.kind,
      leBytes 2 (12 + r.form.bytes.length), by simp, by simp [l4, l1]⟩ (by simp [l1])
  have s4 : slice (s.getData pos (pos + rangeLength)) 10 12 = leBytes 2 (12 + r.form.bytes.length) := by
    rw [hb]; exact at_slice' ⟨leBytes 4 r.first ++ leBytes 4 r.last ++ leBytes 1 r.form.kind ++ leBytes 1 r.form.variant,
      [], by simp, by simp [l4, l1]⟩ (by simp [l2])
  have hlen : (s.getData pos (pos + rangeLength)).length = rangeLength := by
    rw [hb]; simp [l1, l2, l4, rangeLength]
  unfold readRange
  simp only
  rw [if_neg (by rw [hlen]; simp), s0, s1, s2, s3, s4, leValue_leBytes 4 _ (by simp; omega), leValue_leBytes 4 _ (by simp; omega),
    leValue_leBytes 1 _ (by simp; omega), leValue_leBytes 1 _ (by simp; omega), leValue_leBytes 2 _ (by simp; omega)]
  have hform := hf.form
  unfold rangeOf
  rw [show pos + rangeLength = pos + 12 from rfl]
  cases he : r.form with
  | hex d st p =>
    rw [he] at hform hrest
    simp only [Form.Fits] at hform
    have ht : Form.bytes (.hex d st p) = (st ++ [0]) ++ p := by simp [Form.bytes, texts]
    simp only [Form.kind, if_true]
    rw [getString_text s _ st hform.2 (by rw [ht] at hrest; exact at_left hrest)]
    rfl
  | factors st bl p =>
    rw [he] at hform hrest
    simp only [Form.Fits] at hform
    obtain ⟨f1, f2, f3, f4, f5, f6⟩ := hform
    have ht : Form.bytes (.factors st bl p) = leAll 2 (bl.map List.length) ++ ((st ++ [0]) ++ texts (bl.flatten ++ List.replicate p [])) := by
      rw [texts_append, ← texts_zeros]
      simp [Form.bytes, texts]
    rw [ht] at hrest
    simp only [Form.kind, Form.variant]
    have hl2 : (leAll 2 (bl.map List.length)).length = 2 * bl.length := by rw [leAll_length]; simp
    have hr2 := at_right hrest
    rw [hl2] at hr2
    have hr3 := at_right hr2
    rw [if_neg (by decide), if_pos True.intro]
    have hu := at_unpack (at_left hrest) (n := bl.length) (lim := pos + 12 + 2 * bl.length) (by simp) (by simp) (by
      intro v hv
      obtain ⟨b, hb, rfl⟩ := List.mem_map.mp hv
      exact (f4 b hb).2)
    rw [show s.getData (pos + 12) (pos + 12 + 2 * bl.length) = slice s.fileData (pos + 12) (pos + 12 + 2 * bl.length) from rfl, hu]
    simp only [bind, Except.bind]
    rw [getString_text s _ st f1 (at_left hr2)]
    simp only
    have hlim : pos + (12 + (Form.factors st bl p).bytes.length) =
        (pos + 12 + 2 * bl.length + st.length + 1) + (texts (bl.flatten ++ List.replicate p [])).length := by
      rw [ht]; simp only [List.length_append, hl2, List.length_cons, List.length_nil]; omega
    have htl := texts_length (bl.flatten ++ List.replicate p [])
    rw [hlim, elementsLoop_texts (bl.flatten ++ List.replicate p []) _ _ [] (by
        intro e hm
        rcases List.mem_append.mp hm with hm | hm
        · obtain ⟨b, hb, hw⟩ := List.mem_flatten.mp hm
          exact f5 b hb e hw
        · rw [(List.mem_replicate.mp hm).2]; simp)
      (by simpa [Nat.add_assoc] using hr3) (by rw [ht]; simp only [List.length_append] at htl ⊢; omega)]
    rfl

theorem rangeOf_size (r : RangeImage) : (rangeOf r).size = r.bytes.length := by
  unfold rangeOf RangeImage.bytes
  simp only [List.length_append, leAll_length, List.length_cons, List.length_nil]
  cases r.form <;> simp only <;> omega

theorem readRanges_images {s : State} : ∀ (rs : List RangeImage) (pos : Nat), (∀ r ∈ rs, r.Fits) →
    At s.fileData pos (rs.flatMap RangeImage.bytes) → readRanges s rs.length pos = .ok (rs.map rangeOf) := by
  intro rs
  induction rs with
  | nil => intro pos _ _; rfl
  | cons r rs ih =>
    intro pos hf hat
    rw [List.flatMap_cons] at hat
    unfold readRanges
    have h1 := hf r (by simp)
    simp only [List.length_cons, readRange_image h1 (at_left hat), bind, Except.bind]
    rw [rangeOf_size r, ih _ (fun x hx => hf x (by simp [hx])) (at_right hat)]
    rfl

/-! ## Groups -/

/-- `G` is the group of the image: the same number and the same 32 strings; a padding nibble may show up as one more. -/
def Reads (g : GroupImage) (G : Group) : Prop := G.msb = g.msb ∧ ∃ extra, G.strings = g.strings ++ extra

inductive ReadsAll : List GroupImage → List Group → Prop
  | nil : ReadsAll [] []
  | cons {g : GroupImage} {G : Group} {gs : List GroupImage} {Gs : List Group} : Reads g G → ReadsAll gs Gs → ReadsAll (g :: gs) (G :: Gs)

theorem readGroups_images {s : State} {start : Nat} : ∀ (gs : List GroupImage) (pos : Nat), (∀ g ∈ gs, g.Fits) →
    (∀ g ∈ gs, At s.fileData (start + g.offset) g.bytes) →
    At s.fileData pos (gs.flatMap fun g => leAll 2 [g.msb, g.offset / 0x10000, g.offset % 0x10000]) →
    ∃ Gs, readGroups s start gs.length pos = .ok Gs ∧ ReadsAll gs Gs := by
  intro gs
  induction gs with
  | nil => intro pos _ _ _; exact ⟨[], rfl, .nil⟩
  | cons g gs ih =>
    intro pos hf hs hat
    rw [List.flatMap_cons] at hat
    have h1 := hf g (by simp)
    obtain ⟨Gs, e2, e3⟩ := ih (pos + groupLength) (fun x hx => hf x (by simp [hx])) (fun x hx => hs x (by simp [hx]))
      (by have := at_right hat; simpa [leAll_length, groupLength] using this)
    obtain ⟨pre, post, hfile, hpre⟩ := hs g (by simp)
    obtain ⟨extra, e1⟩ := readGroup_strings s pos start g.msb g.offset g.pad pre post g.strings h1.msb h1.offset
      (at_slice' (at_left hat) (by simp [leAll_length])) (by rw [hfile]; simp [GroupImage.bytes]) hpre h1.count h1.lengths h1.pad
    refine ⟨⟨g.msb, g.strings ++ extra⟩ :: Gs, ?_, .cons ⟨rfl, extra, rfl⟩ e3⟩
    unfold readGroups
    simp only [List.length_cons, e1, bind, Except.bind, e2]

/-- C81. What is loaded from a data file are the tokens, the groups and the ranges that are in it. -/
theorem populateData_exact {file : List Nat} {base : Nat} (hb : Body file (txt "unames.icu") base) {tokens words : List Nat}
    {groups : List GroupImage} {strings alg : Nat} {ranges : List RangeImage}
    (h : NamesBody file base tokens words groups strings alg ranges) :
    ∃ Gs, populateData (construct file State.initial).1 = .ok ⟨⟨tokens, words⟩, Gs, ranges.map rangeOf⟩ ∧ ReadsAll groups Gs := by
  obtain ⟨s, off, hd, hc, hf, ho, rfl⟩ := body_found hb
  rw [hc]
  have a := h.head
  have a5 := at_right a
  have a4 := at_right (at_left a)
  have a3 := at_right (at_left (at_left a))
  have a2 := at_right (at_left (at_left (at_left a)))
  have a1 := at_right (at_left (at_left (at_left (at_left a))))
  have a0 := at_left (at_left (at_left (at_left (at_left a))))
  simp only [List.length_append, leAll_length, List.length_cons, List.length_nil] at a5 a4 a3 a2 a1 a0
  obtain ⟨o1, o2, o3⟩ := h.offsets_fit
  have u0 := at_unpack a0 (n := 4) (lim := off + hd.headerLength + 16) rfl rfl (by
    intro v hv
    simp only [List.mem_cons, List.not_mem_nil, or_false] at hv
    simp only [Nat.reducePow]
    omega)
  have u1 := at_unpack a1 (n := 1) (lim := off + hd.headerLength + 16 + 2) rfl (by simp) (by
    intro v hv
    simp only [List.mem_cons, List.not_mem_nil, or_false] at hv
    have := h.tokens_fit.1
    simp only [Nat.reducePow]
    omega)
  have u2 := at_unpack a2 (n := tokens.length) (lim := 18 + 2 * tokens.length + (off + hd.headerLength)) rfl (by omega) h.tokens_fit.2
  have u3 := at_slice' a3 (lim := 18 + 2 * tokens.length + words.length + (off + hd.headerLength)) (by omega)
  have u4 := at_unpack a4 (n := 1) (lim := 18 + 2 * tokens.length + words.length + (off + hd.headerLength) + 2) rfl (by
      simp only [List.length_cons, List.length_nil]; omega) (by
    intro v hv
    simp only [List.mem_cons, List.not_mem_nil, or_false] at hv
    have := h.groups_fit.1
    simp only [Nat.reducePow]
    omega)
  have b := h.algorithmic
  have b1 := at_right b
  have u5 := at_unpack (at_left b) (n := 1) (lim := alg + (off + hd.headerLength) + 4) rfl (by
      simp only [List.length_cons, List.length_nil]; omega) (by
    intro v hv
    simp only [List.mem_cons, List.not_mem_nil, or_false] at hv
    have := h.ranges_fit.1
    simp only [Nat.reducePow]
    omega)
  obtain ⟨Gs, g1, g2⟩ := readGroups_images (s := s) (start := strings + (off + hd.headerLength)) groups
    (18 + 2 * tokens.length + words.length + (off + hd.headerLength) + 2) h.groups_fit.2
    (fun g hg => by rw [hf, Nat.add_comm strings]; exact h.groupStrings g hg)
    (by rw [hf, show 18 + 2 * tokens.length + words.length + (off + hd.headerLength) + 2 =
      off + hd.headerLength + (4 * (0 + 1 + 1 + 1 + 1) + 2 * (0 + 1) + 2 * tokens.length + words.length + 2 * (0 + 1)) by omega]
        exact a5)
  have r1 := readRanges_images (s := s) ranges (alg + (off + hd.headerLength) + 4) h.ranges_fit.2
    (by rw [hf, Nat.add_comm alg]
        simpa [leAll_length] using b1)
  refine ⟨Gs, ?_, g2⟩
  unfold populateData
  rw [show unames = txt "unames.icu" by decide, ho]
  simp only [bind, Except.bind, State.getData, hf, u0, List.getD_cons_zero, List.getD_cons_succ]
  rw [show off + hd.headerLength + 16 = off + hd.headerLength + 4 * (0 + 1 + 1 + 1 + 1) from rfl] at *
  simp only [u1, List.getD_cons_zero]
  rw [show off + hd.headerLength + 4 * (0 + 1 + 1 + 1 + 1) + 2 =
    off + hd.headerLength + (4 * (0 + 1 + 1 + 1 + 1) + 2 * (0 + 1)) from rfl, u2]
  simp only
  rw [show 18 + 2 * tokens.length + (off + hd.headerLength) =
    off + hd.headerLength + (4 * (0 + 1 + 1 + 1 + 1) + 2 * (0 + 1) + 2 * tokens.length) by omega, u3]
  rw [show off + hd.headerLength + (4 * (0 + 1 + 1 + 1 + 1) + 2 * (0 + 1) + 2 * tokens.length + words.length) =
    18 + 2 * tokens.length + words.length + (off + hd.headerLength) by omega] at u4
  rw [u4]
  simp only [List.getD_cons_zero, g1]
  rw [show off + hd.headerLength + alg = alg + (off + hd.headerLength) by omega] at u5
  rw [u5]
  simp only [List.getD_cons_zero, r1]

/-! ## Names -/

theorem mem_intersperse {x : List Nat} {l : List (List Nat)} (h : x ∈ l) : x ∈ List.intersperse [59] l := by
  induction l with
  | nil => simp at h
  | cons a l ih =>
    cases l with
    | nil => simpa [List.intersperse] using h
    | cons b l =>
      rw [List.intersperse_cons_cons]
      rcases List.mem_cons.mp h with rfl | h
      · simp
      · exact List.mem_cons_of_mem _ (List.mem_cons_of_mem _ (ih h))

theorem choices_prod (bl : List (List Str)) : choices bl = prod (bl.map List.length) := by
  induction bl with
  | nil => rfl
  | cons b bs ih =>
    show b.length * choices bs = b.length * prod (bs.map List.length)
    rw [ih]

theorem nth_lt {bl : List (List Str)} {k : Nat} {out : Str} (h : Nth bl k out) : k < choices bl := by
  induction h with
  | nil => exact Nat.one_pos
  | @cons b bs d k w out hd _ ih =>
    have hd := (List.getElem?_eq_some_iff.mp hd).1
    show d * choices bs + k < b.length * choices bs
    have : (d + 1) * choices bs ≤ b.length * choices bs := Nat.mul_le_mul_right _ hd
    rw [Nat.succ_mul] at this
    omega

theorem nth_pick {bl : List (List Str)} {k : Nat} {out : Str} (h : Nth bl k out) :
    (pick bl (mixedRadix (bl.map List.length) k)).flatten = out := by
  induction h with
  | nil => rfl
  | @cons b bs d k w out hd hk ih =>
    have hlt := nth_lt hk
    have hp := choices_prod bs
    unfold prod at hp
    have hpos : 0 < choices bs := by omega
    rw [List.map_cons]
    unfold mixedRadix
    rw [← hp, Nat.mul_comm d, Nat.mul_add_div hpos, Nat.div_eq_of_lt hlt, Nat.add_zero, Nat.mul_add_mod, Nat.mod_eq_of_lt hlt]
    unfold pick
    rw [List.flatten_cons, ih]
    congr 1
    simp [hd]

/-- Every number below the number of choices is that of a choice. -/
theorem nth_exists : ∀ (bl : List (List Str)) (k : Nat), k < choices bl → ∃ out, Nth bl k out := by
  intro bl
  induction bl with
  | nil => intro k hk; exact ⟨[], by have : k = 0 := by simp [choices] at hk; omega
                                     subst this; exact .nil⟩
  | cons b bs ih =>
    intro k hk
    have hk : k < b.length * choices bs := hk
    have hpos : 0 < choices bs := by
      apply Nat.pos_of_ne_zero
      intro h
      rw [h] at hk
      simp at hk
    obtain ⟨out, ho⟩ := ih (k % choices bs) (Nat.mod_lt _ hpos)
    have hd : k / choices bs < b.length := Nat.div_lt_of_lt_mul (by rwa [Nat.mul_comm])
    have := Nth.cons (List.getElem?_eq_getElem hd) ho
    rw [Nat.div_add_mod'] at this
    exact ⟨_, this⟩

/-- The names of a range. -/
theorem rangeOf_name {r : RangeImage} (hf : r.Fits) {c : Nat} (h1 : r.first ≤ c) (h2 : c ≤ r.last) {name : Str} (hn : r.Name c name)
    {nc : Nat} (hnc : nc = 0 ∨ nc = 2) : (rangeOf r).getName c nc = .ok name := by
  have hform := hf.form
  have horder := hf.order
  unfold RangeImage.Name at hn
  cases he : r.form with
  | hex d st p =>
    rw [he] at hn hform
    obtain ⟨t, rfl, ht⟩ := hn
    have hr : rangeOf r = ⟨r.first, r.last + 1, 0, d, 12 + r.form.bytes.length, st, [], []⟩ := by
      unfold rangeOf; rw [he]
    have hw : ∀ w, Padded w c t → t = paddedHex w c := fun w hp => Hex.padded_unique hp (Hex.padded w c)
    rw [hr]
    unfold AlgorithmicRange.getName
    rw [if_neg (by simp [U_UNICODE_CHAR_NAME, U_EXTENDED_CHAR_NAME]; omega), if_pos rfl]
    rcases hform.1 with rfl | rfl | rfl <;> simp only [reduceIte, Nat.reduceEqDiff] <;> rw [hw _ ht]
  | factors st bl p =>
    rw [he] at hn hform
    obtain ⟨t, rfl, ht⟩ := hn
    obtain ⟨f1, f2, f3, f4, f5, f6⟩ := hform
    have hr : rangeOf r = ⟨r.first, r.last + 1, 1, bl.length, 12 + r.form.bytes.length, st, bl.map List.length,
        bl.flatten ++ List.replicate p []⟩ := by
      unfold rangeOf; rw [he]
    rw [hr]
    have F : Factorised ⟨r.first, r.last + 1, 1, bl.length, 12 + r.form.bytes.length, st, bl.map List.length,
        bl.flatten ++ List.replicate p []⟩ bl := ⟨rfl, f2, fun b hb => (f4 b hb).1, rfl, ⟨_, rfl⟩, by
      have := choices_prod bl
      unfold prod at this
      simp only
      omega⟩
    rw [factor_name F hnc ⟨h1, by simp only; omega⟩]
    simp only
    rw [nth_pick ht]

theorem rangeOf_bounds (r : RangeImage) : (rangeOf r).start = r.first ∧ (rangeOf r).stop = r.last + 1 := by
  unfold rangeOf
  cases r.form <;> exact ⟨rfl, rfl⟩

theorem readsAll_mem {gs : List GroupImage} {Gs : List Group} (h : ReadsAll gs Gs) : 
    (∀ g ∈ gs, ∃ G ∈ Gs, Reads g G) ∧ (∀ G ∈ Gs, ∃ g ∈ gs, Reads g G) := by
  induction h with
  | nil => simp
  | cons h _ ih =>
    constructor
    · intro x hx
      rcases List.mem_cons.mp hx with rfl | hx
      · exact ⟨_, by simp, h⟩
      · obtain ⟨G, h1, h2⟩ := ih.1 x hx
        exact ⟨G, by simp [h1], h2⟩
    · intro x hx
      rcases List.mem_cons.mp hx with rfl | hx
      · exact ⟨_, by simp, h⟩
      · obtain ⟨G, h1, h2⟩ := ih.2 x hx
        exact ⟨G, by simp [h1], h2⟩

theorem readsAll_sorted {gs : List GroupImage} {Gs : List Group} (h : ReadsAll gs Gs) (hs : gs.Pairwise fun a b => a.msb < b.msb) :
    Gs.Pairwise fun a b => a.msb < b.msb := by
  induction h with
  | nil => exact .nil
  | @cons g G gs Gs h h' ih =>
    rw [List.pairwise_cons] at hs ⊢
    refine ⟨fun x hx => ?_, ih hs.2⟩
    obtain ⟨g', h1, h2⟩ := (readsAll_mem h').2 x hx
    rw [h.1, h2.1]
    exact hs.1 g' h1

theorem find_none {ranges : List RangeImage} {c : Nat} (hc : ∀ r ∈ ranges, ¬ (r.first ≤ c ∧ c ≤ r.last)) :
    (ranges.map rangeOf).find? (·.charInRange c) = none := by
  rw [List.find?_eq_none]
  intro x hx
  obtain ⟨r, hr', rfl⟩ := List.mem_map.mp hx
  have := hc r hr'
  unfold AlgorithmicRange.charInRange
  rw [(rangeOf_bounds r).1, (rangeOf_bounds r).2]
  simp only [decide_eq_true_eq]
  omega

theorem find_range {ranges : List RangeImage} (hr : ranges.Pairwise fun a b => a.last < b.first) {r : RangeImage} (hr' : r ∈ ranges)
    {c : Nat} (h1 : r.first ≤ c) (h2 : c ≤ r.last) : (ranges.map rangeOf).find? (·.charInRange c) = some (rangeOf r) := by
  induction ranges with
  | nil => simp at hr'
  | cons x xs ih =>
    rw [List.pairwise_cons] at hr
    rw [List.map_cons, List.find?_cons]
    rcases List.mem_cons.mp hr' with rfl | hr'
    · have : (rangeOf r).charInRange c = true := by
        unfold AlgorithmicRange.charInRange
        rw [(rangeOf_bounds r).1, (rangeOf_bounds r).2]
        simp only [decide_eq_true_eq]
        omega
      rw [this]
    · have : (rangeOf x).charInRange c = false := by
        have := hr.1 r hr'
        unfold AlgorithmicRange.charInRange
        rw [(rangeOf_bounds x).1, (rangeOf_bounds x).2]
        simp only [decide_eq_false_iff_not]
        omega
      rw [this]
      exact ih hr.2 hr'

theorem group_name {N : Names} {groups : List GroupImage} (hne : groups ≠ []) (hg : groups.Pairwise fun a b => a.msb < b.msb)
    (hG : ReadsAll groups N.groups) {g : GroupImage} (hg' : g ∈ groups) (hf : g.Fits) {i : Nat} {string : List Nat}
    (hs : g.strings[i]? = some string) :
    ∃ G : Group, G.strings[i]? = some string ∧ ∀ nc, N.groupName (32 * g.msb + i) nc = G.expandName N.tokens i nc := by
  have hGne : N.groups ≠ [] := by
    intro e
    rw [e] at hG
    cases hG
    exact hne rfl
  have hi : i < 32 := by have := (List.getElem?_eq_some_iff.mp hs).1; have := hf.count; omega
  obtain ⟨G, hG1, hG2, extra, hG3⟩ := (readsAll_mem hG).1 g hg'
  obtain ⟨o, ho, hiff⟩ := getGroup_exact N.groups hGne (readsAll_sorted hG hg) (32 * g.msb + i)
  have := (hiff G).mpr ⟨hG1, by omega, by omega⟩
  subst this
  refine ⟨G, by rw [hG3, List.getElem?_append_left (List.getElem?_eq_some_iff.mp hs).1, hs], fun nc => ?_⟩
  unfold Names.groupName
  simp only [ho, bind, Except.bind]
  have hmask : (32 * g.msb + i) &&& GROUP_MASK = i := by
    show (32 * g.msb + i) &&& (2 ^ 5 - 1) = i
    rw [Nat.and_two_pow_sub_one_eq_mod]
    omega
  rw [hmask]

/-- C81. The names of the characters are those of the data file. Let the item `unames.icu` hold tokens, groups and ranges, the
groups sorted and the ranges sorted and disjoint. Then it can be loaded; a code point of a range has the name that the form of
the range makes; a code point of a group that is not in a range has the name that its string stands for; and the others have
no name. -/
theorem getCharName_file {file : List Nat} {base : Nat} (hb : Body file (txt "unames.icu") base) {tokens words : List Nat}
    {groups : List GroupImage} {strings alg : Nat} {ranges : List RangeImage}
    (h : NamesBody file base tokens words groups strings alg ranges) (hne : groups ≠ [])
    (hg : groups.Pairwise fun a b => a.msb < b.msb) (hr : ranges.Pairwise fun a b => a.last < b.first) :
    ∃ N, populateData (construct file State.initial).1 = .ok N ∧
      (∀ r ∈ ranges, ∀ c, r.first ≤ c → c ≤ r.last → ∃ name, r.Name c name ∧ N.getCharName c 0 = .ok name) ∧
      (∀ g ∈ groups, ∀ i string out, g.strings[i]? = some string → Expands ⟨tokens, words⟩ string out →
        (∀ r ∈ ranges, ¬ (r.first ≤ 32 * g.msb + i ∧ 32 * g.msb + i ≤ r.last)) → N.getCharName (32 * g.msb + i) 0 = .ok out) ∧
      (∀ c, (∀ r ∈ ranges, ¬ (r.first ≤ c ∧ c ≤ r.last)) → (∀ g ∈ groups, c / 32 ≠ g.msb) → N.getCharName c 0 = .ok []) := by
  obtain ⟨Gs, hp, hG⟩ := populateData_exact hb h
  refine ⟨_, hp, ?_, ?_, ?_⟩
  · intro r hr' c h1 h2
    have hf := h.ranges_fit.2 r hr'
    have hname : ∃ name, r.Name c name := by
      unfold RangeImage.Name
      cases he : r.form with
      | hex d st p => exact ⟨_, _, rfl, Hex.padded d c⟩
      | factors st bl p =>
        have hform := hf.form
        rw [he] at hform
        obtain ⟨t, ht⟩ := nth_exists bl (c - r.first) (by have := hform.2.2.2.2.2; omega)
        exact ⟨_, t, rfl, ht⟩
    obtain ⟨name, hn⟩ := hname
    refine ⟨name, hn, ?_⟩
    unfold Names.getCharName
    simp only [find_range hr hr' h1 h2]
    exact rangeOf_name hf h1 h2 hn (Or.inl rfl)
  · intro g hg' i string out hs hx hc
    have hf := h.groups_fit.2 g hg'
    obtain ⟨G, hs', hn⟩ := group_name (N := ⟨⟨tokens, words⟩, Gs, ranges.map rangeOf⟩) hne hg hG hg' hf hs
    unfold Names.getCharName
    simp only [find_none hc]
    rw [if_neg (by decide), hn]
    unfold Group.expandName
    rw [hs']
    simp only [U_UNICODE_CHAR_NAME, ne_eq, not_true_eq_false, false_and, if_false]
    exact (expandString_iff _ _ (hf.bytes _ (List.mem_of_getElem? hs)) 0 (by decide) out).mpr hx
  · intro c hc hg'
    have hGne : Gs ≠ [] := by cases hG <;> simp_all
    obtain ⟨o, ho, hiff⟩ := getGroup_exact Gs hGne (readsAll_sorted hG hg) c
    have : o = Option.none := by
      cases o with
      | none => rfl
      | some G =>
        have h3 := (hiff G).mp rfl
        obtain ⟨g, h1, h2⟩ := (readsAll_mem hG).2 G h3.1
        have := hg' g h1
        rw [h2.1] at h3
        omega
    subst this
    unfold Names.getCharName
    simp only [find_none hc]
    rw [if_neg (by decide)]
    unfold Names.groupName
    simp only [ho, bind, Except.bind]

/-- C81. The other names: the Unicode 1.0 name, the alias and the ISO comment of a code point of a group are what the second,
the fourth and the third field of its string stand for. A code point of a range has none of these. -/
theorem getCharName_file_fields {file : List Nat} {base : Nat} (hb : Body file (txt "unames.icu") base) {tokens words : List Nat}
    {groups : List GroupImage} {strings alg : Nat} {ranges : List RangeImage}
    (h : NamesBody file base tokens words groups strings alg ranges) (hne : groups ≠ [])
    (hg : groups.Pairwise fun a b => a.msb < b.msb) (hr : ranges.Pairwise fun a b => a.last < b.first) :
    ∃ N, populateData (construct file State.initial).1 = .ok N ∧
      ∀ choice field, (choice, field) ∈ [(1, 1), (3, 3), (4, 2)] →
      (∀ r ∈ ranges, ∀ c, r.first ≤ c → c ≤ r.last → N.getCharName c choice = .ok []) ∧
      (∀ g ∈ groups, ∀ i fields out, fields ≠ [] → (∀ f ∈ fields, 59 ∉ f) → g.strings[i]? = some ([59].intercalate fields) →
        Expands ⟨tokens, words⟩ (fields.getD field []) out →
        (∀ r ∈ ranges, ¬ (r.first ≤ 32 * g.msb + i ∧ 32 * g.msb + i ≤ r.last)) →
        N.getCharName (32 * g.msb + i) choice = .ok out) := by
  obtain ⟨Gs, hp, hG⟩ := populateData_exact hb h
  refine ⟨_, hp, fun choice field hcf => ?_⟩
  have hch : choice ≠ 0 ∧ choice ≠ 2 := by
    simp only [List.mem_cons, Prod.mk.injEq, List.not_mem_nil, or_false] at hcf
    omega
  constructor
  · intro r hr' c h1 h2
    unfold Names.getCharName
    simp only [find_range hr hr' h1 h2]
    unfold AlgorithmicRange.getName
    rw [if_pos (show choice ≠ U_UNICODE_CHAR_NAME ∧ choice ≠ U_EXTENDED_CHAR_NAME from hch)]
  · intro g hg' i fields out hfne hf59 hs hx hc
    have hf := h.groups_fit.2 g hg'
    obtain ⟨G, hs', hn⟩ := group_name (N := ⟨⟨tokens, words⟩, Gs, ranges.map rangeOf⟩) hne hg hG hg' hf hs
    have hbytes : ∀ b ∈ fields.getD field [], b < 256 := by
      intro b hb'
      rw [List.getD_eq_getElem?_getD] at hb'
      cases he : fields[field]? with
      | none => rw [he] at hb'; simp at hb'
      | some f =>
        rw [he] at hb'
        refine hf.bytes _ (List.mem_of_getElem? hs) b ?_
        unfold List.intercalate
        exact List.mem_flatten.mpr ⟨f, mem_intersperse (List.mem_of_getElem? he), hb'⟩
    unfold Names.getCharName
    simp only [find_none hc]
    rw [if_neg (show ¬ choice = U_EXTENDED_CHAR_NAME from hch.2), hn]
    have hx' := (expandString_iff _ _ hbytes choice hch.2 out).mpr hx
    obtain ⟨k1, k2, _⟩ := expandName_field ⟨tokens, words⟩ G i choice fields hfne hf59 hs'
    simp only [List.mem_cons, Prod.mk.injEq, List.not_mem_nil, or_false] at hcf
    rcases hcf with ⟨rfl, rfl⟩ | ⟨rfl, rfl⟩ | ⟨rfl, rfl⟩
    · rw [k1 (Or.inl rfl)]; exact hx'
    · rw [k1 (Or.inr rfl)]; exact hx'
    · rw [k2 rfl]; exact hx'

/-! ## A file that meets the hypotheses -/

def demoGroups : List GroupImage :=
  [⟨0, 0, 0, [[1, 32, 65], [66, 59, 67, 59, 59, 68]] ++ List.replicate 30 []⟩, ⟨2, 40, 5, List.replicate 31 [] ++ [List.replicate 12 66 ++ [1]]⟩]

def demoRanges : List RangeImage :=
  [⟨0x4E00, 0x9FFC, .hex 4 (txt "CJK-") [7, 7]⟩, ⟨0xAC00, 0xD7A3, .factors (txt "HANGUL SYLLABLE ") hangulBlocks 2⟩]

def demoWords : List Nat := txt "CAPITAL" ++ [0]

def demoHead : List Nat := leAll 4 [22, 30, 44, 124] ++ leAll 2 [2] ++ leAll 2 [0xFFFF, 0] ++ demoWords ++ leAll 2 [2] ++
    demoGroups.flatMap fun g => leAll 2 [g.msb, g.offset / 0x10000, g.offset % 0x10000]

def demoBytes : List Nat := demoHead ++ demoGroups.flatMap (fun g => g.bytes ++ List.replicate (40 - g.bytes.length) 0) ++
  (leAll 4 [2] ++ demoRanges.flatMap RangeImage.bytes)

def demoFile : List Nat := ICUData.Props.oneItem (txt "unames.icu") demoBytes

theorem demoFile_ok : Body demoFile (txt "unames.icu") 81 ∧
    NamesBody demoFile 81 [0xFFFF, 0] demoWords demoGroups 44 124 demoRanges := by
  obtain ⟨h1, h2⟩ := ICUData.Props.oneItem_body (txt "unames.icu") demoBytes (by decide) (by decide)
  refine ⟨h1, at_left (at_left h2), ?_, ?_, by decide, ?_, ?_, by decide⟩
  · have h3 := at_right (at_left h2)
    rw [show demoHead.length = 44 by decide, show demoGroups = [demoGroups[0], demoGroups[1]] from rfl] at h3
    simp only [List.flatMap_cons, List.flatMap_nil, List.append_nil] at h3
    intro g hg
    rw [show demoGroups = [demoGroups[0], demoGroups[1]] from rfl] at hg
    simp only [List.mem_cons, List.not_mem_nil, or_false] at hg
    rcases hg with rfl | rfl
    · exact at_left (at_left h3)
    · exact at_left (at_right h3)
  · have h3 := at_right h2
    have e : List.length (demoHead ++ demoGroups.flatMap (fun g : GroupImage => g.bytes ++ List.replicate (40 - g.bytes.length) 0)) =
      124 := by decide +kernel
    rw [e] at h3
    exact h3
  · refine ⟨by decide, fun g hg => ?_⟩
    simp only [demoGroups, List.mem_cons, List.not_mem_nil, or_false] at hg
    rcases hg with rfl | rfl <;> exact ⟨by decide, by decide, by decide, by decide, by decide, by decide⟩
  · refine ⟨by decide, fun r hr => ?_⟩
    simp only [demoRanges, List.mem_cons, List.not_mem_nil, or_false] at hr
    rcases hr with rfl | rfl
    · exact ⟨by decide, by decide, by decide, by decide, by decide⟩
    · exact ⟨by decide, by decide, by decide +kernel, by decide, by decide, by decide, by decide, by decide, by decide⟩

/-- From this file: a name with a word, an alias, a name in a later group, algorithmic names, and no name. -/
example : ∃ N, populateData (construct demoFile State.initial).1 = .ok N ∧ N.getCharName 0 0 = .ok (txt "CAPITAL A") ∧
    N.getCharName 95 0 = .ok (List.replicate 12 66 ++ txt "CAPITAL") ∧
    (∃ name, N.getCharName 0xD55C 0 = .ok name ∧ ∃ t, name = txt "HANGUL SYLLABLE " ++ t ∧ Nth hangulBlocks 10588 t) ∧
    N.getCharName 32 0 = .ok [] := by
  have hlit : ∀ c, c ≠ 1 → IsLiteral ⟨[0xFFFF, 0], demoWords⟩ c := by
    intro c hc
    match c with
    | 0 => exact Or.inr rfl
    | 1 => exact absurd rfl hc
    | c + 2 => exact Or.inl (by simp)
  have hword : WordAt ⟨[0xFFFF, 0], demoWords⟩ 0 (txt "CAPITAL") := ⟨[], by decide, by decide⟩
  obtain ⟨N, h, c1, c2, c3⟩ := getCharName_file demoFile_ok.1 demoFile_ok.2 (by decide) (by decide) (by decide)
  refine ⟨N, h, ?_, ?_, ?_, ?_⟩
  · have := c2 demoGroups[0] (by simp [demoGroups]) 0 _ (txt "CAPITAL" ++ [32, 65]) rfl
      (.word 1 0 _ _ _ rfl (by decide) (by decide) hword (.literal 32 _ _ (hlit _ (by decide)) (by decide)
        (.literal 65 _ _ (hlit _ (by decide)) (by decide) .done))) (by decide)
    exact this
  · have e : Expands ⟨[0xFFFF, 0], demoWords⟩ (List.replicate 12 66 ++ [1]) (List.replicate 12 66 ++ (txt "CAPITAL" ++ [])) := by
      have base : Expands ⟨[0xFFFF, 0], demoWords⟩ [1] (txt "CAPITAL" ++ []) :=
        .word 1 0 _ _ _ rfl (by decide) (by decide) hword .done
      have : ∀ n, Expands ⟨[0xFFFF, 0], demoWords⟩ (List.replicate n 66 ++ [1]) (List.replicate n 66 ++ (txt "CAPITAL" ++ [])) := by
        intro n
        induction n with
        | zero => exact base
        | succ n ih => exact .literal 66 _ _ (hlit _ (by decide)) (by decide) ih
      exact this 12
    exact c2 demoGroups[1] (by simp [demoGroups]) 31 _ _ rfl e (by decide)
  · obtain ⟨name, ⟨t, h1, h2⟩, h3⟩ := c1 demoRanges[1] (by simp [demoRanges]) 0xD55C (by decide) (by decide)
    exact ⟨name, h3, t, h1, h2⟩
  · exact c3 32 (by decide) (by decide)

end Verif.CharNames.Props

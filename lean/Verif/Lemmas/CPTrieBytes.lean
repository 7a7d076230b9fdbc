import Verif.Lemmas.Bytes
import Verif.Model.CPTrieBytes
/-! # Parsing a serialised UCPTrie -/
namespace Verif.CPTrie
open Verif.Spec

theorem createFromData_bytes {t : TrieImage} (h : t.Fits) (rest : List Nat) :
    createFromData (t.bytes ++ rest) = init (Arr.ofList t.index) (Arr.ofList t.data) t.trieType t.valueWidth t.index3NullOffset
      t.dataNullOffset (512 * t.shiftedHighStart) ((512 * t.shiftedHighStart + 0xFFF) / 0x1000) := by
  have hw : t.bytesPerValue = valueBytes t.valueWidth := rfl
  obtain ⟨h1, h2, h3, h4, h5, h6, h7, h8, h9⟩ := h
  rw [hw] at h9
  unfold createFromData TrieImage.bytes
  rw [hw]
  generalize hv : t.data.length / 0x10000 * 0x1000 + t.dataNullOffset / 0x10000 * 0x100 + t.trieType * 0x40 + t.valueWidth = opt
  have hopt : opt < 0x10000 := by omega
  generalize hhd : ([opt, t.index.length, t.data.length % 0x10000, t.index3NullOffset, t.dataNullOffset % 0x10000, t.shiftedHighStart] : List Nat) = hd
  have hl : hd.length = 6 := by rw [← hhd]; rfl
  have hb : (leAll 2 hd).length = 12 := by rw [leAll_length, hl]
  have ha : (leBytes 4 t.sig).length = 4 := leBytes_length _ _
  have e1 : slice (leBytes 4 t.sig ++ leAll 2 hd ++ leAll 2 t.index ++ leAll (valueBytes t.valueWidth) t.data ++ rest) 0 trieHeaderLength =
      leBytes 4 t.sig ++ (leAll 2 hd ++ []) := by
    rw [List.append_assoc (leBytes 4 t.sig ++ leAll 2 hd), List.append_assoc (leBytes 4 t.sig ++ leAll 2 hd)]
    have := slice_append_left (leBytes 4 t.sig ++ leAll 2 hd) (leAll 2 t.index ++ (leAll (valueBytes t.valueWidth) t.data ++ rest))
    rw [List.length_append, ha, hb] at this
    rw [List.append_nil]
    simpa [trieHeaderLength, List.append_assoc] using this
  have e2 : slice (leBytes 4 t.sig ++ (leAll 2 hd ++ [])) 0 4 = leBytes 4 t.sig := by
    have := slice_append_left (leBytes 4 t.sig) (leAll 2 hd ++ [])
    rwa [ha] at this
  have e3 : slice (leBytes 4 t.sig ++ (leAll 2 hd ++ [])) 4 trieHeaderLength = leAll 2 hd :=
    slice_mid _ _ _ ha.symm (by rw [ha, hb]; rfl)
  have e4 : slice (leBytes 4 t.sig ++ leAll 2 hd ++ leAll 2 t.index ++ leAll (valueBytes t.valueWidth) t.data ++ rest) trieHeaderLength
      (trieHeaderLength + 2 * t.index.length) = leAll 2 t.index := by
    rw [List.append_assoc, List.append_assoc]
    exact slice_mid _ _ _ (by rw [List.length_append, ha, hb]; rfl) (by rw [List.length_append, ha, hb, leAll_length]; rfl)
  have e5 : slice (leBytes 4 t.sig ++ leAll 2 hd ++ leAll 2 t.index ++ leAll (valueBytes t.valueWidth) t.data ++ rest)
      (trieHeaderLength + 2 * t.index.length) (trieHeaderLength + 2 * t.index.length + valueBytes t.valueWidth * t.data.length) =
      leAll (valueBytes t.valueWidth) t.data := by
    rw [List.append_assoc]
    exact slice_mid _ _ _ (by rw [List.length_append, List.length_append, ha, hb, leAll_length]; rfl)
      (by rw [List.length_append, List.length_append, ha, hb, leAll_length, leAll_length]; rfl)
  have u1 : unpack 4 1 (leBytes 4 t.sig) = .ok [leValue (leBytes 4 t.sig)] := by
    unfold unpack
    rw [if_pos (by rw [ha])]
    rfl
  have u2 : unpack 2 6 (leAll 2 hd) = .ok hd := by
    have := unpack_leAll (w := 2) (vs := hd) (by
      intro v hv
      rw [← hhd] at hv
      simp only [List.mem_cons, List.not_mem_nil, or_false] at hv
      rw [show 256 ^ 2 = 0x10000 by rfl]
      omega)
    rwa [hl] at this
  have o1 : opt / 2 ^ 6 % 4 = t.trieType := by omega
  have o2 : opt &&& OPTIONS_VALUE_BITS_MASK = t.valueWidth := by
    have := and_mask opt 3 0
    rw [show (2 ^ 3 - 1) * 2 ^ 0 = OPTIONS_VALUE_BITS_MASK by rfl] at this
    rw [this]; omega
  have o3 : (opt &&& OPTIONS_DATA_LENGTH_MASK) * 2 ^ 4 ||| t.data.length % 0x10000 = t.data.length := by
    have := field_or opt 12 4 4 (t.data.length % 0x10000) (m := OPTIONS_DATA_LENGTH_MASK) (by decide) (by omega)
    omega
  have o4 : (opt &&& OPTIONS_DATA_NULL_OFFSET_MASK) * 2 ^ 8 ||| t.dataNullOffset % 0x10000 = t.dataNullOffset := by
    have := field_or opt 8 4 8 (t.dataNullOffset % 0x10000) (m := OPTIONS_DATA_NULL_OFFSET_MASK) (by decide) (by omega)
    omega
  have d0 : hd.getD 0 0 = opt := by rw [← hhd]; rfl
  have d1 : hd.getD 1 0 = t.index.length := by rw [← hhd]; rfl
  have d2 : hd.getD 2 0 = t.data.length % 0x10000 := by rw [← hhd]; rfl
  have d3 : hd.getD 3 0 = t.index3NullOffset := by rw [← hhd]; rfl
  have d4 : hd.getD 4 0 = t.dataNullOffset % 0x10000 := by rw [← hhd]; rfl
  have d5 : hd.getD 5 0 = t.shiftedHighStart := by rw [← hhd]; rfl
  dsimp only
  rw [e1, e2, e3, u1, u2]
  dsimp only [bind, Except.bind]
  rw [d0, d1, d2, d3, d4, d5, o1, o2, o3, o4, e4, unpack_leAll (by simpa using h8)]
  dsimp only [Except.bind]
  rw [e5, unpack_leAll h9]
  dsimp only [Except.bind]
  rw [show t.shiftedHighStart * 2 ^ SHIFT_2 = 512 * t.shiftedHighStart from Nat.mul_comm _ _]

end Verif.CPTrie

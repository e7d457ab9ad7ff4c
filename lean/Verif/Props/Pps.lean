import Verif.Codecs.Pps
import Verif.Props.Sps

/-
Property C30: picture parameter sets.
-/

namespace H264.Props
open H264

theorem true_mem_encUE (v : Nat) : true ∈ encUE v := by
  unfold encUE; simp

theorem encPpsExt_not_trailing (e : PpsExt) (r : List Bool) :
    moreData (encPpsExt e ++ r) = true := by
  cases hm : moreData (encPpsExt e ++ r) with
  | true => rfl
  | false =>
    exfalso
    have hu : true ∈ encSE e.second_chroma_qp_index_offset := true_mem_encUE _
    have e0 : encPpsExt e ++ r = decide (e.transform_8x8_mode_flag / 2 ^ 0 % 2 = 1) :: (encU 1 e.pic_scaling_matrix_present_flag ++
        encLists e.lists ++ encSE e.second_chroma_qp_index_offset ++ r) := by
      unfold encPpsExt; simp [encU]
    rcases (moreData_false _).mp hm with h | ⟨k, _, h⟩
    · rw [e0] at h; simp at h
    · rw [e0] at h
      unfold trailingBits at h
      simp only [List.cons.injEq] at h
      have : true ∈ List.replicate k false := by
        rw [← h.2]
        exact List.mem_append_left _ (List.mem_append_right _ hu)
      simp at this

/-- C30: on the encoding of a well-formed PPS, `ParsePps` returns all its fields, and what `keepLists` keeps of the
scaling lists.  The optional end may be followed by anything; if it is absent, only trailing bits may follow. -/
theorem C30_pps_complete_partial (nd : Bool) {b : Buf} (hb : b.WF) (c cf : Nat) {x : PpsSyn} (ok : x.Ok cf)
    {r : List Bool} (h : b.rem = encPps x ++ r) (hr : x.ext = none → r = [] ∨ ∃ k, k ≤ 7 ∧ r = trailingBits k) :
    ∃ s', run nd (parsePps cf) ⟨b, c⟩ = .ok (x.state cf) s' := by
  obtain ⟨s1, h2⟩ := pps_complete nd ok r c (by
    cases hx : x.ext with
    | none => simp only [encOpt, List.nil_append, Option.isSome]; exact (moreData_false r).mpr (hr hx)
    | some e => exact encPpsExt_not_trailing e r)
  exact ⟨toSt b s1, (run_ok_iff nd _ hb c _ _).mpr ⟨s1, by rw [h]; exact h2, rfl⟩⟩

/-- C30: conversely, if `ParsePps` returns a value and no scaling list is malformed, the RBSP starts with the encoding
of a well-formed PPS having that state, and the optional end is absent only if the data ends there. -/
theorem C30_pps_sound_partial (nd : Bool) {b : Buf} (hb : b.WF) (c cf : Nat) {st : Pps} {s' : St}
    (h : run nd (parsePps cf) ⟨b, c⟩ = .ok st s') (hm : ¬ MalformedPps cf b.rem) :
    ∃ x r, x.Ok cf ∧ st = x.state cf ∧ b.rem = encPps x ++ r ∧
      (x.ext = none → r = [] ∨ ∃ k, k ≤ 7 ∧ r = trailingBits k) := by
  obtain ⟨s1, h1, _⟩ := (run_ok_iff nd _ hb c _ _).mp h
  obtain ⟨-, -, ⟨x, r, h3, h4, h5, h6⟩ | ⟨-, h3⟩⟩ := pps_sound nd h1
  · refine ⟨x, r, h3, h4, h5, ?_⟩
    intro hx
    rw [hx] at h6
    simp only [encOpt, List.nil_append, Option.isSome] at h6
    exact (moreData_false r).mp h6
  · exact absurd h3 hm

/-- A PPS with a malformed scaling list is not the encoding of a well-formed PPS. -/
theorem malformed_not_pps {cf : Nat} {l : List Bool} (h : MalformedPps cf l) {x : PpsSyn} (ok : x.Ok cf) (r : List Bool)
    (hr : x.ext = none → r = [] ∨ ∃ k, k ≤ 7 ∧ r = trailingBits k) : l ≠ encPps x ++ r := by
  obtain ⟨hd, t, m, rest, h1, ht, hm, hl, h2⟩ := h
  intro he
  unfold encPps at he
  rw [hl, List.append_assoc, List.append_assoc, List.append_assoc] at he
  have e1 := codec_ppsHead.parse_append false h1 (encU 1 t ++ (encU 1 m ++ rest)) 0
  rw [he, codec_ppsHead.parse_append false ok.head] at e1
  simp only [Out.ok.injEq, LSt.mk.injEq, and_true] at e1
  have e2 := e1.2
  cases hx : x.ext with
  | none =>
    rw [hx] at e2
    simp only [encOpt, List.nil_append] at e2
    have hmal := h2
    obtain ⟨ms, ds, rest', g1, _, g3, _⟩ := h2
    have hm1 : m = 1 := by
      unfold ppsListCount at g1
      split at g1
      · assumption
      · omega
    subst hm1
    rcases hr hx with h0 | ⟨k, hk, h0⟩
    · rw [h0] at e2; simp [encU] at e2
    · rw [h0] at e2
      unfold trailingBits at e2
      simp only [encU, List.cons_append, List.nil_append, List.cons.injEq] at e2
      have : true ∈ List.replicate k false := by rw [e2.2]; simp
      simp at this
  | some e =>
    rw [hx] at e2
    have eok := ok.ext e hx
    simp only [encOpt, encPpsExt, List.append_assoc] at e2
    have f1 := (Codec.u' (n := 1)).parse_append false ht (encU 1 m ++ rest) 0
    rw [← e2, (Codec.u' (n := 1)).parse_append false eok.transform_8x8_mode_flag] at f1
    simp only [Out.ok.injEq, LSt.mk.injEq, and_true] at f1
    obtain ⟨g1, g2⟩ := f1
    have f2 := (Codec.u' (n := 1)).parse_append false hm rest 0
    rw [← g2, (Codec.u' (n := 1)).parse_append false eok.pic_scaling_matrix_present_flag] at f2
    simp only [Out.ok.injEq, LSt.mk.injEq, and_true] at f2
    obtain ⟨g3, g4⟩ := f2
    have hc := eok.count
    rw [g1, g3] at hc
    exact malformed_not_lists _ _ _ _ _ h2 hc eok.lists g4.symm

/-- C30 without scaling matrix: `ParsePps` returns `st` iff the RBSP starts with the encoding of `st`, in range, the
optional end being absent exactly when the data ends after redundant_pic_cnt_present_flag. -/
theorem C30_pps_exact_without_lists (nd : Bool) {b : Buf} (hb : b.WF) (c cf : Nat) (st : Pps)
    (hf : st.pic_scaling_matrix_present_flag = 0) :
    (∃ s', run nd (parsePps cf) ⟨b, c⟩ = .ok st s') ↔
      st.toPpsHead.Ok ∧ st.chroma_format_idc = cf ∧ st.toScal = {} ∧
      ((st.transform_8x8_mode_flag = 0 ∧ st.second_chroma_qp_index_offset = 0 ∧
        ∃ r, b.rem = encPpsHead st.toPpsHead ++ r ∧ (r = [] ∨ ∃ k, k ≤ 7 ∧ r = trailingBits k)) ∨
       (st.transform_8x8_mode_flag < 2 ∧ seRange st.second_chroma_qp_index_offset ∧
        ∃ r, b.rem = encPpsHead st.toPpsHead ++ encU 1 st.transform_8x8_mode_flag ++ encU 1 0 ++
          encSE st.second_chroma_qp_index_offset ++ r)) := by
  constructor
  · rintro ⟨s', h⟩
    obtain ⟨s1, h1, _⟩ := (run_ok_iff nd _ hb c _ _).mp h
    obtain ⟨hok, hcf, ⟨x, r, h3, h4, h5, h6⟩ | ⟨h3, -⟩⟩ := pps_sound nd h1
    · refine ⟨hok, hcf, ?_⟩
      obtain ⟨hd, ext⟩ := x
      cases ext with
      | none =>
        simp only [encOpt, List.nil_append, Option.isSome] at h6
        rw [h4]
        simp only [PpsSyn.state]
        refine ⟨trivial, Or.inl ⟨trivial, trivial, r, ?_, (moreData_false r).mp h6⟩⟩
        rw [h5]; simp only [encPps, encOpt, List.append_nil]
      | some e =>
        have eok := h3.ext e rfl
        have hm : e.pic_scaling_matrix_present_flag = 0 := by rw [h4] at hf; exact hf
        have hl : e.lists = [] := by
          have := eok.count
          rw [hm] at this
          exact List.length_eq_zero_iff.mp this
        rw [h4]
        simp only [PpsSyn.state]
        refine ⟨by rw [hl]; rfl, Or.inr ⟨eok.transform_8x8_mode_flag, eok.second_chroma_qp_index_offset, r, ?_⟩⟩
        rw [h5]; simp only [encPps, encOpt, encPpsExt, hm, hl, encLists, List.append_nil, List.append_assoc]
    · omega
  · rintro ⟨h1, h2, h3, ⟨h4, h5, r, h6, h7⟩ | ⟨h4, h5, r, h6⟩⟩
    · obtain ⟨s', h8⟩ := C30_pps_complete_partial nd hb c cf (x := ⟨st.toPpsHead, none⟩) ⟨h1, by simp⟩ (r := r)
        (by rw [h6]; simp only [encPps, encOpt, List.append_nil]) (fun _ => h7)
      refine ⟨s', ?_⟩
      rw [h8]
      congr 1
      simp only [PpsSyn.state]
      rw [← h2, ← h3]
      cases st
      simp only at h4 h5 hf
      subst h4 h5 hf
      rfl
    · obtain ⟨s', h8⟩ := C30_pps_complete_partial nd hb c cf
        (x := ⟨st.toPpsHead, some ⟨st.transform_8x8_mode_flag, 0, [], st.second_chroma_qp_index_offset⟩⟩)
        ⟨h1, by rintro e he; simp only [Option.some.injEq] at he; rw [← he]; exact ⟨h4, Nat.zero_lt_two, rfl, trivial, h5⟩⟩ (r := r)
        (by rw [h6]; simp only [encPps, encOpt, encPpsExt, encLists, List.append_nil, List.append_assoc]) (by simp)
      refine ⟨s', ?_⟩
      rw [h8]
      congr 1
      simp only [PpsSyn.state, keepLists]
      rw [← h2, ← h3]
      cases st
      simp only at hf
      subst hf
      rfl

/-- C30: whatever the input, a returned PPS has its ids and counts in range and its vectors of the right length. -/
theorem C30_pps_in_range (nd : Bool) {b : Buf} (hb : b.WF) (c cf : Nat) {st : Pps} {s' : St}
    (h : run nd (parsePps cf) ⟨b, c⟩ = .ok st s') :
    st.pic_parameter_set_id ≤ 255 ∧ st.seq_parameter_set_id ≤ 31 ∧ st.num_slice_groups_minus1 ≤ 7 ∧
    st.slice_group_map_type ≤ 6 ∧
    st.num_ref_idx_l0_default_active_minus1 ≤ 31 ∧ st.num_ref_idx_l1_default_active_minus1 ≤ 31 ∧
    st.pic_size_in_map_units_minus1 < 139264 ∧
    (st.num_slice_groups_minus1 = 0 → st.toSliceGroups = {}) ∧
    (st.run_length_minus1 = [] ∨ st.run_length_minus1.length = st.num_slice_groups_minus1 + 1) ∧
    st.top_left.length = st.bottom_right.length ∧
    (st.top_left = [] ∨ st.top_left.length = st.num_slice_groups_minus1) ∧
    (st.slice_group_id = [] ∨ st.slice_group_id.length = st.pic_size_in_map_units_minus1 + 1) ∧
    (∀ v ∈ st.slice_group_id, v < 2 ^ groupIdBits st.num_slice_groups_minus1) := by
  obtain ⟨s1, h1, _⟩ := (run_ok_iff nd _ hb c _ _).mp h
  obtain ⟨ok, -, -⟩ := pps_sound nd h1
  obtain ⟨g1, g2, g3, g4, g5⟩ := ok.groups
  refine ⟨ok.pic_parameter_set_id, ok.seq_parameter_set_id, ok.num_slice_groups_minus1, ?_, ok.l0, ok.l1, ?_, ?_, ?_, ?_,
    ?_, ?_, ?_⟩
  · split at g1 <;> omega
  · split at g5 <;> omega
  · intro h0
    have := ok.groups
    rw [h0] at this
    exact (SliceGroups.ok_zero _).mp this
  · split at g2
    · exact Or.inr g2.1
    · exact Or.inl g2
  · split at g3
    · rw [g3.1, g3.2.1]
    · rw [g3.1, g3.2]
  · split at g3
    · exact Or.inr g3.1
    · exact Or.inl g3.1
  · split at g5
    · exact Or.inr g5.2.1
    · exact Or.inl g5.2
  · split at g5
    · exact g5.2.2
    · rw [g5.2]; simp

/-- C30: `ParsePps` never runs into undefined behaviour. -/
theorem C30_pps_safe (nd : Bool) {b : Buf} (hb : b.WF) (c cf : Nat) (e : Bad) : run nd (parsePps cf) ⟨b, c⟩ ≠ .bad e :=
  (safe_pps cf).run nd hb c e

/-- A PPS with three slice groups given by runs, and a scaling matrix. -/
def exPps : PpsSyn :=
  { head := { pic_parameter_set_id := 7, seq_parameter_set_id := 3, entropy_coding_mode_flag := 1,
              num_slice_groups_minus1 := 2, run_length_minus1 := [10, 0, 99],
              num_ref_idx_l0_default_active_minus1 := 3, weighted_bipred_idc := 1, pic_init_qp_minus26 := -4,
              deblocking_filter_control_present_flag := 1 },
    ext := some { transform_8x8_mode_flag := 1, pic_scaling_matrix_present_flag := 1,
                  lists := [none, some exSL, none, none, none, none, some exSL8, none],
                  second_chroma_qp_index_offset := 2 } }

theorem exPps_ok : exPps.Ok 1 := by
  refine ⟨?_, ?_⟩
  · constructor <;> first
      | decide +kernel
      | (unfold seRange; decide +kernel)
      | (constructor <;> simp [exPps, ueRange])
  · intro e he
    simp only [exPps, Option.some.injEq] at he
    rw [← he]
    refine ⟨by decide, by decide, rfl, ⟨exSL_ok 1 (by omega), exSL8_ok 6 (by omega), trivial⟩, ?_⟩
    unfold seRange; decide

example (nd : Bool) : ∃ s', runL nd (parsePps 1) ⟨encPps exPps ++ trailingBits 3, 0⟩ = .ok (exPps.state 1) s' :=
  pps_complete nd exPps_ok _ _ (encPpsExt_not_trailing _ _)

/-- A 4:4:4 PPS with transform_8x8_mode_flag and a scaling matrix of twelve absent lists. -/
def exPps444 : PpsSyn :=
  { head := {}, ext := some { transform_8x8_mode_flag := 1, pic_scaling_matrix_present_flag := 1,
                              lists := List.replicate 12 none, second_chroma_qp_index_offset := 0 } }

/-- What the library takes it for: `ParseNalUnit` passes chroma_format_idc 1, whatever the SPS says. -/
def exPps444' : PpsSyn :=
  { head := {}, ext := some { transform_8x8_mode_flag := 1, pic_scaling_matrix_present_flag := 1,
                              lists := List.replicate 8 none, second_chroma_qp_index_offset := 12 } }

/-- C30 fails for 4:4:4 streams parsed with chroma_format_idc 1: this PPS is well formed for chroma_format_idc 3 with
second_chroma_qp_index_offset 0, and is returned with second_chroma_qp_index_offset 12. -/
theorem C30_chroma_444_wrong (nd : Bool) {b : Buf} (hb : b.WF) (c : Nat) (h : b.rem = encPps exPps444 ++ trailingBits 7) :
    exPps444.Ok 3 ∧ (exPps444.state 3).second_chroma_qp_index_offset = 0 ∧
    ∃ st s', run nd (parsePps 1) ⟨b, c⟩ = .ok st s' ∧ st.second_chroma_qp_index_offset = 12 := by
  have hd : PpsHead.Ok {} := by
    constructor <;> first
      | decide +kernel
      | (unfold seRange; decide +kernel)
      | (constructor <;> simp)
  have l1 : ListsOk 0 (List.replicate 12 none) := by simp [ListsOk, List.replicate]
  have l2 : ListsOk 0 (List.replicate 8 none) := by simp [ListsOk, List.replicate]
  refine ⟨⟨hd, ?_⟩, rfl, ?_⟩
  · intro e he
    simp only [exPps444, Option.some.injEq] at he
    rw [← he]
    refine ⟨by decide, by decide, by decide, l1, ?_⟩
    unfold seRange; decide
  · have ok : exPps444'.Ok 1 := by
      refine ⟨hd, ?_⟩
      intro e he
      simp only [exPps444', Option.some.injEq] at he
      rw [← he]
      refine ⟨by decide, by decide, by decide, l2, ?_⟩
      unfold seRange; decide
    obtain ⟨s', h1⟩ := C30_pps_complete_partial nd hb c 1 ok (r := [false, false, false, false])
      (by rw [h]; decide +kernel) (by simp [exPps444'])
    exact ⟨_, s', h1, rfl⟩

end H264.Props

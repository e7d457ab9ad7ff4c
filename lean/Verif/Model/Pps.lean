import Verif.Model.Sps

/-
Model of the PPS parser.
-/

namespace H264
open Prog

/-- `static_cast<uint32_t>(std::ceil(std::log2(x)))` on a positive integer, computed exactly.  C62 proves that
the floating point computation gives the same, for any `std::log2` of reasonable quality. -/
def ceilLog2 (x : Nat) : Nat := if x ≤ 1 then 0 else Nat.log2 (x - 1) + 1

/-- `getSliceGroupIdLen` (src/h264_pps_parser.cc:334-343). -/
def sliceGroupIdLen (num_slice_groups_minus1 : Nat) : Nat := ceilLog2 (num_slice_groups_minus1 + 1)

/-- src/h264_pps_parser.cc:140-151. -/
def parseTopLeftBottomRight : Prog (Nat × Nat) := do
  let t ← ue
  let b ← ue
  pure (t, b)

/-- src/h264_pps_parser.cc:106-205. -/
def parseSliceGroups (num_slice_groups_minus1 : Nat) : Prog SliceGroups := opt (num_slice_groups_minus1 > 0) {} do
  let t ← ueIn 0 6
  if t = 0 then do
    let l ← ue.rep (num_slice_groups_minus1 + 1)
    pure { slice_group_map_type := t, run_length_minus1 := l }
  else if t = 2 then do
    let l ← parseTopLeftBottomRight.rep num_slice_groups_minus1
    pure { slice_group_map_type := t, top_left := l.map (·.1), bottom_right := l.map (·.2) }
  else if t = 3 ∨ t = 4 ∨ t = 5 then do
    let d ← u 1
    let r ← ue
    guard (r ≠ 2 ^ 32 - 1)
    pure { slice_group_map_type := t, slice_group_change_direction_flag := d, slice_group_change_rate_minus1 := r }
  else if t = 6 then do
    let n ← ueIn 0 139263
    let l ← (u (sliceGroupIdLen num_slice_groups_minus1)).rep (n + 1)
    pure { slice_group_map_type := t, pic_size_in_map_units_minus1 := n, slice_group_id := l }
  else pure { slice_group_map_type := t }

/-- src/h264_pps_parser.cc:44-287.  `kMaxMbPicSize` is 139264 (include/h264_common.h). -/
def parsePpsHead : Prog PpsHead := do
  let pic_parameter_set_id ← ueIn 0 255
  let seq_parameter_set_id ← ueIn 0 31
  let entropy_coding_mode_flag ← u 1
  let bottom_field_pic_order_in_frame_present_flag ← u 1
  let num_slice_groups_minus1 ← ueIn 0 7
  let g ← parseSliceGroups num_slice_groups_minus1
  let num_ref_idx_l0_default_active_minus1 ← ueIn 0 31
  let num_ref_idx_l1_default_active_minus1 ← ueIn 0 31
  let weighted_pred_flag ← u 1
  let weighted_bipred_idc ← u 2
  let pic_init_qp_minus26 ← se
  let pic_init_qs_minus26 ← se
  let chroma_qp_index_offset ← se
  let deblocking_filter_control_present_flag ← u 1
  let constrained_intra_pred_flag ← u 1
  let redundant_pic_cnt_present_flag ← u 1
  pure { toSliceGroups := g, pic_parameter_set_id, seq_parameter_set_id, entropy_coding_mode_flag,
         bottom_field_pic_order_in_frame_present_flag, num_slice_groups_minus1, num_ref_idx_l0_default_active_minus1,
         num_ref_idx_l1_default_active_minus1, weighted_pred_flag, weighted_bipred_idc, pic_init_qp_minus26,
         pic_init_qs_minus26, chroma_qp_index_offset, deblocking_filter_control_present_flag,
         constrained_intra_pred_flag, redundant_pic_cnt_present_flag }

/-- src/h264_pps_parser.cc:290-326: (transform_8x8_mode_flag, pic_scaling_matrix_present_flag, the scaling list
members, second_chroma_qp_index_offset). -/
def parsePpsExt (chroma_format_idc : Nat) : Prog (Nat × Nat × Scal × Int) := do
  let t ← u 1
  let m ← u 1
  let s ← opt (m ≠ 0) {} (scalingLists (6 + (if chroma_format_idc ≠ 3 then 2 else 6) * t) 0 {})
  let q ← se
  pure (t, m, s, q)

/-- `ParsePps(BitBuffer*, chroma_format_idc)` (src/h264_pps_parser.cc:31-332).  The result of `rbsp_trailing_bits` is
ignored. -/
def parsePps (chroma_format_idc : Nat) : Prog Pps := do
  let h ← parsePpsHead
  let more ← moreRbspData
  let e ← opt (more = true) (0, 0, {}, 0) (parsePpsExt chroma_format_idc)
  let _ ← rbspTrailingBits.attempt
  pure { toPpsHead := h, toScal := e.2.2.1, chroma_format_idc, transform_8x8_mode_flag := e.1,
         pic_scaling_matrix_present_flag := e.2.1, second_chroma_qp_index_offset := e.2.2.2 }

end H264

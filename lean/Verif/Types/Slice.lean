/-
State structures of the slice level parsers.

Where the library keeps several vectors filled in step, the model keeps the list of operations they describe; the
vectors are computed from it by the functions given here.
-/

namespace H264

/-- `RefPicListModificationState` (include/h264_ref_pic_list_modification_parser.h:24-46).  An operation is
(modification_of_pic_nums_idc, its operand). -/
structure RefPicListMod where
  slice_type : Nat := 0
  ref_pic_list_modification_flag_l0 : Nat := 0
  ref_pic_list_modification_flag_l1 : Nat := 0
  ops_l0 : List (Nat × Nat) := []
  ops_l1 : List (Nat × Nat) := []
  deriving DecidableEq, Repr

/-- The vector `modification_of_pic_nums_idc` (include/h264_ref_pic_list_modification_parser.h:42): both lists share it, each closed by a 3. -/
def RefPicListMod.modification_of_pic_nums_idc (m : RefPicListMod) : List Nat :=
  (if m.ref_pic_list_modification_flag_l0 ≠ 0 then m.ops_l0.map (·.1) ++ [3] else []) ++
  (if m.ref_pic_list_modification_flag_l1 ≠ 0 then m.ops_l1.map (·.1) ++ [3] else [])
/-- The vector `abs_diff_pic_num_minus1` (include/h264_ref_pic_list_modification_parser.h:43). -/
def RefPicListMod.abs_diff_pic_num_minus1 (m : RefPicListMod) : List Nat :=
  ((m.ops_l0 ++ m.ops_l1).filter (fun o => decide (o.1 ≤ 1))).map (·.2)
/-- The vector `long_term_pic_num` (include/h264_ref_pic_list_modification_parser.h:44). -/
def RefPicListMod.long_term_pic_num (m : RefPicListMod) : List Nat :=
  ((m.ops_l0 ++ m.ops_l1).filter (fun o => decide (o.1 = 2))).map (·.2)

/-- One memory management control operation and its operands (entries of the vectors of include/h264_dec_ref_pic_marking_parser.h:47-51). -/
structure Mmco where
  memory_management_control_operation : Nat := 0
  difference_of_pic_nums_minus1 : Nat := 0
  long_term_pic_num : Nat := 0
  long_term_frame_idx : Nat := 0
  max_long_term_frame_idx_plus1 : Nat := 0
  deriving DecidableEq, Repr

/-- `DecRefPicMarkingState` (include/h264_dec_ref_pic_marking_parser.h:27-52). -/
structure DecRefPicMarking where
  IdrPicFlag : Nat := 0
  no_output_of_prior_pics_flag : Nat := 0
  long_term_reference_flag : Nat := 0
  adaptive_ref_pic_marking_mode_flag : Nat := 0
  ops : List Mmco := []
  deriving DecidableEq, Repr

/-- The vector `memory_management_control_operation` (include/h264_dec_ref_pic_marking_parser.h:47), closed by a 0. -/
def DecRefPicMarking.memory_management_control_operation (m : DecRefPicMarking) : List Nat :=
  if m.adaptive_ref_pic_marking_mode_flag ≠ 0 then m.ops.map (·.memory_management_control_operation) ++ [0] else []
/-- The vector `difference_of_pic_nums_minus1` (include/h264_dec_ref_pic_marking_parser.h:48). -/
def DecRefPicMarking.difference_of_pic_nums_minus1 (m : DecRefPicMarking) : List Nat :=
  (m.ops.filter (fun o => decide (o.memory_management_control_operation = 1 ∨
    o.memory_management_control_operation = 3))).map (·.difference_of_pic_nums_minus1)
/-- The vector `long_term_pic_num` (include/h264_dec_ref_pic_marking_parser.h:49). -/
def DecRefPicMarking.long_term_pic_num (m : DecRefPicMarking) : List Nat :=
  (m.ops.filter (fun o => decide (o.memory_management_control_operation = 2))).map (·.long_term_pic_num)
/-- The vector `long_term_frame_idx` (include/h264_dec_ref_pic_marking_parser.h:50). -/
def DecRefPicMarking.long_term_frame_idx (m : DecRefPicMarking) : List Nat :=
  (m.ops.filter (fun o => decide (o.memory_management_control_operation = 3 ∨
    o.memory_management_control_operation = 6))).map (·.long_term_frame_idx)
/-- The vector `max_long_term_frame_idx_plus1` (include/h264_dec_ref_pic_marking_parser.h:51). -/
def DecRefPicMarking.max_long_term_frame_idx_plus1 (m : DecRefPicMarking) : List Nat :=
  (m.ops.filter (fun o => decide (o.memory_management_control_operation = 4))).map (·.max_long_term_frame_idx_plus1)

/-- Weights of one reference picture (entries of the vectors of include/h264_pred_weight_table_parser.h:53-64). -/
structure Weight where
  luma_weight_flag : Nat := 0
  luma_weight : Int := 0
  luma_offset : Int := 0
  chroma_weight_flag : Nat := 0
  chroma_weight_0 : Int := 0
  chroma_offset_0 : Int := 0
  chroma_weight_1 : Int := 0
  chroma_offset_1 : Int := 0
  deriving DecidableEq, Repr

/-- `PredWeightTableState` (include/h264_pred_weight_table_parser.h:31-65). -/
structure PredWeightTable where
  chroma_array_type : Nat := 0
  slice_type : Nat := 0
  num_ref_idx_l0_active_minus1 : Nat := 0
  num_ref_idx_l1_active_minus1 : Nat := 0
  luma_log2_weight_denom : Nat := 0
  chroma_log2_weight_denom : Nat := 0
  l0 : List Weight := []
  l1 : List Weight := []
  deriving DecidableEq, Repr

/-- The vector `luma_weight_lX_flag` (include/h264_pred_weight_table_parser.h:53 and 59). -/
def lumaFlags (l : List Weight) : List Nat := l.map (·.luma_weight_flag)
/-- The vector `luma_weight_lX` (include/h264_pred_weight_table_parser.h:54 and 60). -/
def lumaWeights (l : List Weight) : List Int := (l.filter (fun w => decide (w.luma_weight_flag ≠ 0))).map (·.luma_weight)
/-- The vector `luma_offset_lX` (include/h264_pred_weight_table_parser.h:55 and 61). -/
def lumaOffsets (l : List Weight) : List Int := (l.filter (fun w => decide (w.luma_weight_flag ≠ 0))).map (·.luma_offset)
/-- The vector `chroma_weight_lX_flag` (include/h264_pred_weight_table_parser.h:56 and 62). -/
def chromaFlags (chroma_array_type : Nat) (l : List Weight) : List Nat :=
  if chroma_array_type ≠ 0 then l.map (·.chroma_weight_flag) else []
/-- The vector `chroma_weight_lX` (include/h264_pred_weight_table_parser.h:57 and 63). -/
def chromaWeights (l : List Weight) : List (List Int) :=
  (l.filter (fun w => decide (w.chroma_weight_flag ≠ 0))).map (fun w => [w.chroma_weight_0, w.chroma_weight_1])
/-- The vector `chroma_offset_lX` (include/h264_pred_weight_table_parser.h:58 and 64). -/
def chromaOffsets (l : List Weight) : List (List Int) :=
  (l.filter (fun w => decide (w.chroma_weight_flag ≠ 0))).map (fun w => [w.chroma_offset_0, w.chroma_offset_1])

/-- `SliceHeaderState` (include/h264_slice_header_parser.h:58-140).  The three pointers are options. -/
structure SliceHeader where
  nal_ref_idc : Nat := 0
  nal_unit_type : Nat := 0
  separate_colour_plane_flag : Nat := 0
  log2_max_frame_num_minus4 : Nat := 0
  frame_mbs_only_flag : Nat := 0
  pic_order_cnt_type : Nat := 0
  bottom_field_pic_order_in_frame_present_flag : Nat := 0
  delta_pic_order_always_zero_flag : Nat := 0
  redundant_pic_cnt_present_flag : Nat := 0
  weighted_pred_flag : Nat := 0
  weighted_bipred_idc : Nat := 0
  entropy_coding_mode_flag : Nat := 0
  deblocking_filter_control_present_flag : Nat := 0
  num_slice_groups_minus1 : Nat := 0
  slice_group_map_type : Nat := 0
  pic_width_in_mbs_minus1 : Nat := 0
  pic_height_in_map_units_minus1 : Nat := 0
  slice_group_change_rate_minus1 : Nat := 0
  first_mb_in_slice : Nat := 0
  slice_type : Nat := 0
  pic_parameter_set_id : Nat := 0
  colour_plane_id : Nat := 0
  frame_num : Nat := 0
  field_pic_flag : Nat := 0
  bottom_field_flag : Nat := 0
  idr_pic_id : Nat := 0
  pic_order_cnt_lsb : Nat := 0
  delta_pic_order_cnt_bottom : Int := 0
  delta_pic_order_cnt : List Int := []
  redundant_pic_cnt : Nat := 0
  direct_spatial_mv_pred_flag : Nat := 0
  num_ref_idx_active_override_flag : Nat := 0
  num_ref_idx_l0_active_minus1 : Nat := 0
  num_ref_idx_l1_active_minus1 : Nat := 0
  ref_pic_list_modification : Option RefPicListMod := none
  pred_weight_table : Option PredWeightTable := none
  dec_ref_pic_marking : Option DecRefPicMarking := none
  cabac_init_idc : Nat := 0
  sp_for_switch_flag : Nat := 0
  slice_qp_delta : Int := 0
  slice_qs_delta : Int := 0
  disable_deblocking_filter_idc : Nat := 0
  slice_alpha_c0_offset_div2 : Int := 0
  slice_beta_offset_div2 : Int := 0
  slice_group_change_cycle : Nat := 0
  deriving DecidableEq, Repr

end H264

import Verif.Types.Basic

/-
Parsed parameter sets.  The C++ structs are flat; here the fields are grouped (in reading order) into the part before
the scaling lists, the scaling-list members, and the part after them.
-/

namespace H264

/-- The members written by `scaling_list()` and the loop around it, common to `SpsDataState`
(include/h264_sps_parser.h:93-99) and `PpsState` (include/h264_pps_parser.h:93-99).
`UseDefaultScalingMatrix8x8Flag` is never written by the code and is left out. -/
structure Scal where
  scaling_list_present_flag : List Nat := []
  ScalingList4x4 : List Nat := []
  UseDefaultScalingMatrix4x4Flag : List Nat := []
  ScalingList8x8 : List Nat := []
  delta_scale : Int := 0
  deriving DecidableEq, Repr

/-- `SpsDataState` (include/h264_sps_parser.h:77-92). -/
structure SpsHead where
  profile_idc : Nat := 0
  constraint_set0_flag : Nat := 0
  constraint_set1_flag : Nat := 0
  constraint_set2_flag : Nat := 0
  constraint_set3_flag : Nat := 0
  constraint_set4_flag : Nat := 0
  constraint_set5_flag : Nat := 0
  reserved_zero_2bits : Nat := 0
  level_idc : Nat := 0
  seq_parameter_set_id : Nat := 0
  chroma_format_idc : Nat := 1
  separate_colour_plane_flag : Nat := 0
  bit_depth_luma_minus8 : Nat := 0
  bit_depth_chroma_minus8 : Nat := 0
  qpprime_y_zero_transform_bypass_flag : Nat := 0
  seq_scaling_matrix_present_flag : Nat := 0
  deriving DecidableEq, Repr

/-- `SpsDataState` (include/h264_sps_parser.h:100-123). -/
structure SpsTail where
  log2_max_frame_num_minus4 : Nat := 0
  pic_order_cnt_type : Nat := 0
  log2_max_pic_order_cnt_lsb_minus4 : Nat := 0
  delta_pic_order_always_zero_flag : Nat := 0
  offset_for_non_ref_pic : Int := 0
  offset_for_top_to_bottom_field : Int := 0
  num_ref_frames_in_pic_order_cnt_cycle : Nat := 0
  offset_for_ref_frame : List Int := []
  max_num_ref_frames : Nat := 0
  gaps_in_frame_num_value_allowed_flag : Nat := 0
  pic_width_in_mbs_minus1 : Nat := 0
  pic_height_in_map_units_minus1 : Nat := 0
  frame_mbs_only_flag : Nat := 0
  mb_adaptive_frame_field_flag : Nat := 0
  direct_8x8_inference_flag : Nat := 0
  frame_cropping_flag : Nat := 0
  frame_crop_left_offset : Nat := 0
  frame_crop_right_offset : Nat := 0
  frame_crop_top_offset : Nat := 0
  frame_crop_bottom_offset : Nat := 0
  vui_parameters_present_flag : Nat := 0
  vui_parameters : Option Vui := none
  deriving DecidableEq, Repr

/-- `SpsDataState` (include/h264_sps_parser.h:63-142). -/
structure SpsData extends SpsHead, Scal, SpsTail
  deriving DecidableEq, Repr

/-- The slice group members of `PpsState` (include/h264_pps_parser.h:73-80). -/
structure SliceGroups where
  slice_group_map_type : Nat := 0
  run_length_minus1 : List Nat := []
  top_left : List Nat := []
  bottom_right : List Nat := []
  slice_group_change_direction_flag : Nat := 0
  slice_group_change_rate_minus1 : Nat := 0
  pic_size_in_map_units_minus1 : Nat := 0
  slice_group_id : List Nat := []
  deriving DecidableEq, Repr

/-- `PpsState` up to `redundant_pic_cnt_present_flag` (include/h264_pps_parser.h:68-90). -/
structure PpsHead extends SliceGroups where
  pic_parameter_set_id : Nat := 0
  seq_parameter_set_id : Nat := 0
  entropy_coding_mode_flag : Nat := 0
  bottom_field_pic_order_in_frame_present_flag : Nat := 0
  num_slice_groups_minus1 : Nat := 0
  num_ref_idx_l0_default_active_minus1 : Nat := 0
  num_ref_idx_l1_default_active_minus1 : Nat := 0
  weighted_pred_flag : Nat := 0
  weighted_bipred_idc : Nat := 0
  pic_init_qp_minus26 : Int := 0
  pic_init_qs_minus26 : Int := 0
  chroma_qp_index_offset : Int := 0
  deblocking_filter_control_present_flag : Nat := 0
  constrained_intra_pred_flag : Nat := 0
  redundant_pic_cnt_present_flag : Nat := 0
  deriving DecidableEq, Repr

/-- `PpsState` (include/h264_pps_parser.h:51-110). -/
structure Pps extends PpsHead, Scal where
  chroma_format_idc : Nat := 0
  transform_8x8_mode_flag : Nat := 0
  pic_scaling_matrix_present_flag : Nat := 0
  second_chroma_qp_index_offset : Int := 0
  deriving DecidableEq, Repr

end H264

import Verif.Types.Slice
import Verif.Types.Basic

/-
State of the slice header in scalable extension, `SliceHeaderInScalableExtensionState`
(include/h264_slice_header_in_scalable_extension_parser.h:58-186).  The C++ struct is flat; here its members are
grouped by the part of the header that sets them.
-/

namespace H264

/-- The input parameters (include/h264_slice_header_in_scalable_extension_parser.h:84-111) without ChromaArrayType. -/
structure ScalCopied where
  nal_ref_idc : Nat := 0
  nal_unit_type : Nat := 0
  separate_colour_plane_flag : Nat := 0
  log2_max_frame_num_minus4 : Nat := 0
  frame_mbs_only_flag : Nat := 0
  pic_order_cnt_type : Nat := 0
  bottom_field_pic_order_in_frame_present_flag : Nat := 0
  delta_pic_order_always_zero_flag : Nat := 0
  redundant_pic_cnt_present_flag : Nat := 0
  weighted_pred_flag : Nat := 0
  weighted_bipred_idc : Nat := 0
  no_inter_layer_pred_flag : Nat := 0
  quality_id : Nat := 0
  slice_header_restriction_flag : Nat := 0
  use_ref_base_pic_flag : Nat := 0
  idr_flag : Nat := 0
  entropy_coding_mode_flag : Nat := 0
  deblocking_filter_control_present_flag : Nat := 0
  num_slice_groups_minus1 : Nat := 0
  slice_group_map_type : Nat := 0
  inter_layer_deblocking_filter_control_present_flag : Nat := 0
  extended_spatial_scalability_idc : Nat := 0
  adaptive_tcoeff_level_prediction_flag : Nat := 0
  deriving DecidableEq, Repr

/-- Picture identification (members of include/h264_slice_header_in_scalable_extension_parser.h:68-186). -/
structure ScalPic where
  colour_plane_id : Nat := 0
  frame_num : Nat := 0
  field_pic_flag : Nat := 0
  bottom_field_flag : Nat := 0
  idr_pic_id : Nat := 0
  pic_order_cnt_lsb : Nat := 0
  delta_pic_order_cnt_bottom : Int := 0
  delta_pic_order_cnt : List Int := []
  redundant_pic_cnt : Nat := 0
  deriving DecidableEq, Repr

/-- Reference pictures, coded when quality_id is 0 (members of include/h264_slice_header_in_scalable_extension_parser.h:68-186). -/
structure ScalRef where
  direct_spatial_mv_pred_flag : Nat := 0
  num_ref_idx_active_override_flag : Nat := 0
  num_ref_idx_l0_active_minus1 : Nat := 0
  num_ref_idx_l1_active_minus1 : Nat := 0
  ref_pic_list_modification : Option RefPicListMod := none
  base_pred_weight_table_flag : Nat := 0
  pred_weight_table : Option PredWeightTable := none
  dec_ref_pic_marking : Option DecRefPicMarking := none
  store_ref_base_pic_flag : Nat := 0
  deriving DecidableEq, Repr

/-- Quantiser, deblocking, slice groups (members of include/h264_slice_header_in_scalable_extension_parser.h:68-186). -/
structure ScalQp where
  cabac_init_idc : Nat := 0
  slice_qp_delta : Int := 0
  disable_deblocking_filter_idc : Nat := 0
  slice_alpha_c0_offset_div2 : Int := 0
  slice_beta_offset_div2 : Int := 0
  pic_width_in_mbs_minus1 : Nat := 0
  pic_height_in_map_units_minus1 : Nat := 0
  slice_group_change_rate_minus1 : Nat := 0
  slice_group_change_cycle : Nat := 0
  deriving DecidableEq, Repr

/-- Reference layer, coded for inter-layer prediction and quality_id 0 (members of include/h264_slice_header_in_scalable_extension_parser.h:68-186). -/
structure ScalLayer where
  ref_layer_dq_id : Nat := 0
  disable_inter_layer_deblocking_filter_idc : Nat := 0
  inter_layer_slice_alpha_c0_offset_div2 : Int := 0
  inter_layer_slice_beta_offset_div2 : Int := 0
  constrained_intra_resampling_flag : Nat := 0
  ref_layer_chroma_phase_x_plus1_flag : Nat := 0
  ref_layer_chroma_phase_y_plus1 : Nat := 0
  scaled_ref_layer_left_offset : Int := 0
  scaled_ref_layer_top_offset : Int := 0
  scaled_ref_layer_right_offset : Int := 0
  scaled_ref_layer_bottom_offset : Int := 0
  deriving DecidableEq, Repr

/-- Inter-layer prediction modes (members of include/h264_slice_header_in_scalable_extension_parser.h:68-186). -/
structure ScalPred where
  slice_skip_flag : Nat := 0
  num_mbs_in_slice_minus1 : Nat := 0
  adaptive_base_mode_flag : Nat := 0
  default_base_mode_flag : Nat := 0
  adaptive_motion_prediction_flag : Nat := 0
  default_motion_prediction_flag : Nat := 0
  adaptive_residual_prediction_flag : Nat := 0
  default_residual_prediction_flag : Nat := 0
  tcoeff_level_prediction_flag : Nat := 0
  deriving DecidableEq, Repr

/-- `SliceHeaderInScalableExtensionState` (include/h264_slice_header_in_scalable_extension_parser.h:68-186). -/
structure ScalHeader where
  copied : ScalCopied := {}
  ChromaArrayType : Nat := 0
  first_mb_in_slice : Nat := 0
  slice_type : Nat := 0
  pic_parameter_set_id : Nat := 0
  pic : ScalPic := {}
  ref : ScalRef := {}
  qp : ScalQp := {}
  layer : ScalLayer := {}
  pred : ScalPred := {}
  scan_idx_start : Nat := 0
  scan_idx_end : Nat := 0
  deriving DecidableEq, Repr

end H264

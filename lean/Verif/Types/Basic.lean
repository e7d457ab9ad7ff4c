/-
The parsed states (C++ structs), shared by the model and the specifications.  Field names are those of the C++
structs, and the default values are the C++ default member initialisers.
-/

namespace H264

/-- `NalUnitHeaderSvcExtensionState` (include/h264_nal_unit_header_svc_extension_parser.h:19-45). -/
structure SvcHeaderExt where
  idr_flag : Nat := 0
  priority_id : Nat := 0
  no_inter_layer_pred_flag : Nat := 0
  dependency_id : Nat := 0
  quality_id : Nat := 0
  temporal_id : Nat := 0
  use_ref_base_pic_flag : Nat := 0
  discardable_flag : Nat := 0
  output_flag : Nat := 0
  reserved_three_2bits : Nat := 0
  deriving DecidableEq, Repr

/-- `NalUnitHeaderState` (include/h264_nal_unit_header_parser.h:21-44). -/
structure NalHeader where
  forbidden_zero_bit : Nat := 0
  nal_ref_idc : Nat := 0
  nal_unit_type : Nat := 0
  svc_extension_flag : Nat := 0
  avc_3d_extension_flag : Nat := 0
  svc_extension : Option SvcHeaderExt := none
  deriving DecidableEq, Repr

/-- `HrdParametersState` (include/h264_hrd_parameters_parser.h:27-51). -/
structure Hrd where
  cpb_cnt_minus1 : Nat := 0
  bit_rate_scale : Nat := 0
  cpb_size_scale : Nat := 0
  bit_rate_value_minus1 : List Nat := []
  cpb_size_value_minus1 : List Nat := []
  cbr_flag : List Nat := []
  initial_cpb_removal_delay_length_minus1 : Nat := 0
  cpb_removal_delay_length_minus1 : Nat := 0
  dpb_output_delay_length_minus1 : Nat := 0
  time_offset_length : Nat := 0
  deriving DecidableEq, Repr

/-- `VuiParametersState` (include/h264_vui_parameters_parser.h:77-129). -/
structure Vui where
  aspect_ratio_info_present_flag : Nat := 0
  aspect_ratio_idc : Nat := 0
  sar_width : Nat := 0
  sar_height : Nat := 0
  overscan_info_present_flag : Nat := 0
  overscan_appropriate_flag : Nat := 0
  video_signal_type_present_flag : Nat := 0
  video_format : Nat := 0
  video_full_range_flag : Nat := 0
  colour_description_present_flag : Nat := 0
  colour_primaries : Nat := 0
  transfer_characteristics : Nat := 0
  matrix_coefficients : Nat := 0
  chroma_loc_info_present_flag : Nat := 0
  chroma_sample_loc_type_top_field : Nat := 0
  chroma_sample_loc_type_bottom_field : Nat := 0
  timing_info_present_flag : Nat := 0
  num_units_in_tick : Nat := 0
  time_scale : Nat := 0
  fixed_frame_rate_flag : Nat := 0
  nal_hrd_parameters_present_flag : Nat := 0
  nal_hrd_parameters : Option Hrd := none
  vcl_hrd_parameters_present_flag : Nat := 0
  vcl_hrd_parameters : Option Hrd := none
  low_delay_hrd_flag : Nat := 0
  pic_struct_present_flag : Nat := 0
  bitstream_restriction_flag : Nat := 0
  motion_vectors_over_pic_boundaries_flag : Nat := 0
  max_bytes_per_pic_denom : Nat := 0
  max_bits_per_mb_denom : Nat := 0
  log2_max_mv_length_horizontal : Nat := 0
  log2_max_mv_length_vertical : Nat := 0
  max_num_reorder_frames : Nat := 0
  max_dec_frame_buffering : Nat := 0
  deriving DecidableEq, Repr

end H264

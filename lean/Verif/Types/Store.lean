import Verif.Types.Sets

/-
The subset SPS, and the parameter set store.
-/

namespace H264

/-- `SpsSvcExtensionState` (include/h264_sps_svc_extension_parser.h:22-52). -/
structure SpsSvcExt where
  ChromaArrayType : Nat := 0
  inter_layer_deblocking_filter_control_present_flag : Nat := 0
  extended_spatial_scalability_idc : Nat := 0
  chroma_phase_x_plus1_flag : Nat := 0
  chroma_phase_y_plus1 : Nat := 0
  seq_ref_layer_chroma_phase_x_plus1_flag : Nat := 0
  seq_ref_layer_chroma_phase_y_plus1 : Nat := 0
  seq_scaled_ref_layer_left_offset : Int := 0
  seq_scaled_ref_layer_top_offset : Int := 0
  seq_scaled_ref_layer_right_offset : Int := 0
  seq_scaled_ref_layer_bottom_offset : Int := 0
  seq_tcoeff_level_prediction_flag : Nat := 0
  adaptive_tcoeff_level_prediction_flag : Nat := 0
  slice_header_restriction_flag : Nat := 0
  deriving DecidableEq, Repr

/-- `SubsetSpsState` (include/h264_subset_sps_parser.h:25-54).  `seq_parameter_set_data` is never null in a state the
parser returns (src/h264_subset_sps_parser.cc:48-50). -/
structure SubsetSps where
  seq_parameter_set_data : SpsData
  seq_parameter_set_svc_extension : Option SpsSvcExt := none
  svc_vui_parameters_present_flag : Nat := 0
  bit_equal_to_one : Nat := 0
  mvc_vui_parameters_present_flag : Nat := 0
  additional_extension2_flag : Nat := 0
  additional_extension2_data_flag : Nat := 0
  deriving DecidableEq, Repr

/-- `SpsExtensionState` (include/h264_sps_extension_parser.h:24-48). -/
structure SpsExt where
  seq_parameter_set_id : Nat := 0
  aux_format_idc : Nat := 0
  bit_depth_aux_minus8 : Nat := 0
  alpha_incr_flag : Nat := 0
  alpha_opaque_value : Nat := 0
  alpha_transparent_value : Nat := 0
  additional_extension_flag : Nat := 0
  deriving DecidableEq, Repr

/-- `H264BitstreamParserState` (include/h264_bitstream_parser_state.h:20-47): three maps.  `SpsState` is represented by
its only member `sps_data`, which is never null in a stored state (src/h264_sps_parser.cc: `ParseSps` returns null if
`ParseSpsData` does).  `GetSps`, `GetPps` and `GetSubsetSps` (src/h264_bitstream_parser_state.cc:32-62) are the application of
the map to the id. -/
structure Store where
  sps : Nat → Option SpsData := fun _ => none
  pps : Nat → Option Pps := fun _ => none
  subset_sps : Nat → Option SubsetSps := fun _ => none

/-- `map[k] = v` (src/h264_nal_unit_payload_parser.cc:98, 124, 160). -/
def upd {α : Type} (m : Nat → Option α) (k : Nat) (v : α) : Nat → Option α := fun i => if i = k then some v else m i

end H264

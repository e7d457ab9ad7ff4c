import Verif.Model.Rtp

/-
Model of the `fdump` functions: what they write to `outfp`, as a list of characters, or a bad outcome if a null pointer is
dereferenced on the way.

Simplifications: writing to `outfp` never fails; the indent level is an unbounded integer (the code adds at most the nesting
depth, below ten, to an `int`); `fprintf` with `%u` and a negative `int32_t` prints the value plus 2^32, which is what every
implementation does.
-/

namespace H264

/-- Characters written to `outfp` (src/h264_common.cc:345-368 and all `fdump` functions). -/
abbrev Text := List Char

/-- The effect of one or more statements of an `fdump` function (src/h264_common.cc:345-368 and all `fdump` functions). -/
abbrev Dump := Res Text

/-- Statements one after the other (all `fdump` functions, e.g. src/h264_nal_unit_parser.cc:92-135). -/
def cat : List Dump → Dump
  | [] => .val []
  | d :: ds => do
    let a ← d
    let b ← cat ds
    pure (a ++ b)

/-- `if (c) { ... }` around statements of an `fdump` function (e.g. src/h264_sps_parser.cc:785-790). -/
def whenD (c : Prop) [Decidable c] (ds : List Dump) : Dump := if c then cat ds else .val []

/-- `p->fdump(...)` for a pointer `p` that is not checked (e.g. src/h264_nal_unit_parser.cc:120). -/
def deref {α : Type} (p : Option α) (f : α → Dump) : Dump :=
  match p with
  | some x => f x
  | none => .bad .nullDeref

/-- `if (p) { p->fdump(...); }` (e.g. src/h264_nal_unit_payload_parser.cc:234-236). -/
def checked {α : Type} (p : Option α) (f : α → Dump) : Dump :=
  match p with
  | some x => f x
  | none => .val []

/-- `indent_level_incr` (src/h264_common.cc:346-348). -/
def indentIncr (level : Int) : Int := if level = -1 then -1 else level + 1

/-- `indent_level_decr` (src/h264_common.cc:350-352). -/
def indentDecr (level : Int) : Int := if level = -1 then -1 else level - 1

/-- `fdump_indent_level` (src/h264_common.cc:354-362).  A negative width for `%*s` means left-justified. -/
def indentText (level : Int) : Text := if level = -1 then [' '] else '\n' :: List.replicate (2 * level).natAbs ' '

/-- `fprintf(outfp, "%u", v)` (all `fdump` functions, e.g. src/h264_hrd_parameters_parser.cc:121). -/
def decU (v : Nat) : Text := Nat.toDigits 10 v

/-- `fprintf(outfp, "%i", v)` (all `fdump` functions, e.g. src/h264_pps_parser.cc:475). -/
def decI (v : Int) : Text := if v < 0 then '-' :: decU v.natAbs else decU v.natAbs

/-- `fprintf(outfp, "0x%08zx", v)` (src/h264_nal_unit_parser.cc:100, 112). -/
def hex08 (v : Nat) : Text :=
  let d := Nat.toDigits 16 v
  '0' :: 'x' :: (List.replicate (8 - d.length) '0' ++ d)

/-- `fdump_indent_level(outfp, indent_level)` and then one thing on the new line (all `fdump` functions). -/
def item (l : Int) (d : Dump) : Dump := do
  let t ← d
  pure (indentText l ++ t)

/-- `fdump_indent_level` and `fprintf(outfp, "name: %s", t)` (all `fdump` functions). -/
def fld (l : Int) (name : String) (t : Text) : Dump := .val (indentText l ++ (name.toList ++ (':' :: ' ' :: t)))

/-- `fdump_indent_level` and `fprintf(outfp, "name: %u", v)` with a `uint32_t` (all `fdump` functions). -/
def fldU (l : Int) (name : String) (v : Nat) : Dump := fld l name (decU v)

/-- `fdump_indent_level` and `fprintf(outfp, "name: %i", v)` with an `int32_t` (all `fdump` functions). -/
def fldI (l : Int) (name : String) (v : Int) : Dump := fld l name (decI v)

/-- `fdump_indent_level` and `fprintf(outfp, "name: %u", v)` with an `int32_t`
(e.g. src/h264_slice_header_parser.cc:699-704). -/
def fldIU (l : Int) (name : String) (v : Int) : Dump := fld l name (decU (toU32 v))

/-- The elements of a vector, each after a space (e.g. src/h264_hrd_parameters_parser.cc:128-130). -/
def elems {α : Type} (f : α → Text) (vs : List α) : Text := vs.flatMap fun v => ' ' :: f v

/-- `fdump_indent_level`, `name {`, the elements, ` }` (e.g. src/h264_hrd_parameters_parser.cc:126-131). -/
def arr {α : Type} (l : Int) (name : String) (f : α → Text) (vs : List α) : Dump :=
  .val (indentText l ++ (name.toList ++ (' ' :: '{' :: (elems f vs ++ [' ', '}']))))

/-- A vector of `uint32_t` (e.g. src/h264_hrd_parameters_parser.cc:126-131). -/
def arrU (l : Int) (name : String) (vs : List Nat) : Dump := arr l name decU vs

/-- A vector of `int32_t` (e.g. src/h264_pred_weight_table_parser.cc:223-228). -/
def arrI (l : Int) (name : String) (vs : List Int) : Dump := arr l name decI vs

/-- A vector of vectors of `int32_t` (e.g. src/h264_pred_weight_table_parser.cc:245-254). -/
def arr2 (l : Int) (name : String) (vs : List (List Int)) : Dump :=
  arr l name (fun v => '{' :: (elems decI v ++ [' ', '}'])) vs

/-- The frame of an `fdump` function: `name {`, the statements at the incremented level, `}` on a line of its own
(e.g. src/h264_sps_parser.cc:951-962). -/
def block (name : String) (level : Int) (body : Int → List Dump) : Dump := do
  let t ← cat (body (indentIncr level))
  pure (name.toList ++ (' ' :: '{' :: (t ++ (indentText (indentDecr (indentIncr level)) ++ ['}']))))

/-- `profileTypeToString` (src/h264_common.cc:146-205). -/
def profileTypeToString : ProfileType → String
  | .UNSPECIFIED => "Unspecified"
  | .BASELINE => "Baseline"
  | .CONSTRAINED_BASELINE => "Constrained Baseline"
  | .MAIN => "Main"
  | .EXTENDED => "Extended"
  | .HIGH => "High"
  | .PROGRESSIVE_HIGH => "Progressive High"
  | .CONSTRAINED_HIGH => "Constrained High"
  | .HIGH_10 => "High 10"
  | .PROGRESSIVE_HIGH_10 => "Progressive High 10"
  | .HIGH_10_INTRA => "High 10 Intra"
  | .HIGH_422 => "High 4:2:2"
  | .HIGH_422_INTRA => "High 4:2:2 Intra"
  | .HIGH_444 => "High 4:4:4"
  | .HIGH_444_INTRA => "High 4:4:4 Intra"
  | .HIGH_444_PRED => "High 4:4:4 Predictive"
  | .HIGH_444_PRED_INTRA => "High 4:4:4 Predictive Intra"
  | .CAVLC_444_INTRA => "CAVLC 4:4:4 Intra"

/-! ### NAL unit header -/

/-- `NalUnitHeaderSvcExtensionState::fdump` (src/h264_nal_unit_header_svc_extension_parser.cc:97-135). -/
def SvcHeaderExt.fdump (x : SvcHeaderExt) (level : Int) : Dump :=
  block "nal_unit_header_svc_extension" level fun l => [
    fldU l "idr_flag" x.idr_flag,
    fldU l "priority_id" x.priority_id,
    fldU l "no_inter_layer_pred_flag" x.no_inter_layer_pred_flag,
    fldU l "dependency_id" x.dependency_id,
    fldU l "quality_id" x.quality_id,
    fldU l "temporal_id" x.temporal_id,
    fldU l "use_ref_base_pic_flag" x.use_ref_base_pic_flag,
    fldU l "discardable_flag" x.discardable_flag,
    fldU l "output_flag" x.output_flag,
    fldU l "reserved_three_2bits" x.reserved_three_2bits]

/-- `NalUnitHeaderState::fdump` (src/h264_nal_unit_header_parser.cc:117-148). -/
def NalHeader.fdump (x : NalHeader) (level : Int) : Dump :=
  block "nal_unit_header" level fun l => [
    fldU l "forbidden_zero_bit" x.forbidden_zero_bit,
    fldU l "nal_ref_idc" x.nal_ref_idc,
    fldU l "nal_unit_type" x.nal_unit_type,
    whenD (x.nal_unit_type = 14 ∨ x.nal_unit_type = 20 ∨ x.nal_unit_type = 21) [
      if x.nal_unit_type ≠ 21 then cat [
        fldU l "svc_extension_flag" x.svc_extension_flag,
        whenD (x.svc_extension_flag ≠ 0) [checked x.svc_extension fun e => item l (e.fdump l)]]
      else fldU l "avc_3d_extension_flag" x.avc_3d_extension_flag]]

/-! ### Parameter sets -/

/-- `HrdParametersState::fdump` (src/h264_hrd_parameters_parser.cc:115-165).  `cpb_size_scale` is not written. -/
def Hrd.fdump (x : Hrd) (level : Int) : Dump :=
  block "hrd_parameters" level fun l => [
    fldU l "cpb_cnt_minus1" x.cpb_cnt_minus1,
    fldU l "bit_rate_scale" x.bit_rate_scale,
    arrU l "bit_rate_value_minus1" x.bit_rate_value_minus1,
    arrU l "cpb_size_value_minus1" x.cpb_size_value_minus1,
    arrU l "cbr_flag" x.cbr_flag,
    fldU l "initial_cpb_removal_delay_length_minus1" x.initial_cpb_removal_delay_length_minus1,
    fldU l "cpb_removal_delay_length_minus1" x.cpb_removal_delay_length_minus1,
    fldU l "dpb_output_delay_length_minus1" x.dpb_output_delay_length_minus1,
    fldU l "time_offset_length" x.time_offset_length]

/-- `VuiParametersState::fdump` (src/h264_vui_parameters_parser.cc:358-501). -/
def Vui.fdump (x : Vui) (level : Int) : Dump :=
  block "vui_parameters" level fun l => [
    fldU l "aspect_ratio_info_present_flag" x.aspect_ratio_info_present_flag,
    whenD (x.aspect_ratio_info_present_flag ≠ 0) [
      fldU l "aspect_ratio_idc" x.aspect_ratio_idc,
      whenD (x.aspect_ratio_idc = 255) [
        fldU l "sar_width" x.sar_width,
        fldU l "sar_height" x.sar_height]],
    fldU l "overscan_info_present_flag" x.overscan_info_present_flag,
    whenD (x.overscan_info_present_flag ≠ 0) [
      fldU l "overscan_appropriate_flag" x.overscan_appropriate_flag],
    fldU l "video_signal_type_present_flag" x.video_signal_type_present_flag,
    whenD (x.video_signal_type_present_flag ≠ 0) [
      fldU l "video_format" x.video_format,
      fldU l "video_full_range_flag" x.video_full_range_flag,
      fldU l "colour_description_present_flag" x.colour_description_present_flag,
      whenD (x.colour_description_present_flag ≠ 0) [
        fldU l "colour_primaries" x.colour_primaries,
        fldU l "transfer_characteristics" x.transfer_characteristics,
        fldU l "matrix_coefficients" x.matrix_coefficients]],
    fldU l "chroma_loc_info_present_flag" x.chroma_loc_info_present_flag,
    whenD (x.chroma_loc_info_present_flag ≠ 0) [
      fldU l "chroma_sample_loc_type_top_field" x.chroma_sample_loc_type_top_field,
      fldU l "chroma_sample_loc_type_bottom_field" x.chroma_sample_loc_type_bottom_field],
    fldU l "timing_info_present_flag" x.timing_info_present_flag,
    whenD (x.timing_info_present_flag ≠ 0) [
      fldU l "num_units_in_tick" x.num_units_in_tick,
      fldU l "time_scale" x.time_scale,
      fldU l "fixed_frame_rate_flag" x.fixed_frame_rate_flag],
    fldU l "nal_hrd_parameters_present_flag" x.nal_hrd_parameters_present_flag,
    whenD (x.nal_hrd_parameters_present_flag ≠ 0) [item l (deref x.nal_hrd_parameters (·.fdump l))],
    fldU l "vcl_hrd_parameters_present_flag" x.vcl_hrd_parameters_present_flag,
    whenD (x.vcl_hrd_parameters_present_flag ≠ 0) [item l (deref x.vcl_hrd_parameters (·.fdump l))],
    whenD (x.nal_hrd_parameters_present_flag ≠ 0 ∨ x.vcl_hrd_parameters_present_flag ≠ 0) [
      fldU l "low_delay_hrd_flag" x.low_delay_hrd_flag],
    fldU l "pic_struct_present_flag" x.pic_struct_present_flag,
    fldU l "bitstream_restriction_flag" x.bitstream_restriction_flag,
    whenD (x.bitstream_restriction_flag ≠ 0) [
      fldU l "motion_vectors_over_pic_boundaries_flag" x.motion_vectors_over_pic_boundaries_flag,
      fldU l "max_bytes_per_pic_denom" x.max_bytes_per_pic_denom,
      fldU l "max_bits_per_mb_denom" x.max_bits_per_mb_denom,
      fldU l "log2_max_mv_length_horizontal" x.log2_max_mv_length_horizontal,
      fldU l "log2_max_mv_length_vertical" x.log2_max_mv_length_vertical,
      fldU l "max_num_reorder_frames" x.max_num_reorder_frames,
      fldU l "max_dec_frame_buffering" x.max_dec_frame_buffering]]

/-- src/h264_sps_parser.cc:926-939: the two lines on the resolution; `width` and `height` are -1 when `getResolution` fails. -/
def SpsData.dumpResolution (x : SpsData) (l : Int) : Dump := do
  let r ← x.getResolution
  let (width, height) := r.getD (-1, -1)
  cat [fldI l "width" width, fldI l "height" height]

/-- `SpsDataState::fdump` (src/h264_sps_parser.cc:739-949).  `UseDefaultScalingMatrix8x8Flag` is always empty. -/
def SpsData.fdump (x : SpsData) (level : Int) (opts : ParsingOptions) : Dump :=
  block "sps_data" level fun l => [
    fldU l "profile_idc" x.profile_idc,
    fldU l "constraint_set0_flag" x.constraint_set0_flag,
    fldU l "constraint_set1_flag" x.constraint_set1_flag,
    fldU l "constraint_set2_flag" x.constraint_set2_flag,
    fldU l "constraint_set3_flag" x.constraint_set3_flag,
    fldU l "constraint_set4_flag" x.constraint_set4_flag,
    fldU l "constraint_set5_flag" x.constraint_set5_flag,
    fldU l "reserved_zero_2bits" x.reserved_zero_2bits,
    fld l "profile" (profileTypeToString x.getProfileType).toList,
    fldU l "level_idc" x.level_idc,
    fldU l "seq_parameter_set_id" x.seq_parameter_set_id,
    whenD (hasChromaInfo x.profile_idc = true) [
      fldU l "chroma_format_idc" x.chroma_format_idc,
      whenD (x.chroma_format_idc = 3) [fldU l "separate_colour_plane_flag" x.separate_colour_plane_flag],
      fldU l "bit_depth_luma_minus8" x.bit_depth_luma_minus8,
      fldU l "bit_depth_chroma_minus8" x.bit_depth_chroma_minus8,
      fldU l "qpprime_y_zero_transform_bypass_flag" x.qpprime_y_zero_transform_bypass_flag,
      fldU l "seq_scaling_matrix_present_flag" x.seq_scaling_matrix_present_flag,
      arrU l "seq_scaling_list_present_flag" x.scaling_list_present_flag,
      arrU l "ScalingList4x4" x.ScalingList4x4,
      arrU l "UseDefaultScalingMatrix4x4Flag" x.UseDefaultScalingMatrix4x4Flag,
      arrU l "ScalingList8x8" x.ScalingList8x8,
      arrU l "UseDefaultScalingMatrix8x8Flag" [],
      fldI l "delta_scale" x.delta_scale],
    fldU l "log2_max_frame_num_minus4" x.log2_max_frame_num_minus4,
    fldU l "pic_order_cnt_type" x.pic_order_cnt_type,
    if x.pic_order_cnt_type = 0 then fldU l "log2_max_pic_order_cnt_lsb_minus4" x.log2_max_pic_order_cnt_lsb_minus4
    else whenD (x.pic_order_cnt_type = 1) [
      fldU l "delta_pic_order_always_zero_flag" x.delta_pic_order_always_zero_flag,
      fldI l "offset_for_non_ref_pic" x.offset_for_non_ref_pic,
      fldI l "offset_for_top_to_bottom_field" x.offset_for_top_to_bottom_field,
      fldU l "num_ref_frames_in_pic_order_cnt_cycle" x.num_ref_frames_in_pic_order_cnt_cycle,
      arrI l "offset_for_ref_frame" x.offset_for_ref_frame],
    fldU l "max_num_ref_frames" x.max_num_ref_frames,
    fldU l "gaps_in_frame_num_value_allowed_flag" x.gaps_in_frame_num_value_allowed_flag,
    fldU l "pic_width_in_mbs_minus1" x.pic_width_in_mbs_minus1,
    fldU l "pic_height_in_map_units_minus1" x.pic_height_in_map_units_minus1,
    fldU l "frame_mbs_only_flag" x.frame_mbs_only_flag,
    whenD (x.frame_mbs_only_flag = 0) [fldU l "mb_adaptive_frame_field_flag" x.mb_adaptive_frame_field_flag],
    fldU l "direct_8x8_inference_flag" x.direct_8x8_inference_flag,
    fldU l "frame_cropping_flag" x.frame_cropping_flag,
    whenD (x.frame_cropping_flag ≠ 0) [
      fldU l "frame_crop_left_offset" x.frame_crop_left_offset,
      fldU l "frame_crop_right_offset" x.frame_crop_right_offset,
      fldU l "frame_crop_top_offset" x.frame_crop_top_offset,
      fldU l "frame_crop_bottom_offset" x.frame_crop_bottom_offset],
    fldU l "vui_parameters_present_flag" x.vui_parameters_present_flag,
    whenD (x.vui_parameters_present_flag ≠ 0) [item l (deref x.vui_parameters (·.fdump l))],
    whenD (opts.add_resolution = true) [x.dumpResolution l]]

/-- `SpsState::fdump` (src/h264_sps_parser.cc:951-962). -/
def dumpSps (x : SpsData) (level : Int) (opts : ParsingOptions) : Dump :=
  block "sps" level fun l => [item l (x.fdump l opts)]

/-- src/h264_pps_parser.cc:409-455: the slice groups. -/
def SliceGroups.dumpMap (x : SliceGroups) (l : Int) : Dump :=
  if x.slice_group_map_type = 0 then arrU l "run_length_minus1" x.run_length_minus1
  else if x.slice_group_map_type = 2 then cat [
    arrU l "top_left" x.top_left,
    arrU l "bottom_right" x.bottom_right]
  else if x.slice_group_map_type = 3 ∨ x.slice_group_map_type = 4 ∨ x.slice_group_map_type = 5 then cat [
    fldU l "slice_group_change_direction_flag" x.slice_group_change_direction_flag,
    fldU l "slice_group_change_rate_minus1" x.slice_group_change_rate_minus1]
  else whenD (x.slice_group_map_type = 6) [
    fldU l "pic_size_in_map_units_minus1" x.pic_size_in_map_units_minus1,
    arrU l "slice_group_id" x.slice_group_id]

/-- `PpsState::fdump` (src/h264_pps_parser.cc:390-548).  `UseDefaultScalingMatrix8x8Flag` is always empty. -/
def Pps.fdump (x : Pps) (level : Int) : Dump :=
  block "pps" level fun l => [
    fldU l "pic_parameter_set_id" x.pic_parameter_set_id,
    fldU l "seq_parameter_set_id" x.seq_parameter_set_id,
    fldU l "entropy_coding_mode_flag" x.entropy_coding_mode_flag,
    fldU l "bottom_field_pic_order_in_frame_present_flag" x.bottom_field_pic_order_in_frame_present_flag,
    fldU l "num_slice_groups_minus1" x.num_slice_groups_minus1,
    whenD (x.num_slice_groups_minus1 > 0) [
      fldU l "slice_group_map_type" x.slice_group_map_type,
      x.dumpMap l],
    fldU l "num_ref_idx_l0_default_active_minus1" x.num_ref_idx_l0_default_active_minus1,
    fldU l "num_ref_idx_l1_default_active_minus1" x.num_ref_idx_l1_default_active_minus1,
    fldU l "weighted_pred_flag" x.weighted_pred_flag,
    fldU l "weighted_bipred_idc" x.weighted_bipred_idc,
    fldI l "pic_init_qp_minus26" x.pic_init_qp_minus26,
    fldI l "pic_init_qs_minus26" x.pic_init_qs_minus26,
    fldI l "chroma_qp_index_offset" x.chroma_qp_index_offset,
    fldU l "deblocking_filter_control_present_flag" x.deblocking_filter_control_present_flag,
    fldU l "constrained_intra_pred_flag" x.constrained_intra_pred_flag,
    fldU l "redundant_pic_cnt_present_flag" x.redundant_pic_cnt_present_flag,
    fldU l "transform_8x8_mode_flag" x.transform_8x8_mode_flag,
    fldU l "pic_scaling_matrix_present_flag" x.pic_scaling_matrix_present_flag,
    arrU l "pic_scaling_list_present_flag" x.scaling_list_present_flag,
    arrU l "ScalingList4x4" x.ScalingList4x4,
    arrU l "UseDefaultScalingMatrix4x4Flag" x.UseDefaultScalingMatrix4x4Flag,
    arrU l "ScalingList8x8" x.ScalingList8x8,
    arrU l "UseDefaultScalingMatrix8x8Flag" [],
    fldI l "delta_scale" x.delta_scale,
    fldI l "second_chroma_qp_index_offset" x.second_chroma_qp_index_offset]

/-- `SpsSvcExtensionState::fdump` (src/h264_sps_svc_extension_parser.cc:134-202). -/
def SpsSvcExt.fdump (x : SpsSvcExt) (level : Int) : Dump :=
  block "seq_parameter_set_svc_extension" level fun l => [
    fldU l "inter_layer_deblocking_filter_control_present_flag" x.inter_layer_deblocking_filter_control_present_flag,
    fldU l "extended_spatial_scalability_idc" x.extended_spatial_scalability_idc,
    whenD (x.ChromaArrayType = 1 ∨ x.ChromaArrayType = 2) [
      fldU l "chroma_phase_x_plus1_flag" x.chroma_phase_x_plus1_flag],
    whenD (x.ChromaArrayType = 1) [fldU l "chroma_phase_y_plus1" x.chroma_phase_y_plus1],
    whenD (x.extended_spatial_scalability_idc = 1) [
      whenD (x.ChromaArrayType > 0) [
        fldU l "seq_ref_layer_chroma_phase_x_plus1_flag" x.seq_ref_layer_chroma_phase_x_plus1_flag,
        fldU l "seq_ref_layer_chroma_phase_y_plus1" x.seq_ref_layer_chroma_phase_y_plus1],
      fldIU l "seq_scaled_ref_layer_left_offset" x.seq_scaled_ref_layer_left_offset,
      fldIU l "seq_scaled_ref_layer_top_offset" x.seq_scaled_ref_layer_top_offset,
      fldIU l "seq_scaled_ref_layer_right_offset" x.seq_scaled_ref_layer_right_offset,
      fldIU l "seq_scaled_ref_layer_bottom_offset" x.seq_scaled_ref_layer_bottom_offset],
    fldU l "seq_tcoeff_level_prediction_flag" x.seq_tcoeff_level_prediction_flag,
    whenD (x.seq_tcoeff_level_prediction_flag = 1) [
      fldU l "adaptive_tcoeff_level_prediction_flag" x.adaptive_tcoeff_level_prediction_flag],
    fldU l "slice_header_restriction_flag" x.slice_header_restriction_flag]

/-- src/h264_subset_sps_parser.cc:141-185: the part that depends on the profile. -/
def SubsetSps.dumpProfile (x : SubsetSps) (l : Int) : Dump :=
  let p := x.seq_parameter_set_data.profile_idc
  if p = 83 ∨ p = 86 then cat [
    item l (deref x.seq_parameter_set_svc_extension (·.fdump l)),
    fldU l "svc_vui_parameters_present_flag" x.svc_vui_parameters_present_flag]
  else if p = 118 ∨ p = 128 ∨ p = 134 then cat [
    fldU l "bit_equal_to_one" x.bit_equal_to_one,
    fldU l "mvc_vui_parameters_present_flag" x.mvc_vui_parameters_present_flag]
  else if p = 138 ∨ p = 135 then fldU l "bit_equal_to_one" x.bit_equal_to_one
  else whenD (p = 139) [fldU l "bit_equal_to_one" x.bit_equal_to_one]

/-- `SubsetSpsState::fdump` (src/h264_subset_sps_parser.cc:133-198). -/
def SubsetSps.fdump (x : SubsetSps) (level : Int) (opts : ParsingOptions) : Dump :=
  block "subset_sps" level fun l => [
    item l (x.seq_parameter_set_data.fdump l opts),
    x.dumpProfile l,
    fldU l "additional_extension2_flag" x.additional_extension2_flag,
    whenD (x.additional_extension2_flag = 1) [
      fldU l "additional_extension2_data_flag" x.additional_extension2_data_flag]]

/-- `SpsExtensionState::fdump` (src/h264_sps_extension_parser.cc:124-155). -/
def SpsExt.fdump (x : SpsExt) (level : Int) : Dump :=
  block "sps_extension" level fun l => [
    fldU l "seq_parameter_set_id" x.seq_parameter_set_id,
    fldU l "aux_format_idc" x.aux_format_idc,
    whenD (x.aux_format_idc ≠ 0) [
      fldU l "bit_depth_aux_minus8" x.bit_depth_aux_minus8,
      fldU l "alpha_incr_flag" x.alpha_incr_flag,
      fldU l "alpha_opaque_value" x.alpha_opaque_value,
      fldU l "alpha_transparent_value" x.alpha_transparent_value],
    fldU l "additional_extension_flag" x.additional_extension_flag]

/-! ### Slices -/

/-- `RefPicListModificationState::fdump` (src/h264_ref_pic_list_modification_parser.cc:140-183). -/
def RefPicListMod.fdump (x : RefPicListMod) (level : Int) : Dump :=
  block "ref_pic_list_modification" level fun l => [
    fldU l "ref_pic_list_modification_flag_l0" x.ref_pic_list_modification_flag_l0,
    fldU l "ref_pic_list_modification_flag_l1" x.ref_pic_list_modification_flag_l1,
    whenD (x.modification_of_pic_nums_idc.length > 0) [
      arrU l "modification_of_pic_nums_idc" x.modification_of_pic_nums_idc],
    whenD (x.abs_diff_pic_num_minus1.length > 0) [arrU l "abs_diff_pic_num_minus1" x.abs_diff_pic_num_minus1],
    whenD (x.long_term_pic_num.length > 0) [arrU l "long_term_pic_num" x.long_term_pic_num]]

/-- `DecRefPicMarkingState::fdump` (src/h264_dec_ref_pic_marking_parser.cc:127-186). -/
def DecRefPicMarking.fdump (x : DecRefPicMarking) (level : Int) : Dump :=
  block "dec_ref_pic_marking" level fun l => [
    if x.IdrPicFlag ≠ 0 then cat [
      fldU l "no_output_of_prior_pics_flag" x.no_output_of_prior_pics_flag,
      fldU l "long_term_reference_flag" x.long_term_reference_flag]
    else cat [
      fldU l "adaptive_ref_pic_marking_mode_flag" x.adaptive_ref_pic_marking_mode_flag,
      whenD (x.adaptive_ref_pic_marking_mode_flag ≠ 0) [
        arrU l "memory_management_control_operation" x.memory_management_control_operation,
        arrU l "difference_of_pic_nums_minus1" x.difference_of_pic_nums_minus1,
        arrU l "long_term_pic_num" x.long_term_pic_num,
        arrU l "long_term_frame_idx" x.long_term_frame_idx,
        arrU l "max_long_term_frame_idx_plus1" x.max_long_term_frame_idx_plus1]]]

/-- `PredWeightTableState::fdump` (src/h264_pred_weight_table_parser.cc:202-325). -/
def PredWeightTable.fdump (x : PredWeightTable) (level : Int) : Dump :=
  block "pred_weight_table" level fun l => [
    fldU l "luma_log2_weight_denom" x.luma_log2_weight_denom,
    whenD (x.chroma_array_type ≠ 0) [fldU l "chroma_log2_weight_denom" x.chroma_log2_weight_denom],
    arrU l "luma_weight_l0_flag" (lumaFlags x.l0),
    arrI l "luma_weight_l0" (lumaWeights x.l0),
    arrI l "luma_offset_l0" (lumaOffsets x.l0),
    whenD (x.chroma_array_type ≠ 0) [
      arrU l "chroma_weight_l0_flag" (chromaFlags x.chroma_array_type x.l0),
      arr2 l "chroma_weight_l0" (chromaWeights x.l0),
      arr2 l "chroma_offset_l0" (chromaOffsets x.l0)],
    whenD (isB x.slice_type) [
      arrU l "luma_weight_l1_flag" (lumaFlags x.l1),
      arrI l "luma_weight_l1" (lumaWeights x.l1),
      arrI l "luma_offset_l1" (lumaOffsets x.l1),
      whenD (x.chroma_array_type ≠ 0) [
        arrU l "chroma_weight_l1_flag" (chromaFlags x.chroma_array_type x.l1),
        arr2 l "chroma_weight_l1" (chromaWeights x.l1),
        arr2 l "chroma_offset_l1" (chromaOffsets x.l1)]]]

/-- `SliceHeaderState::fdump` (src/h264_slice_header_parser.cc:561-714). -/
def SliceHeader.fdump (x : SliceHeader) (level : Int) : Dump :=
  block "slice_header" level fun l => [
    fldU l "first_mb_in_slice" x.first_mb_in_slice,
    fldU l "slice_type" x.slice_type,
    fldU l "pic_parameter_set_id" x.pic_parameter_set_id,
    whenD (x.separate_colour_plane_flag ≠ 0) [fldU l "colour_plane_id" x.colour_plane_id],
    fldU l "frame_num" x.frame_num,
    whenD (x.frame_mbs_only_flag = 0) [
      fldU l "field_pic_flag" x.field_pic_flag,
      whenD (x.field_pic_flag ≠ 0) [fldU l "bottom_field_flag" x.bottom_field_flag]],
    whenD (x.nal_unit_type = 5) [fldU l "idr_pic_id" x.idr_pic_id],
    whenD (x.pic_order_cnt_type = 0) [
      fldU l "pic_order_cnt_lsb" x.pic_order_cnt_lsb,
      whenD (x.bottom_field_pic_order_in_frame_present_flag ≠ 0 ∧ x.field_pic_flag = 0) [
        fldI l "delta_pic_order_cnt_bottom" x.delta_pic_order_cnt_bottom]],
    whenD (x.pic_order_cnt_type = 1 ∧ x.delta_pic_order_always_zero_flag = 0) [
      arrI l "delta_pic_order_cnt" x.delta_pic_order_cnt],
    whenD (x.redundant_pic_cnt_present_flag ≠ 0) [fldU l "redundant_pic_cnt" x.redundant_pic_cnt],
    whenD (isB x.slice_type) [fldU l "direct_spatial_mv_pred_flag" x.direct_spatial_mv_pred_flag],
    whenD (isPSP x.slice_type ∨ isB x.slice_type) [
      fldU l "num_ref_idx_active_override_flag" x.num_ref_idx_active_override_flag,
      whenD (x.num_ref_idx_active_override_flag ≠ 0) [
        fldU l "num_ref_idx_l0_active_minus1" x.num_ref_idx_l0_active_minus1,
        whenD (isB x.slice_type) [fldU l "num_ref_idx_l1_active_minus1" x.num_ref_idx_l1_active_minus1]]],
    item l (deref x.ref_pic_list_modification (·.fdump l)),
    whenD ((x.weighted_pred_flag ≠ 0 ∧ isPSP x.slice_type) ∨ (x.weighted_bipred_idc = 1 ∧ isB x.slice_type)) [
      item l (deref x.pred_weight_table (·.fdump l))],
    whenD (x.nal_ref_idc ≠ 0) [item l (deref x.dec_ref_pic_marking (·.fdump l))],
    whenD (x.entropy_coding_mode_flag ≠ 0 ∧ notISI x.slice_type) [fldU l "cabac_init_idc" x.cabac_init_idc],
    fldI l "slice_qp_delta" x.slice_qp_delta,
    whenD (isSP x.slice_type ∨ isSI x.slice_type) [
      whenD (isSP x.slice_type) [fldU l "sp_for_switch_flag" x.sp_for_switch_flag],
      fldI l "slice_qs_delta" x.slice_qs_delta],
    whenD (x.deblocking_filter_control_present_flag ≠ 0) [
      fldU l "disable_deblocking_filter_idc" x.disable_deblocking_filter_idc,
      whenD (x.disable_deblocking_filter_idc ≠ 1) [
        fldIU l "slice_alpha_c0_offset_div2" x.slice_alpha_c0_offset_div2,
        fldIU l "slice_beta_offset_div2" x.slice_beta_offset_div2]],
    whenD (x.num_slice_groups_minus1 > 0 ∧ x.slice_group_map_type ≥ 3 ∧ x.slice_group_map_type ≤ 5) [
      fldU l "slice_group_change_cycle" x.slice_group_change_cycle]]

/-- src/h264_slice_header_in_scalable_extension_parser.cc:732-786: from colour_plane_id to redundant_pic_cnt. -/
def ScalHeader.dumpPic (x : ScalHeader) (l : Int) : Dump := cat [
  whenD (x.copied.separate_colour_plane_flag ≠ 0) [fldU l "colour_plane_id" x.pic.colour_plane_id],
  fldU l "frame_num" x.pic.frame_num,
  whenD (x.copied.frame_mbs_only_flag = 0) [
    fldU l "field_pic_flag" x.pic.field_pic_flag,
    whenD (x.pic.field_pic_flag ≠ 0) [fldU l "bottom_field_flag" x.pic.bottom_field_flag]],
  whenD (x.copied.idr_flag = 1) [fldU l "idr_pic_id" x.pic.idr_pic_id],
  whenD (x.copied.pic_order_cnt_type = 0) [
    fldU l "pic_order_cnt_lsb" x.pic.pic_order_cnt_lsb,
    whenD (x.copied.bottom_field_pic_order_in_frame_present_flag ≠ 0 ∧ x.pic.field_pic_flag = 0) [
      fldIU l "delta_pic_order_cnt_bottom" x.pic.delta_pic_order_cnt_bottom]],
  whenD (x.copied.pic_order_cnt_type = 1 ∧ x.copied.delta_pic_order_always_zero_flag = 0) [
    arrI l "delta_pic_order_cnt" x.pic.delta_pic_order_cnt],
  whenD (x.copied.redundant_pic_cnt_present_flag ≠ 0) [fldU l "redundant_pic_cnt" x.pic.redundant_pic_cnt]]

/-- src/h264_slice_header_in_scalable_extension_parser.cc:788-850: what is only there when quality_id is 0.
`fdump_unimplemented` (src/h264_common.cc:364-368) writes a name and `{ unimplemented }`. -/
def ScalHeader.dumpRef (x : ScalHeader) (l : Int) : Dump := cat [
  whenD (isB x.slice_type) [fldU l "direct_spatial_mv_pred_flag" x.ref.direct_spatial_mv_pred_flag],
  whenD (isEP x.slice_type ∨ isB x.slice_type) [
    fldU l "num_ref_idx_active_override_flag" x.ref.num_ref_idx_active_override_flag,
    whenD (x.ref.num_ref_idx_active_override_flag ≠ 0) [
      fldU l "num_ref_idx_l0_active_minus1" x.ref.num_ref_idx_l0_active_minus1,
      whenD (isB x.slice_type) [fldU l "num_ref_idx_l1_active_minus1" x.ref.num_ref_idx_l1_active_minus1]]],
  item l (deref x.ref.ref_pic_list_modification (·.fdump l)),
  whenD ((x.copied.weighted_pred_flag ≠ 0 ∧ isEP x.slice_type) ∨ (x.copied.weighted_bipred_idc = 1 ∧ isB x.slice_type)) [
    whenD (x.copied.no_inter_layer_pred_flag = 0) [
      fldU l "base_pred_weight_table_flag" x.ref.base_pred_weight_table_flag],
    whenD (x.copied.no_inter_layer_pred_flag ≠ 0 ∨ x.ref.base_pred_weight_table_flag = 0) [
      item l (deref x.ref.pred_weight_table (·.fdump l))]],
  whenD (x.copied.nal_ref_idc ≠ 0) [
    item l (deref x.ref.dec_ref_pic_marking (·.fdump l)),
    whenD (x.copied.slice_header_restriction_flag = 0) [
      fldU l "store_ref_base_pic_flag" x.ref.store_ref_base_pic_flag,
      whenD ((x.copied.use_ref_base_pic_flag ≠ 0 ∨ x.ref.store_ref_base_pic_flag ≠ 0) ∧ x.copied.idr_flag = 0) [
        item l (.val "dec_ref_base_pic_marking() { unimplemented }".toList)]]]]

/-- src/h264_slice_header_in_scalable_extension_parser.cc:852-879: from cabac_init_idc to slice_group_change_cycle. -/
def ScalHeader.dumpQp (x : ScalHeader) (l : Int) : Dump := cat [
  whenD (x.copied.entropy_coding_mode_flag ≠ 0 ∧ notEI x.slice_type) [fldU l "cabac_init_idc" x.qp.cabac_init_idc],
  fldIU l "slice_qp_delta" x.qp.slice_qp_delta,
  whenD (x.copied.deblocking_filter_control_present_flag ≠ 0) [
    fldU l "disable_deblocking_filter_idc" x.qp.disable_deblocking_filter_idc,
    whenD (x.qp.disable_deblocking_filter_idc ≠ 1) [
      fldIU l "slice_alpha_c0_offset_div2" x.qp.slice_alpha_c0_offset_div2,
      fldIU l "slice_beta_offset_div2" x.qp.slice_beta_offset_div2]],
  whenD (x.copied.num_slice_groups_minus1 > 0 ∧ x.copied.slice_group_map_type ≥ 3 ∧ x.copied.slice_group_map_type ≤ 5) [
    fldU l "slice_group_change_cycle" x.qp.slice_group_change_cycle]]

/-- src/h264_slice_header_in_scalable_extension_parser.cc:881-926: the reference layer. -/
def ScalHeader.dumpLayer (x : ScalHeader) (l : Int) : Dump := cat [
  fldU l "ref_layer_dq_id" x.layer.ref_layer_dq_id,
  whenD (x.copied.inter_layer_deblocking_filter_control_present_flag ≠ 0) [
    fldU l "disable_inter_layer_deblocking_filter_idc" x.layer.disable_inter_layer_deblocking_filter_idc,
    whenD (x.layer.disable_inter_layer_deblocking_filter_idc ≠ 1) [
      fldIU l "inter_layer_slice_alpha_c0_offset_div2" x.layer.inter_layer_slice_alpha_c0_offset_div2,
      fldIU l "inter_layer_slice_beta_offset_div2" x.layer.inter_layer_slice_beta_offset_div2]],
  fldU l "constrained_intra_resampling_flag" x.layer.constrained_intra_resampling_flag,
  whenD (x.copied.extended_spatial_scalability_idc = 2) [
    whenD (x.ChromaArrayType > 0) [
      fldU l "ref_layer_chroma_phase_x_plus1_flag" x.layer.ref_layer_chroma_phase_x_plus1_flag,
      fldU l "ref_layer_chroma_phase_y_plus1" x.layer.ref_layer_chroma_phase_y_plus1],
    fldIU l "scaled_ref_layer_left_offset" x.layer.scaled_ref_layer_left_offset,
    fldIU l "scaled_ref_layer_top_offset" x.layer.scaled_ref_layer_top_offset,
    fldIU l "scaled_ref_layer_right_offset" x.layer.scaled_ref_layer_right_offset,
    fldIU l "scaled_ref_layer_bottom_offset" x.layer.scaled_ref_layer_bottom_offset]]

/-- src/h264_slice_header_in_scalable_extension_parser.cc:928-968: the prediction modes. -/
def ScalHeader.dumpPred (x : ScalHeader) (l : Int) : Dump := cat [
  fldU l "slice_skip_flag" x.pred.slice_skip_flag,
  if x.pred.slice_skip_flag ≠ 0 then fldU l "num_mbs_in_slice_minus1" x.pred.num_mbs_in_slice_minus1
  else cat [
    fldU l "adaptive_base_mode_flag" x.pred.adaptive_base_mode_flag,
    whenD (x.pred.adaptive_base_mode_flag = 0) [fldU l "default_base_mode_flag" x.pred.default_base_mode_flag],
    whenD (x.pred.default_base_mode_flag = 0) [
      fldU l "adaptive_motion_prediction_flag" x.pred.adaptive_motion_prediction_flag,
      whenD (x.pred.adaptive_motion_prediction_flag = 0) [
        fldU l "default_motion_prediction_flag" x.pred.default_motion_prediction_flag]],
    fldU l "adaptive_residual_prediction_flag" x.pred.adaptive_residual_prediction_flag,
    whenD (x.pred.adaptive_residual_prediction_flag = 0) [
      fldU l "default_residual_prediction_flag" x.pred.default_residual_prediction_flag]],
  whenD (x.copied.adaptive_tcoeff_level_prediction_flag ≠ 0) [
    fldU l "tcoeff_level_prediction_flag" x.pred.tcoeff_level_prediction_flag]]

/-- `SliceHeaderInScalableExtensionState::fdump` (src/h264_slice_header_in_scalable_extension_parser.cc:722-980). -/
def ScalHeader.fdump (x : ScalHeader) (level : Int) : Dump :=
  block "slice_header_in_scalable_extension" level fun l => [
    fldU l "first_mb_in_slice" x.first_mb_in_slice,
    fldU l "slice_type" x.slice_type,
    fldU l "pic_parameter_set_id" x.pic_parameter_set_id,
    x.dumpPic l,
    whenD (x.copied.quality_id = 0) [x.dumpRef l],
    x.dumpQp l,
    whenD (x.copied.no_inter_layer_pred_flag = 0 ∧ x.copied.quality_id = 0) [x.dumpLayer l],
    whenD (x.copied.no_inter_layer_pred_flag = 0) [x.dumpPred l],
    whenD (x.copied.slice_header_restriction_flag = 0 ∧ x.pred.slice_skip_flag = 0) [
      fldU l "scan_idx_start" x.scan_idx_start,
      fldU l "scan_idx_end" x.scan_idx_end]]

/-- `SliceLayerWithoutPartitioningRbspState::fdump` (src/h264_slice_layer_without_partitioning_rbsp_parser.cc:73-88). -/
def SliceLayer.fdump (x : SliceLayer) (level : Int) : Dump :=
  block "slice_layer_without_partitioning_rbsp" level fun l => [item l (deref x.slice_header (·.fdump l))]

/-- `SliceLayerExtensionRbspState::fdump` (src/h264_slice_layer_extension_rbsp_parser.cc:90-119). -/
def SliceLayerExt.fdump (x : SliceLayerExt) (level : Int) : Dump :=
  block "slice_layer_extension_rbsp" level fun l => [
    if x.svc_extension_flag ≠ 0 then item l (checked x.slice_header_in_scalable_extension (·.fdump l))
    else if x.avc_3d_extension_flag ≠ 0 then .val []
    else item l (deref x.slice_header (·.fdump l))]

/-! ### NAL units -/

/-- `PrefixNalUnitSvcState::fdump` (src/h264_prefix_nal_unit_parser.cc:142-163).
`additional_prefix_nal_unit_extension_flag` is not written. -/
def PrefixSvc.fdump (x : PrefixSvc) (level : Int) : Dump :=
  block "prefix_nal_unit_svc" level fun l => [
    whenD (x.nal_ref_idc ≠ 0) [
      fldU l "store_ref_base_pic_flag" x.store_ref_base_pic_flag,
      fldU l "additional_prefix_nal_unit_extension_data_flag" x.additional_prefix_nal_unit_extension_data_flag]]

/-- `PrefixNalUnitRbspState::fdump` (src/h264_prefix_nal_unit_parser.cc:165-180). -/
def PrefixRbsp.fdump (x : PrefixRbsp) (level : Int) : Dump :=
  block "prefix_nal_unit_rbsp" level fun l => [
    whenD (x.svc_extension_flag ≠ 0) [checked x.prefix_nal_unit_svc fun s => item l (s.fdump l)]]

/-- `NalUnitPayloadState::fdump` (src/h264_nal_unit_payload_parser.cc:224-312). -/
def Payload.fdump (x : Payload) (level : Int) (nal_unit_type : Nat) (opts : ParsingOptions) : Dump :=
  block "nal_unit_payload" level fun l => [
    item l (
      if nal_unit_type = 1 ∨ nal_unit_type = 5 then checked x.slice_layer_without_partitioning_rbsp (·.fdump l)
      else if nal_unit_type = 7 then checked x.sps (dumpSps · l opts)
      else if nal_unit_type = 8 then checked x.pps (·.fdump l)
      else if nal_unit_type = 14 then checked x.prefix_nal_unit (·.fdump l)
      else if nal_unit_type = 15 then checked x.subset_sps (·.fdump l opts)
      else if nal_unit_type = 20 then checked x.slice_layer_extension_rbsp (·.fdump l)
      else .val [])]

/-- src/h264_nal_unit_parser.cc:117-121: `fprintf(outfp, "checksum: 0x%s", ...)` of a 64 byte array that
`NaluChecksum::fdump` has filled. -/
def dumpChecksum (ck : NaluChecksum) (l : Int) : Dump := do
  let printable ← checksumDump ck 64 ck.length 0 0 (List.replicate 64 0)
  let s ← cString printable
  fld l "checksum" ('0' :: 'x' :: s.map fun c => Char.ofNat c.toNat)

/-- `NalUnitState::fdump` (src/h264_nal_unit_parser.cc:92-135). -/
def NalUnit.fdump (x : NalUnit) (level : Int) (opts : ParsingOptions) : Dump :=
  block "nal_unit" level fun l => [
    whenD (opts.add_offset = true) [fld l "offset" (hex08 x.offset)],
    whenD (opts.add_length = true) [fldU l "length" x.length],
    whenD (opts.add_parsed_length = true) [fld l "parsed_length" (hex08 x.parsed_length)],
    whenD (opts.add_checksum = true) [deref x.checksum (dumpChecksum · l)],
    item l (x.nal_unit_header.fdump l),
    item l (x.nal_unit_payload.fdump l x.nal_unit_header.nal_unit_type opts)]

/-- `BitstreamState::fdump` (src/h264_bitstream_parser.cc:274-281): the options it is given are ignored, those stored in the
state are used. -/
def Bitstream.fdump (x : Bitstream) (level : Int) (_parsing_options : ParsingOptions) : Dump :=
  cat (x.nal_units.map fun n => cat [n.fdump level x.parsing_options, .val ['\n']])

/-! ### RTP -/

/-- `RtpSingleState::fdump` (src/h264_rtp_single_parser.cc:60-77). -/
def RtpSingle.fdump (x : RtpSingle) (level : Int) (opts : ParsingOptions) : Dump :=
  block "rtp_single" level fun l => [
    item l (x.nal_unit_header.fdump l),
    item l (x.nal_unit_payload.fdump l x.nal_unit_header.nal_unit_type opts)]

/-- `RtpStapAState::fdump` (src/h264_rtp_stapa_parser.cc:89-113). -/
def RtpStapA.fdump (x : RtpStapA) (level : Int) (opts : ParsingOptions) : Dump :=
  block "rtp_stapa" level fun l => [
    item l (x.header.fdump l),
    cat (x.nal_units.map fun n => cat [
      fldU l "nal_unit_size" n.1,
      item l (n.2.1.fdump l),
      item l (n.2.2.fdump l n.2.1.nal_unit_type opts)])]

/-- `RtpFuAState::fdump` (src/h264_rtp_fua_parser.cc:78-107). -/
def RtpFuA.fdump (x : RtpFuA) (level : Int) (opts : ParsingOptions) : Dump :=
  block "rtp_fua" level fun l => [
    item l (x.header.fdump l),
    fldU l "s_bit" x.s_bit,
    fldU l "e_bit" x.e_bit,
    fldU l "r_bit" x.r_bit,
    fldU l "fu_type" x.fu_type,
    whenD (x.s_bit = 1) [item l (deref x.nal_unit_payload (·.fdump l x.fu_type opts))]]

/-- `RtpState::fdump` (src/h264_rtp_parser.cc:78-100).  What follows the header is written without going to a new line. -/
def Rtp.fdump (x : Rtp) (level : Int) (opts : ParsingOptions) : Dump :=
  block "rtp" level fun l => [
    item l (x.nal_unit_header.fdump l),
    if x.nal_unit_header.nal_unit_type ≤ 23 then deref x.rtp_single (·.fdump l opts)
    else if x.nal_unit_header.nal_unit_type = 24 then deref x.rtp_stapa (·.fdump l opts)
    else if x.nal_unit_header.nal_unit_type = 28 then deref x.rtp_fua (·.fdump l opts)
    else .val []]

end H264

import Verif.Spec.Common
import Verif.Spec.Bytes
import Verif.Spec.Checksum
import Verif.Spec.Syntax7
import Verif.Model.Rtp

/-
Specification: what a dump shows, and how it can be read back.  For every structure, the members shown, in order, with the
condition under which each is shown (the one under which the syntax tables of H.264 say it is present).
-/

namespace H264.Shown

/-- What can be on a line of a dump. -/
inductive Item where
  /-- `name: value` -/
  | field (name : String) (value : List Char)
  /-- `name { value value }` -/
  | values (name : String) (vs : List (List Char))
  /-- `name { { value value } { value value } }` -/
  | rows (name : String) (vs : List (List (List Char)))
  /-- `name {`, one item per line, `}` -/
  | group (name : String) (items : List Item)
  /-- a group that starts where the previous line ends -/
  | joined (name : String) (items : List Item)
  /-- a line with nothing on it -/
  | blank

/-- The start of a line: at level -1 everything is on one line. -/
def newLine (level : Int) : List Char := if level = -1 then [' '] else '\n' :: List.replicate (2 * level.toNat) ' '

/-- The level inside a group. -/
def deeper (level : Int) : Int := if level = -1 then -1 else level + 1

/-- The values of an array, each after a space. -/
def spaced (vs : List (List Char)) : List Char := vs.flatMap (' ' :: ·)

mutual
/-- The text of an item at a level, without the start of its line. -/
def text : Int → Item → List Char
  | _, .field name value => name.toList ++ ": ".toList ++ value
  | _, .values name vs => name.toList ++ " {".toList ++ spaced vs ++ " }".toList
  | _, .rows name vs => name.toList ++ " {".toList ++ spaced (vs.map fun v => "{".toList ++ spaced v ++ " }".toList) ++ " }".toList
  | l, .group name items => name.toList ++ " {".toList ++ lines (deeper l) items ++ newLine l ++ "}".toList
  | l, .joined name items => name.toList ++ " {".toList ++ lines (deeper l) items ++ newLine l ++ "}".toList
  | _, .blank => []
/-- The text of items at a level. -/
def lines : Int → List Item → List Char
  | _, [] => []
  | l, .joined name items :: is => text l (.joined name items) ++ lines l is
  | l, .field name value :: is => newLine l ++ text l (.field name value) ++ lines l is
  | l, .values name vs :: is => newLine l ++ text l (.values name vs) ++ lines l is
  | l, .rows name vs :: is => newLine l ++ text l (.rows name vs) ++ lines l is
  | l, .group name items :: is => newLine l ++ text l (.group name items) ++ lines l is
  | l, .blank :: is => newLine l ++ text l .blank ++ lines l is
end

/-! ### Reading a dump back -/

/-- What is read: a field with the words of its value, a named or unnamed group, a word. -/
inductive Node where
  | field (name : List Char) (value : List (List Char))
  | group (name : List Char) (body : List Node)
  | braces (body : List Node)
  | word (w : List Char)

/-- The words of a text: braces are words, spaces and line breaks separate words.  First the word the text starts with. -/
def lexGo : List Char → List Char × List (List Char)
  | [] => ([], [])
  | c :: t =>
    let (w, ws) := lexGo t
    let rest := if w = [] then ws else w :: ws
    if c = ' ' ∨ c = '\n' then ([], rest)
    else if c = '{' ∨ c = '}' then ([], [c] :: rest)
    else (c :: w, ws)

/-- The words of a text. -/
def lex (t : List Char) : List (List Char) :=
  let (w, ws) := lexGo t
  if w = [] then ws else w :: ws

/-- The words at the front, and the rest. -/
def takeWords : List Node → List (List Char) × List Node
  | .word w :: ns => let (ws, rest) := takeWords ns; (w :: ws, rest)
  | ns => ([], ns)

/-- One word, with what is read to the right of it: the innermost open brace first. -/
def readWord (w : List Char) : List (List Node) → List (List Node)
  | frame :: frames =>
    if w = ['}'] then [] :: frame :: frames
    else if w = ['{'] then
      match frames with
      | outer :: frames => (.braces frame :: outer) :: frames
      | [] => []
    else if w.getLast? = some ':' then
      let (value, rest) := takeWords frame
      (.field w.dropLast value :: rest) :: frames
    else
      match frame with
      | .braces body :: rest => (.group w body :: rest) :: frames
      | _ => (.word w :: frame) :: frames
  | [] => []

/-- Reads a text from right to left. -/
def readBack (t : List Char) : Option (List Node) :=
  match (lex t).foldr readWord [[]] with
  | [ns] => some ns
  | _ => none

mutual
/-- What should be read from an item. -/
def node : Item → List Node
  | .field name value => [.field name.toList (lex value)]
  | .values name vs => [.group name.toList (vs.map .word)]
  | .rows name vs => [.group name.toList (vs.map fun v => .braces (v.map .word))]
  | .group name items => [.group name.toList (nodes items)]
  | .joined name items => [.group name.toList (nodes items)]
  | .blank => []
/-- What should be read from items. -/
def nodes : List Item → List Node
  | [] => []
  | i :: is => node i ++ nodes is
end

/-! ### Notation for the lists below -/

/-- A number. -/
def nat (name : String) (v : Nat) : List Item := [.field name (toString v).toList]
/-- A number that may be negative. -/
def int (name : String) (v : Int) : List Item := [.field name (toString v).toList]
/-- A number that may be negative but is shown modulo 2^32. -/
def mod32 (name : String) (v : Int) : List Item := [.field name (toString (v % 4294967296)).toList]
/-- Numbers. -/
def nats (name : String) (vs : List Nat) : List Item := [.values name (vs.map fun v => (toString v).toList)]
/-- Numbers that may be negative. -/
def ints (name : String) (vs : List Int) : List Item := [.values name (vs.map fun v => (toString v).toList)]
/-- Rows of numbers that may be negative. -/
def intRows (name : String) (vs : List (List Int)) : List Item :=
  [.rows name (vs.map fun v => v.map fun v => (toString v).toList)]
/-- Shown only under a condition. -/
def opt (c : Prop) [Decidable c] (is : List (List Item)) : List Item := if c then is.flatten else []
/-- A structure that may be missing. -/
def part {α : Type} (x : Option α) (f : α → Item) : List Item :=
  match x with
  | some a => [f a]
  | none => []
/-- A structure. -/
def struct (name : String) (is : List (List Item)) : Item := .group name is.flatten

/-! ### NAL unit header -/

def svcHeaderItem (x : SvcHeaderExt) : Item := struct "nal_unit_header_svc_extension" [
  nat "idr_flag" x.idr_flag,
  nat "priority_id" x.priority_id,
  nat "no_inter_layer_pred_flag" x.no_inter_layer_pred_flag,
  nat "dependency_id" x.dependency_id,
  nat "quality_id" x.quality_id,
  nat "temporal_id" x.temporal_id,
  nat "use_ref_base_pic_flag" x.use_ref_base_pic_flag,
  nat "discardable_flag" x.discardable_flag,
  nat "output_flag" x.output_flag,
  nat "reserved_three_2bits" x.reserved_three_2bits]

def headerItem (x : NalHeader) : Item := struct "nal_unit_header" [
  nat "forbidden_zero_bit" x.forbidden_zero_bit,
  nat "nal_ref_idc" x.nal_ref_idc,
  nat "nal_unit_type" x.nal_unit_type,
  opt (x.nal_unit_type = 14 ∨ x.nal_unit_type = 20) [
    nat "svc_extension_flag" x.svc_extension_flag,
    opt (x.svc_extension_flag = 1) [part x.svc_extension svcHeaderItem]],
  opt (x.nal_unit_type = 21) [nat "avc_3d_extension_flag" x.avc_3d_extension_flag]]

/-! ### Parameter sets -/

/-- cpb_size_scale is missing. -/
def hrdItem (x : Hrd) : Item := struct "hrd_parameters" [
  nat "cpb_cnt_minus1" x.cpb_cnt_minus1,
  nat "bit_rate_scale" x.bit_rate_scale,
  nats "bit_rate_value_minus1" x.bit_rate_value_minus1,
  nats "cpb_size_value_minus1" x.cpb_size_value_minus1,
  nats "cbr_flag" x.cbr_flag,
  nat "initial_cpb_removal_delay_length_minus1" x.initial_cpb_removal_delay_length_minus1,
  nat "cpb_removal_delay_length_minus1" x.cpb_removal_delay_length_minus1,
  nat "dpb_output_delay_length_minus1" x.dpb_output_delay_length_minus1,
  nat "time_offset_length" x.time_offset_length]

def vuiItem (x : Vui) : Item := struct "vui_parameters" [
  nat "aspect_ratio_info_present_flag" x.aspect_ratio_info_present_flag,
  opt (x.aspect_ratio_info_present_flag = 1) [
    nat "aspect_ratio_idc" x.aspect_ratio_idc,
    opt (x.aspect_ratio_idc = 255) [nat "sar_width" x.sar_width, nat "sar_height" x.sar_height]],
  nat "overscan_info_present_flag" x.overscan_info_present_flag,
  opt (x.overscan_info_present_flag = 1) [nat "overscan_appropriate_flag" x.overscan_appropriate_flag],
  nat "video_signal_type_present_flag" x.video_signal_type_present_flag,
  opt (x.video_signal_type_present_flag = 1) [
    nat "video_format" x.video_format,
    nat "video_full_range_flag" x.video_full_range_flag,
    nat "colour_description_present_flag" x.colour_description_present_flag,
    opt (x.colour_description_present_flag = 1) [
      nat "colour_primaries" x.colour_primaries,
      nat "transfer_characteristics" x.transfer_characteristics,
      nat "matrix_coefficients" x.matrix_coefficients]],
  nat "chroma_loc_info_present_flag" x.chroma_loc_info_present_flag,
  opt (x.chroma_loc_info_present_flag = 1) [
    nat "chroma_sample_loc_type_top_field" x.chroma_sample_loc_type_top_field,
    nat "chroma_sample_loc_type_bottom_field" x.chroma_sample_loc_type_bottom_field],
  nat "timing_info_present_flag" x.timing_info_present_flag,
  opt (x.timing_info_present_flag = 1) [
    nat "num_units_in_tick" x.num_units_in_tick,
    nat "time_scale" x.time_scale,
    nat "fixed_frame_rate_flag" x.fixed_frame_rate_flag],
  nat "nal_hrd_parameters_present_flag" x.nal_hrd_parameters_present_flag,
  opt (x.nal_hrd_parameters_present_flag = 1) [part x.nal_hrd_parameters hrdItem],
  nat "vcl_hrd_parameters_present_flag" x.vcl_hrd_parameters_present_flag,
  opt (x.vcl_hrd_parameters_present_flag = 1) [part x.vcl_hrd_parameters hrdItem],
  opt (x.nal_hrd_parameters_present_flag = 1 ∨ x.vcl_hrd_parameters_present_flag = 1) [
    nat "low_delay_hrd_flag" x.low_delay_hrd_flag],
  nat "pic_struct_present_flag" x.pic_struct_present_flag,
  nat "bitstream_restriction_flag" x.bitstream_restriction_flag,
  opt (x.bitstream_restriction_flag = 1) [
    nat "motion_vectors_over_pic_boundaries_flag" x.motion_vectors_over_pic_boundaries_flag,
    nat "max_bytes_per_pic_denom" x.max_bytes_per_pic_denom,
    nat "max_bits_per_mb_denom" x.max_bits_per_mb_denom,
    nat "log2_max_mv_length_horizontal" x.log2_max_mv_length_horizontal,
    nat "log2_max_mv_length_vertical" x.log2_max_mv_length_vertical,
    nat "max_num_reorder_frames" x.max_num_reorder_frames,
    nat "max_dec_frame_buffering" x.max_dec_frame_buffering]]

/-- The name of a profile in Annex A. -/
def profileName : ProfileType → String
  | .UNSPECIFIED => "Unspecified"
  | .BASELINE => "Baseline"
  | .CONSTRAINED_BASELINE => "Constrained Baseline"
  | .MAIN => "Main"
  | .EXTENDED => "Extended"
  | .HIGH => "High"
  | .PROGRESSIVE_HIGH => "Progressive High"
  | .CONSTRAINED_HIGH => "Constrained High"
  | .HIGH_10 => "High 10"
  | .PROGRESSIVE_HIGH_10 => "Progressive High 10"
  | .HIGH_10_INTRA => "High 10 Intra"
  | .HIGH_422 => "High 4:2:2"
  | .HIGH_422_INTRA => "High 4:2:2 Intra"
  | .HIGH_444 => "High 4:4:4"
  | .HIGH_444_INTRA => "High 4:4:4 Intra"
  | .HIGH_444_PRED => "High 4:4:4 Predictive"
  | .HIGH_444_PRED_INTRA => "High 4:4:4 Predictive Intra"
  | .CAVLC_444_INTRA => "CAVLC 4:4:4 Intra"

/-- For the profile see C54; width and height are those of the cropped picture (7-13 to 7-22). -/
def spsDataItem (opts : ParsingOptions) (x : SpsData) : Item := struct "sps_data" [
  nat "profile_idc" x.profile_idc,
  nat "constraint_set0_flag" x.constraint_set0_flag,
  nat "constraint_set1_flag" x.constraint_set1_flag,
  nat "constraint_set2_flag" x.constraint_set2_flag,
  nat "constraint_set3_flag" x.constraint_set3_flag,
  nat "constraint_set4_flag" x.constraint_set4_flag,
  nat "constraint_set5_flag" x.constraint_set5_flag,
  nat "reserved_zero_2bits" x.reserved_zero_2bits,
  [.field "profile" (profileName x.getProfileType).toList],
  nat "level_idc" x.level_idc,
  nat "seq_parameter_set_id" x.seq_parameter_set_id,
  opt (x.profile_idc ∈ chromaProfiles) [
    nat "chroma_format_idc" x.chroma_format_idc,
    opt (x.chroma_format_idc = 3) [nat "separate_colour_plane_flag" x.separate_colour_plane_flag],
    nat "bit_depth_luma_minus8" x.bit_depth_luma_minus8,
    nat "bit_depth_chroma_minus8" x.bit_depth_chroma_minus8,
    nat "qpprime_y_zero_transform_bypass_flag" x.qpprime_y_zero_transform_bypass_flag,
    nat "seq_scaling_matrix_present_flag" x.seq_scaling_matrix_present_flag,
    nats "seq_scaling_list_present_flag" x.scaling_list_present_flag,
    nats "ScalingList4x4" x.ScalingList4x4,
    nats "UseDefaultScalingMatrix4x4Flag" x.UseDefaultScalingMatrix4x4Flag,
    nats "ScalingList8x8" x.ScalingList8x8,
    nats "UseDefaultScalingMatrix8x8Flag" [],
    int "delta_scale" x.delta_scale],
  nat "log2_max_frame_num_minus4" x.log2_max_frame_num_minus4,
  nat "pic_order_cnt_type" x.pic_order_cnt_type,
  opt (x.pic_order_cnt_type = 0) [nat "log2_max_pic_order_cnt_lsb_minus4" x.log2_max_pic_order_cnt_lsb_minus4],
  opt (x.pic_order_cnt_type = 1) [
    nat "delta_pic_order_always_zero_flag" x.delta_pic_order_always_zero_flag,
    int "offset_for_non_ref_pic" x.offset_for_non_ref_pic,
    int "offset_for_top_to_bottom_field" x.offset_for_top_to_bottom_field,
    nat "num_ref_frames_in_pic_order_cnt_cycle" x.num_ref_frames_in_pic_order_cnt_cycle,
    ints "offset_for_ref_frame" x.offset_for_ref_frame],
  nat "max_num_ref_frames" x.max_num_ref_frames,
  nat "gaps_in_frame_num_value_allowed_flag" x.gaps_in_frame_num_value_allowed_flag,
  nat "pic_width_in_mbs_minus1" x.pic_width_in_mbs_minus1,
  nat "pic_height_in_map_units_minus1" x.pic_height_in_map_units_minus1,
  nat "frame_mbs_only_flag" x.frame_mbs_only_flag,
  opt (x.frame_mbs_only_flag = 0) [nat "mb_adaptive_frame_field_flag" x.mb_adaptive_frame_field_flag],
  nat "direct_8x8_inference_flag" x.direct_8x8_inference_flag,
  nat "frame_cropping_flag" x.frame_cropping_flag,
  opt (x.frame_cropping_flag = 1) [
    nat "frame_crop_left_offset" x.frame_crop_left_offset,
    nat "frame_crop_right_offset" x.frame_crop_right_offset,
    nat "frame_crop_top_offset" x.frame_crop_top_offset,
    nat "frame_crop_bottom_offset" x.frame_crop_bottom_offset],
  nat "vui_parameters_present_flag" x.vui_parameters_present_flag,
  opt (x.vui_parameters_present_flag = 1) [part x.vui_parameters vuiItem],
  opt (opts.add_resolution = true) [
    nat "width" (picWidth x.toSpsTail - cropX x.toSpsHead x.toSpsTail),
    nat "height" (frameHeight x.toSpsTail - cropY x.toSpsHead x.toSpsTail)]]

def spsItem (opts : ParsingOptions) (x : SpsData) : Item := struct "sps" [[spsDataItem opts x]]

def ppsItem (x : Pps) : Item := struct "pps" [
  nat "pic_parameter_set_id" x.pic_parameter_set_id,
  nat "seq_parameter_set_id" x.seq_parameter_set_id,
  nat "entropy_coding_mode_flag" x.entropy_coding_mode_flag,
  nat "bottom_field_pic_order_in_frame_present_flag" x.bottom_field_pic_order_in_frame_present_flag,
  nat "num_slice_groups_minus1" x.num_slice_groups_minus1,
  opt (x.num_slice_groups_minus1 > 0) [
    nat "slice_group_map_type" x.slice_group_map_type,
    opt (x.slice_group_map_type = 0) [nats "run_length_minus1" x.run_length_minus1],
    opt (x.slice_group_map_type = 2) [nats "top_left" x.top_left, nats "bottom_right" x.bottom_right],
    opt (3 ≤ x.slice_group_map_type ∧ x.slice_group_map_type ≤ 5) [
      nat "slice_group_change_direction_flag" x.slice_group_change_direction_flag,
      nat "slice_group_change_rate_minus1" x.slice_group_change_rate_minus1],
    opt (x.slice_group_map_type = 6) [
      nat "pic_size_in_map_units_minus1" x.pic_size_in_map_units_minus1,
      nats "slice_group_id" x.slice_group_id]],
  nat "num_ref_idx_l0_default_active_minus1" x.num_ref_idx_l0_default_active_minus1,
  nat "num_ref_idx_l1_default_active_minus1" x.num_ref_idx_l1_default_active_minus1,
  nat "weighted_pred_flag" x.weighted_pred_flag,
  nat "weighted_bipred_idc" x.weighted_bipred_idc,
  int "pic_init_qp_minus26" x.pic_init_qp_minus26,
  int "pic_init_qs_minus26" x.pic_init_qs_minus26,
  int "chroma_qp_index_offset" x.chroma_qp_index_offset,
  nat "deblocking_filter_control_present_flag" x.deblocking_filter_control_present_flag,
  nat "constrained_intra_pred_flag" x.constrained_intra_pred_flag,
  nat "redundant_pic_cnt_present_flag" x.redundant_pic_cnt_present_flag,
  nat "transform_8x8_mode_flag" x.transform_8x8_mode_flag,
  nat "pic_scaling_matrix_present_flag" x.pic_scaling_matrix_present_flag,
  nats "pic_scaling_list_present_flag" x.scaling_list_present_flag,
  nats "ScalingList4x4" x.ScalingList4x4,
  nats "UseDefaultScalingMatrix4x4Flag" x.UseDefaultScalingMatrix4x4Flag,
  nats "ScalingList8x8" x.ScalingList8x8,
  nats "UseDefaultScalingMatrix8x8Flag" [],
  int "delta_scale" x.delta_scale,
  int "second_chroma_qp_index_offset" x.second_chroma_qp_index_offset]

/-- `cat` is the ChromaArrayType of the SPS data.  The offsets are signed but shown modulo 2^32. -/
def spsSvcItem (cat : Nat) (x : SpsSvcExt) : Item := struct "seq_parameter_set_svc_extension" [
  nat "inter_layer_deblocking_filter_control_present_flag" x.inter_layer_deblocking_filter_control_present_flag,
  nat "extended_spatial_scalability_idc" x.extended_spatial_scalability_idc,
  opt (cat = 1 ∨ cat = 2) [nat "chroma_phase_x_plus1_flag" x.chroma_phase_x_plus1_flag],
  opt (cat = 1) [nat "chroma_phase_y_plus1" x.chroma_phase_y_plus1],
  opt (x.extended_spatial_scalability_idc = 1) [
    opt (cat > 0) [
      nat "seq_ref_layer_chroma_phase_x_plus1_flag" x.seq_ref_layer_chroma_phase_x_plus1_flag,
      nat "seq_ref_layer_chroma_phase_y_plus1" x.seq_ref_layer_chroma_phase_y_plus1],
    mod32 "seq_scaled_ref_layer_left_offset" x.seq_scaled_ref_layer_left_offset,
    mod32 "seq_scaled_ref_layer_top_offset" x.seq_scaled_ref_layer_top_offset,
    mod32 "seq_scaled_ref_layer_right_offset" x.seq_scaled_ref_layer_right_offset,
    mod32 "seq_scaled_ref_layer_bottom_offset" x.seq_scaled_ref_layer_bottom_offset],
  nat "seq_tcoeff_level_prediction_flag" x.seq_tcoeff_level_prediction_flag,
  opt (x.seq_tcoeff_level_prediction_flag = 1) [
    nat "adaptive_tcoeff_level_prediction_flag" x.adaptive_tcoeff_level_prediction_flag],
  nat "slice_header_restriction_flag" x.slice_header_restriction_flag]

def subsetSpsItem (opts : ParsingOptions) (x : SubsetSps) : Item := struct "subset_sps" [
  [spsDataItem opts x.seq_parameter_set_data],
  opt (x.seq_parameter_set_data.profile_idc ∈ [83, 86]) [
    part x.seq_parameter_set_svc_extension (spsSvcItem (chromaArrayType x.seq_parameter_set_data.toSpsHead)),
    nat "svc_vui_parameters_present_flag" x.svc_vui_parameters_present_flag],
  opt (x.seq_parameter_set_data.profile_idc ∈ [118, 128, 134, 135, 138, 139]) [nat "bit_equal_to_one" x.bit_equal_to_one],
  opt (x.seq_parameter_set_data.profile_idc ∈ [118, 128, 134]) [
    nat "mvc_vui_parameters_present_flag" x.mvc_vui_parameters_present_flag],
  nat "additional_extension2_flag" x.additional_extension2_flag,
  opt (x.additional_extension2_flag = 1) [nat "additional_extension2_data_flag" x.additional_extension2_data_flag]]

/-! ### Slices -/

/-- Both flags are shown for every slice type, the arrays only if they are not empty. -/
def modItem (x : RefPicListMod) : Item := struct "ref_pic_list_modification" [
  nat "ref_pic_list_modification_flag_l0" x.ref_pic_list_modification_flag_l0,
  nat "ref_pic_list_modification_flag_l1" x.ref_pic_list_modification_flag_l1,
  opt (x.modification_of_pic_nums_idc ≠ []) [nats "modification_of_pic_nums_idc" x.modification_of_pic_nums_idc],
  opt (x.abs_diff_pic_num_minus1 ≠ []) [nats "abs_diff_pic_num_minus1" x.abs_diff_pic_num_minus1],
  opt (x.long_term_pic_num ≠ []) [nats "long_term_pic_num" x.long_term_pic_num]]

/-- `idr` is IdrPicFlag. -/
def markingItem (idr : Nat) (x : DecRefPicMarking) : Item := struct "dec_ref_pic_marking" [
  opt (idr ≠ 0) [
    nat "no_output_of_prior_pics_flag" x.no_output_of_prior_pics_flag,
    nat "long_term_reference_flag" x.long_term_reference_flag],
  opt (idr = 0) [
    nat "adaptive_ref_pic_marking_mode_flag" x.adaptive_ref_pic_marking_mode_flag,
    opt (x.adaptive_ref_pic_marking_mode_flag = 1) [
      nats "memory_management_control_operation" x.memory_management_control_operation,
      nats "difference_of_pic_nums_minus1" x.difference_of_pic_nums_minus1,
      nats "long_term_pic_num" x.long_term_pic_num,
      nats "long_term_frame_idx" x.long_term_frame_idx,
      nats "max_long_term_frame_idx_plus1" x.max_long_term_frame_idx_plus1]]]

/-- The weights of a reference list that are coded: those whose flag is 1. -/
def lumaCoded (ws : List Weight) : List Weight := ws.filter (fun w => decide (w.luma_weight_flag ≠ 0))
/-- The same for chroma. -/
def chromaCoded (ws : List Weight) : List Weight := ws.filter (fun w => decide (w.chroma_weight_flag ≠ 0))

/-- `cat` is ChromaArrayType, `t` is slice_type. -/
def weightsItem (cat t : Nat) (x : PredWeightTable) : Item := struct "pred_weight_table" [
  nat "luma_log2_weight_denom" x.luma_log2_weight_denom,
  opt (cat ≠ 0) [nat "chroma_log2_weight_denom" x.chroma_log2_weight_denom],
  nats "luma_weight_l0_flag" (x.l0.map (·.luma_weight_flag)),
  ints "luma_weight_l0" ((lumaCoded x.l0).map (·.luma_weight)),
  ints "luma_offset_l0" ((lumaCoded x.l0).map (·.luma_offset)),
  opt (cat ≠ 0) [
    nats "chroma_weight_l0_flag" (x.l0.map (·.chroma_weight_flag)),
    intRows "chroma_weight_l0" ((chromaCoded x.l0).map fun w => [w.chroma_weight_0, w.chroma_weight_1]),
    intRows "chroma_offset_l0" ((chromaCoded x.l0).map fun w => [w.chroma_offset_0, w.chroma_offset_1])],
  opt (t % 5 = 1) [
    nats "luma_weight_l1_flag" (x.l1.map (·.luma_weight_flag)),
    ints "luma_weight_l1" ((lumaCoded x.l1).map (·.luma_weight)),
    ints "luma_offset_l1" ((lumaCoded x.l1).map (·.luma_offset)),
    opt (cat ≠ 0) [
      nats "chroma_weight_l1_flag" (x.l1.map (·.chroma_weight_flag)),
      intRows "chroma_weight_l1" ((chromaCoded x.l1).map fun w => [w.chroma_weight_0, w.chroma_weight_1]),
      intRows "chroma_offset_l1" ((chromaCoded x.l1).map fun w => [w.chroma_offset_0, w.chroma_offset_1])]]]

/-- slice_header() in a NAL unit with this nal_ref_idc and nal_unit_type that refers to PPS `p` and SPS `s`.  The two
deblocking offsets are signed but shown modulo 2^32. -/
def sliceHeaderItem (ref type : Nat) (s : SpsData) (p : Pps) (x : SliceHeader) : Item := struct "slice_header" [
  nat "first_mb_in_slice" x.first_mb_in_slice,
  nat "slice_type" x.slice_type,
  nat "pic_parameter_set_id" x.pic_parameter_set_id,
  opt (s.separate_colour_plane_flag = 1) [nat "colour_plane_id" x.colour_plane_id],
  nat "frame_num" x.frame_num,
  opt (s.frame_mbs_only_flag = 0) [
    nat "field_pic_flag" x.field_pic_flag,
    opt (x.field_pic_flag = 1) [nat "bottom_field_flag" x.bottom_field_flag]],
  opt (type = 5) [nat "idr_pic_id" x.idr_pic_id],
  opt (s.pic_order_cnt_type = 0) [
    nat "pic_order_cnt_lsb" x.pic_order_cnt_lsb,
    opt (p.bottom_field_pic_order_in_frame_present_flag = 1 ∧ x.field_pic_flag = 0) [
      int "delta_pic_order_cnt_bottom" x.delta_pic_order_cnt_bottom]],
  opt (s.pic_order_cnt_type = 1 ∧ s.delta_pic_order_always_zero_flag = 0) [
    ints "delta_pic_order_cnt" x.delta_pic_order_cnt],
  opt (p.redundant_pic_cnt_present_flag = 1) [nat "redundant_pic_cnt" x.redundant_pic_cnt],
  opt (x.slice_type % 5 = 1) [nat "direct_spatial_mv_pred_flag" x.direct_spatial_mv_pred_flag],
  opt (x.slice_type % 5 = 0 ∨ x.slice_type % 5 = 3 ∨ x.slice_type % 5 = 1) [
    nat "num_ref_idx_active_override_flag" x.num_ref_idx_active_override_flag,
    opt (x.num_ref_idx_active_override_flag = 1) [
      nat "num_ref_idx_l0_active_minus1" x.num_ref_idx_l0_active_minus1,
      opt (x.slice_type % 5 = 1) [nat "num_ref_idx_l1_active_minus1" x.num_ref_idx_l1_active_minus1]]],
  part x.ref_pic_list_modification modItem,
  opt (weightsPresent p x.slice_type) [
    part x.pred_weight_table (weightsItem (chromaArrayType s.toSpsHead) x.slice_type)],
  opt (ref ≠ 0) [part x.dec_ref_pic_marking (markingItem (if type = 5 then 1 else 0))],
  opt (p.entropy_coding_mode_flag = 1 ∧ x.slice_type % 5 ≠ 2 ∧ x.slice_type % 5 ≠ 4) [nat "cabac_init_idc" x.cabac_init_idc],
  int "slice_qp_delta" x.slice_qp_delta,
  opt (x.slice_type % 5 = 3 ∨ x.slice_type % 5 = 4) [
    opt (x.slice_type % 5 = 3) [nat "sp_for_switch_flag" x.sp_for_switch_flag],
    int "slice_qs_delta" x.slice_qs_delta],
  opt (p.deblocking_filter_control_present_flag = 1) [
    nat "disable_deblocking_filter_idc" x.disable_deblocking_filter_idc,
    opt (x.disable_deblocking_filter_idc ≠ 1) [
      mod32 "slice_alpha_c0_offset_div2" x.slice_alpha_c0_offset_div2,
      mod32 "slice_beta_offset_div2" x.slice_beta_offset_div2]],
  opt (changeCyclePresent p) [nat "slice_group_change_cycle" x.slice_group_change_cycle]]

/-- slice_header_in_scalable_extension() with what it refers to.  All signed members but those of delta_pic_order_cnt are
shown modulo 2^32. -/
def scalHeaderItem (c : ScalCtx) (x : ScalHeader) : Item := struct "slice_header_in_scalable_extension" [
  nat "first_mb_in_slice" x.first_mb_in_slice,
  nat "slice_type" x.slice_type,
  nat "pic_parameter_set_id" x.pic_parameter_set_id,
  opt (c.s.separate_colour_plane_flag = 1) [nat "colour_plane_id" x.pic.colour_plane_id],
  nat "frame_num" x.pic.frame_num,
  opt (c.s.frame_mbs_only_flag = 0) [
    nat "field_pic_flag" x.pic.field_pic_flag,
    opt (x.pic.field_pic_flag = 1) [nat "bottom_field_flag" x.pic.bottom_field_flag]],
  opt (c.n.idr_flag = 1) [nat "idr_pic_id" x.pic.idr_pic_id],
  opt (c.s.pic_order_cnt_type = 0) [
    nat "pic_order_cnt_lsb" x.pic.pic_order_cnt_lsb,
    opt (c.p.bottom_field_pic_order_in_frame_present_flag = 1 ∧ x.pic.field_pic_flag = 0) [
      mod32 "delta_pic_order_cnt_bottom" x.pic.delta_pic_order_cnt_bottom]],
  opt (c.s.pic_order_cnt_type = 1 ∧ c.s.delta_pic_order_always_zero_flag = 0) [
    ints "delta_pic_order_cnt" x.pic.delta_pic_order_cnt],
  opt (c.p.redundant_pic_cnt_present_flag = 1) [nat "redundant_pic_cnt" x.pic.redundant_pic_cnt],
  opt (c.n.quality_id = 0) [
    opt (x.slice_type % 5 = 1) [nat "direct_spatial_mv_pred_flag" x.ref.direct_spatial_mv_pred_flag],
    opt (x.slice_type % 5 = 0 ∨ x.slice_type % 5 = 1) [
      nat "num_ref_idx_active_override_flag" x.ref.num_ref_idx_active_override_flag,
      opt (x.ref.num_ref_idx_active_override_flag = 1) [
        nat "num_ref_idx_l0_active_minus1" x.ref.num_ref_idx_l0_active_minus1,
        opt (x.slice_type % 5 = 1) [nat "num_ref_idx_l1_active_minus1" x.ref.num_ref_idx_l1_active_minus1]]],
    part x.ref.ref_pic_list_modification modItem,
    opt (scalWeights c.p x.slice_type) [
      opt (c.n.no_inter_layer_pred_flag = 0) [nat "base_pred_weight_table_flag" x.ref.base_pred_weight_table_flag],
      opt (c.n.no_inter_layer_pred_flag = 1 ∨ x.ref.base_pred_weight_table_flag = 0) [
        part x.ref.pred_weight_table (weightsItem (chromaArrayType c.s.toSpsHead) x.slice_type)]],
    opt (c.nal_ref_idc ≠ 0) [
      part x.ref.dec_ref_pic_marking (markingItem c.n.idr_flag),
      opt (c.e.slice_header_restriction_flag = 0) [nat "store_ref_base_pic_flag" x.ref.store_ref_base_pic_flag]]],
  opt (c.p.entropy_coding_mode_flag = 1 ∧ x.slice_type % 5 ≠ 2) [nat "cabac_init_idc" x.qp.cabac_init_idc],
  mod32 "slice_qp_delta" x.qp.slice_qp_delta,
  opt (c.p.deblocking_filter_control_present_flag = 1) [
    nat "disable_deblocking_filter_idc" x.qp.disable_deblocking_filter_idc,
    opt (x.qp.disable_deblocking_filter_idc ≠ 1) [
      mod32 "slice_alpha_c0_offset_div2" x.qp.slice_alpha_c0_offset_div2,
      mod32 "slice_beta_offset_div2" x.qp.slice_beta_offset_div2]],
  opt (changeCyclePresent c.p) [nat "slice_group_change_cycle" x.qp.slice_group_change_cycle],
  opt (c.n.no_inter_layer_pred_flag = 0 ∧ c.n.quality_id = 0) [
    nat "ref_layer_dq_id" x.layer.ref_layer_dq_id,
    opt (c.e.inter_layer_deblocking_filter_control_present_flag = 1) [
      nat "disable_inter_layer_deblocking_filter_idc" x.layer.disable_inter_layer_deblocking_filter_idc,
      opt (x.layer.disable_inter_layer_deblocking_filter_idc ≠ 1) [
        mod32 "inter_layer_slice_alpha_c0_offset_div2" x.layer.inter_layer_slice_alpha_c0_offset_div2,
        mod32 "inter_layer_slice_beta_offset_div2" x.layer.inter_layer_slice_beta_offset_div2]],
    nat "constrained_intra_resampling_flag" x.layer.constrained_intra_resampling_flag,
    opt (c.e.extended_spatial_scalability_idc = 2) [
      opt (chromaArrayType c.s.toSpsHead > 0) [
        nat "ref_layer_chroma_phase_x_plus1_flag" x.layer.ref_layer_chroma_phase_x_plus1_flag,
        nat "ref_layer_chroma_phase_y_plus1" x.layer.ref_layer_chroma_phase_y_plus1],
      mod32 "scaled_ref_layer_left_offset" x.layer.scaled_ref_layer_left_offset,
      mod32 "scaled_ref_layer_top_offset" x.layer.scaled_ref_layer_top_offset,
      mod32 "scaled_ref_layer_right_offset" x.layer.scaled_ref_layer_right_offset,
      mod32 "scaled_ref_layer_bottom_offset" x.layer.scaled_ref_layer_bottom_offset]],
  opt (c.n.no_inter_layer_pred_flag = 0) [
    nat "slice_skip_flag" x.pred.slice_skip_flag,
    opt (x.pred.slice_skip_flag = 1) [nat "num_mbs_in_slice_minus1" x.pred.num_mbs_in_slice_minus1],
    opt (x.pred.slice_skip_flag = 0) [
      nat "adaptive_base_mode_flag" x.pred.adaptive_base_mode_flag,
      opt (x.pred.adaptive_base_mode_flag = 0) [nat "default_base_mode_flag" x.pred.default_base_mode_flag],
      opt (x.pred.default_base_mode_flag = 0) [
        nat "adaptive_motion_prediction_flag" x.pred.adaptive_motion_prediction_flag,
        opt (x.pred.adaptive_motion_prediction_flag = 0) [
          nat "default_motion_prediction_flag" x.pred.default_motion_prediction_flag]],
      nat "adaptive_residual_prediction_flag" x.pred.adaptive_residual_prediction_flag,
      opt (x.pred.adaptive_residual_prediction_flag = 0) [
        nat "default_residual_prediction_flag" x.pred.default_residual_prediction_flag]],
    opt (c.e.adaptive_tcoeff_level_prediction_flag = 1) [
      nat "tcoeff_level_prediction_flag" x.pred.tcoeff_level_prediction_flag]],
  opt (c.e.slice_header_restriction_flag = 0 ∧ x.pred.slice_skip_flag = 0) [
    nat "scan_idx_start" x.scan_idx_start,
    nat "scan_idx_end" x.scan_idx_end]]

/-- The PPS a slice header names and the SPS that PPS names. -/
def setsOf (σ : Store) (id : Nat) : Option (SpsData × Pps) := do
  let p ← σ.pps id
  let s ← σ.sps p.seq_parameter_set_id
  pure (s, p)

/-- A slice header under NAL unit header `n`, relative to the parameter sets stored at that point. -/
def sliceHeaderIn (σ : Store) (n : NalHeader) (x : SliceHeader) : List Item :=
  part (setsOf σ x.pic_parameter_set_id) fun (s, p) => sliceHeaderItem n.nal_ref_idc n.nal_unit_type s p x

/-- What a scalable slice header under NAL unit header `n` refers to. -/
def ctxOf (σ : Store) (n : NalHeader) (id : Nat) : Option ScalCtx := do
  let p ← σ.pps id
  let ss ← σ.subset_sps p.seq_parameter_set_id
  let e ← ss.seq_parameter_set_svc_extension
  let svc ← n.svc_extension
  pure { nal_ref_idc := n.nal_ref_idc, nal_unit_type := n.nal_unit_type, s := ss.seq_parameter_set_data, p := p, e := e, n := svc }

/-- A scalable slice header under NAL unit header `n`. -/
def scalHeaderIn (σ : Store) (n : NalHeader) (x : ScalHeader) : List Item :=
  part (ctxOf σ n x.pic_parameter_set_id) fun c => scalHeaderItem c x

def sliceLayerItem (σ : Store) (n : NalHeader) (x : SliceLayer) : Item := struct "slice_layer_without_partitioning_rbsp" [
  match x.slice_header with
  | some h => sliceHeaderIn σ n h
  | none => []]

/-- A scalable slice whose header could not be parsed leaves a line with nothing on it. -/
def sliceLayerExtItem (σ : Store) (n : NalHeader) (x : SliceLayerExt) : Item := struct "slice_layer_extension_rbsp" [
  opt (x.svc_extension_flag = 1) [
    match x.slice_header_in_scalable_extension with
    | some h => scalHeaderIn σ n h
    | none => [.blank]],
  opt (x.svc_extension_flag = 0 ∧ x.avc_3d_extension_flag = 0) [
    match x.slice_header with
    | some h => sliceHeaderIn σ n h
    | none => []]]

/-! ### NAL units -/

/-- additional_prefix_nal_unit_extension_flag is missing. -/
def prefixSvcItem (x : PrefixSvc) : Item := struct "prefix_nal_unit_svc" [
  opt (x.nal_ref_idc ≠ 0) [
    nat "store_ref_base_pic_flag" x.store_ref_base_pic_flag,
    nat "additional_prefix_nal_unit_extension_data_flag" x.additional_prefix_nal_unit_extension_data_flag]]

def prefixItem (x : PrefixRbsp) : Item := struct "prefix_nal_unit_rbsp" [
  opt (x.svc_extension_flag = 1) [part x.prefix_nal_unit_svc prefixSvcItem]]

/-- The only line of a payload: a structure, or nothing if there is none for the type or it could not be parsed. -/
def line {α : Type} (x : Option α) (f : α → Item) : List Item :=
  match x with
  | some a => [f a]
  | none => [.blank]

/-- The payload of a NAL unit with header `n`. -/
def payloadItem (σ : Store) (opts : ParsingOptions) (n : NalHeader) (x : Payload) : Item := struct "nal_unit_payload" [
  if n.nal_unit_type ∈ [1, 5] then line x.slice_layer_without_partitioning_rbsp (sliceLayerItem σ n)
  else if n.nal_unit_type = 7 then line x.sps (spsItem opts)
  else if n.nal_unit_type = 8 then line x.pps ppsItem
  else if n.nal_unit_type = 14 then line x.prefix_nal_unit prefixItem
  else if n.nal_unit_type = 15 then line x.subset_sps (subsetSpsItem opts)
  else if n.nal_unit_type = 20 then line x.slice_layer_extension_rbsp (sliceLayerExtItem σ n)
  else [.blank]]

/-- The parameter sets stored after a NAL unit with this payload. -/
def stored (σ : Store) (p : Payload) : Store where
  sps k := match p.sps with
    | some x => if k = x.seq_parameter_set_id then some x else σ.sps k
    | none => σ.sps k
  pps k := match p.pps with
    | some x => if k = x.pic_parameter_set_id then some x else σ.pps k
    | none => σ.pps k
  subset_sps k := match p.subset_sps with
    | some x => if k = x.seq_parameter_set_data.seq_parameter_set_id then some x else σ.subset_sps k
    | none => σ.subset_sps k

/-- At least eight hexadecimal digits. -/
def hex (v : Nat) : List Char := "0x".toList ++ List.leftpad 8 '0' (Nat.toDigits 16 v)

/-- A NAL unit; `bytes` are those the checksum is of, that is, the unescaped NAL unit. -/
def nalUnitItem (σ : Store) (opts : ParsingOptions) (bytes : List UInt8) (x : NalUnit) : Item := struct "nal_unit" [
  opt (opts.add_offset = true) [[.field "offset" (hex x.offset)]],
  opt (opts.add_length = true) [nat "length" x.length],
  opt (opts.add_parsed_length = true) [[.field "parsed_length" (hex x.parsed_length)]],
  opt (opts.add_checksum = true) [[.field "checksum" ("0x".toList ++ Spec.hex8 (Spec.checksum64 bytes))]],
  [headerItem x.nal_unit_header],
  [payloadItem σ opts x.nal_unit_header x.nal_unit_payload]]

/-- NAL units one after another, each relative to the parameter sets stored by those before it; `bytes` gives the unescaped
bytes of each. -/
def nalUnitItems (opts : ParsingOptions) (bytes : NalUnit → List UInt8) : Store → List NalUnit → List Item
  | _, [] => []
  | σ, n :: ns => nalUnitItem σ opts (bytes n) n :: nalUnitItems opts bytes (stored σ n.nal_unit_payload) ns

/-- Their text: each is followed by a line break. -/
def unitsText (opts : ParsingOptions) (bytes : NalUnit → List UInt8) (l : Int) (σ : Store) (ns : List NalUnit) : List Char :=
  (nalUnitItems opts bytes σ ns).flatMap fun i => text l i ++ ['\n']

/-- The unescaped bytes of a NAL unit of a byte stream. -/
def bytesIn (data : List UInt8) (n : NalUnit) : List UInt8 := Spec.withoutEmulation ((data.drop n.offset).take n.length)

/-- The unescaped bytes of a NAL unit that follows its size in `k` bytes, or that is the whole of the data. -/
def bytesAfterSize (data : List UInt8) (k : Nat) (n : NalUnit) : List UInt8 :=
  if k = 0 then Spec.withoutEmulation data
  else Spec.withoutEmulation ((data.drop n.offset).take (Spec.ofBE ((data.drop (n.offset - k)).take k) % 2 ^ 64))

/-! ### RTP -/

def rtpSingleItem (σ : Store) (opts : ParsingOptions) (x : RtpSingle) : Item := struct "rtp_single" [
  [headerItem x.nal_unit_header],
  [payloadItem σ opts x.nal_unit_header x.nal_unit_payload]]

/-- The NAL units of an aggregation packet, each relative to the parameter sets stored by those before it. -/
def stapAItems (opts : ParsingOptions) : Store → List (Nat × NalHeader × Payload) → List Item
  | _, [] => []
  | σ, (size, h, p) :: us =>
    nat "nal_unit_size" size ++ [headerItem h, payloadItem σ opts h p] ++ stapAItems opts (stored σ p) us

def stapAItem (σ : Store) (opts : ParsingOptions) (x : RtpStapA) : Item := struct "rtp_stapa" [
  [headerItem x.header],
  stapAItems opts σ x.nal_units]

/-- The NAL unit header a fragmented NAL unit had, as far as it is used. -/
def fuHeader (ref : Nat) (x : RtpFuA) : NalHeader :=
  { forbidden_zero_bit := 0, nal_ref_idc := ref, nal_unit_type := x.fu_type, svc_extension_flag := 0, avc_3d_extension_flag := 0,
    svc_extension := none }

/-- `ref` is the nal_ref_idc of the packet. -/
def fuAItem (σ : Store) (opts : ParsingOptions) (ref : Nat) (x : RtpFuA) : Item := struct "rtp_fua" [
  [headerItem x.header],
  nat "s_bit" x.s_bit,
  nat "e_bit" x.e_bit,
  nat "r_bit" x.r_bit,
  nat "fu_type" x.fu_type,
  opt (x.s_bit = 1) [part x.nal_unit_payload (payloadItem σ opts (fuHeader ref x))]]

/-- The same item, starting where the previous line ends. -/
def joinedTo : Item → Item
  | .group name items => .joined name items
  | i => i

/-- A packet of a type the library does not know is shown with its header only. -/
def rtpItem (σ : Store) (opts : ParsingOptions) (x : Rtp) : Item := struct "rtp" [
  [headerItem x.nal_unit_header],
  opt (x.nal_unit_header.nal_unit_type ≤ 23) [part x.rtp_single fun y => joinedTo (rtpSingleItem σ opts y)],
  opt (x.nal_unit_header.nal_unit_type = 24) [part x.rtp_stapa fun y => joinedTo (stapAItem σ opts y)],
  opt (x.nal_unit_header.nal_unit_type = 28) [
    part x.rtp_fua fun y => joinedTo (fuAItem σ opts x.nal_unit_header.nal_ref_idc y)]]

end H264.Shown

import Verif.Spec.Codes
import Verif.Types.Basic

/-
Specification: the H.264 syntax tables for the NAL unit header (7.3.1), its SVC extension (G.7.3.1.1),
hrd_parameters() (E.1.2) and vui_parameters() (E.1.1), written as encoders, with the value ranges of the semantics
clauses.  A field that is not present must have its default value.
-/

namespace H264

/-- nal_unit_header_svc_extension(). -/
def encSvcHeaderExt (e : SvcHeaderExt) : List Bool :=
  encU 1 e.idr_flag ++ encU 6 e.priority_id ++ encU 1 e.no_inter_layer_pred_flag ++ encU 3 e.dependency_id ++
  encU 4 e.quality_id ++ encU 3 e.temporal_id ++ encU 1 e.use_ref_base_pic_flag ++ encU 1 e.discardable_flag ++
  encU 1 e.output_flag ++ encU 2 e.reserved_three_2bits

/-- Each field fits its width. -/
structure SvcHeaderExt.Ok (e : SvcHeaderExt) : Prop where
  idr_flag : e.idr_flag < 2
  priority_id : e.priority_id < 64
  no_inter_layer_pred_flag : e.no_inter_layer_pred_flag < 2
  dependency_id : e.dependency_id < 8
  quality_id : e.quality_id < 16
  temporal_id : e.temporal_id < 8
  use_ref_base_pic_flag : e.use_ref_base_pic_flag < 2
  discardable_flag : e.discardable_flag < 2
  output_flag : e.output_flag < 2
  reserved_three_2bits : e.reserved_three_2bits < 4

/-- The header part of nal_unit() (7.3.1), for the structures the library implements: types 14 and 20 carry
svc_extension_flag = 1 and the SVC extension, all other types (but 21) one byte. -/
def encNalHeader (h : NalHeader) : List Bool :=
  encU 1 h.forbidden_zero_bit ++ encU 2 h.nal_ref_idc ++ encU 5 h.nal_unit_type ++
  (if h.nal_unit_type = 14 ∨ h.nal_unit_type = 20 then
    encU 1 h.svc_extension_flag ++ (match h.svc_extension with | some e => encSvcHeaderExt e | none => [])
   else [])

/-- Headers the library can return. -/
structure NalHeader.Ok (h : NalHeader) : Prop where
  forbidden_zero_bit : h.forbidden_zero_bit < 2
  nal_ref_idc : h.nal_ref_idc < 4
  nal_unit_type : h.nal_unit_type < 32
  not_3davc : h.nal_unit_type ≠ 21 ∧ h.avc_3d_extension_flag = 0
  ext : if h.nal_unit_type = 14 ∨ h.nal_unit_type = 20
        then h.svc_extension_flag = 1 ∧ ∃ e, h.svc_extension = some e ∧ e.Ok
        else h.svc_extension_flag = 0 ∧ h.svc_extension = none

/-- The loop over SchedSelIdx of hrd_parameters(). -/
def encHrdEntries : List Nat → List Nat → List Nat → List Bool
  | br :: brs, cs :: css, f :: fs => encUE br ++ encUE cs ++ encU 1 f ++ encHrdEntries brs css fs
  | _, _, _ => []

/-- hrd_parameters(), E.1.2. -/
def encHrd (h : Hrd) : List Bool :=
  encUE h.cpb_cnt_minus1 ++ encU 4 h.bit_rate_scale ++ encU 4 h.cpb_size_scale ++
  encHrdEntries h.bit_rate_value_minus1 h.cpb_size_value_minus1 h.cbr_flag ++
  encU 5 h.initial_cpb_removal_delay_length_minus1 ++ encU 5 h.cpb_removal_delay_length_minus1 ++
  encU 5 h.dpb_output_delay_length_minus1 ++ encU 5 h.time_offset_length

/-- E.2.2: ranges. -/
structure Hrd.Ok (h : Hrd) : Prop where
  cpb_cnt_minus1 : h.cpb_cnt_minus1 ≤ 31
  bit_rate_scale : h.bit_rate_scale < 16
  cpb_size_scale : h.cpb_size_scale < 16
  bit_rate_len : h.bit_rate_value_minus1.length = h.cpb_cnt_minus1 + 1
  cpb_size_len : h.cpb_size_value_minus1.length = h.cpb_cnt_minus1 + 1
  cbr_len : h.cbr_flag.length = h.cpb_cnt_minus1 + 1
  bit_rate : ∀ v ∈ h.bit_rate_value_minus1, v ≤ 2 ^ 32 - 2
  cpb_size : ∀ v ∈ h.cpb_size_value_minus1, v ≤ 2 ^ 32 - 2
  cbr : ∀ v ∈ h.cbr_flag, v < 2
  initial : h.initial_cpb_removal_delay_length_minus1 < 32
  removal : h.cpb_removal_delay_length_minus1 < 32
  output : h.dpb_output_delay_length_minus1 < 32
  time_offset : h.time_offset_length < 32

/-- `if (flag) { ... }` in a syntax table. -/
def encIf (c : Prop) [Decidable c] (l : List Bool) : List Bool := if c then l else []

/-- An optional sub-structure. -/
def encOpt {α : Type} (e : α → List Bool) : Option α → List Bool
  | some a => e a
  | none => []

/-- vui_parameters(), E.1.1. -/
def encVui (v : Vui) : List Bool :=
  encU 1 v.aspect_ratio_info_present_flag ++
  encIf (v.aspect_ratio_info_present_flag = 1)
    (encU 8 v.aspect_ratio_idc ++ encIf (v.aspect_ratio_idc = 255) (encU 16 v.sar_width ++ encU 16 v.sar_height)) ++
  encU 1 v.overscan_info_present_flag ++
  encIf (v.overscan_info_present_flag = 1) (encU 1 v.overscan_appropriate_flag) ++
  encU 1 v.video_signal_type_present_flag ++
  encIf (v.video_signal_type_present_flag = 1)
    (encU 3 v.video_format ++ encU 1 v.video_full_range_flag ++ encU 1 v.colour_description_present_flag ++
     encIf (v.colour_description_present_flag = 1)
       (encU 8 v.colour_primaries ++ encU 8 v.transfer_characteristics ++ encU 8 v.matrix_coefficients)) ++
  encU 1 v.chroma_loc_info_present_flag ++
  encIf (v.chroma_loc_info_present_flag = 1)
    (encUE v.chroma_sample_loc_type_top_field ++ encUE v.chroma_sample_loc_type_bottom_field) ++
  encU 1 v.timing_info_present_flag ++
  encIf (v.timing_info_present_flag = 1)
    (encU 32 v.num_units_in_tick ++ encU 32 v.time_scale ++ encU 1 v.fixed_frame_rate_flag) ++
  encU 1 v.nal_hrd_parameters_present_flag ++
  encIf (v.nal_hrd_parameters_present_flag = 1) (encOpt encHrd v.nal_hrd_parameters) ++
  encU 1 v.vcl_hrd_parameters_present_flag ++
  encIf (v.vcl_hrd_parameters_present_flag = 1) (encOpt encHrd v.vcl_hrd_parameters) ++
  encIf (v.nal_hrd_parameters_present_flag = 1 ∨ v.vcl_hrd_parameters_present_flag = 1)
    (encU 1 v.low_delay_hrd_flag) ++
  encU 1 v.pic_struct_present_flag ++
  encU 1 v.bitstream_restriction_flag ++
  encIf (v.bitstream_restriction_flag = 1)
    (encU 1 v.motion_vectors_over_pic_boundaries_flag ++ encUE v.max_bytes_per_pic_denom ++
     encUE v.max_bits_per_mb_denom ++ encUE v.log2_max_mv_length_horizontal ++
     encUE v.log2_max_mv_length_vertical ++ encUE v.max_num_reorder_frames ++ encUE v.max_dec_frame_buffering)

/-- E.2.1: ranges, and defaults of absent fields. -/
structure Vui.Ok (v : Vui) : Prop where
  aspect_flag : v.aspect_ratio_info_present_flag < 2
  aspect : if v.aspect_ratio_info_present_flag = 1 then v.aspect_ratio_idc < 256 else v.aspect_ratio_idc = 0
  sar : if v.aspect_ratio_info_present_flag = 1 ∧ v.aspect_ratio_idc = 255
        then v.sar_width < 2 ^ 16 ∧ v.sar_height < 2 ^ 16 else v.sar_width = 0 ∧ v.sar_height = 0
  overscan_flag : v.overscan_info_present_flag < 2
  overscan : if v.overscan_info_present_flag = 1 then v.overscan_appropriate_flag < 2
             else v.overscan_appropriate_flag = 0
  video_flag : v.video_signal_type_present_flag < 2
  video : if v.video_signal_type_present_flag = 1
          then v.video_format < 8 ∧ v.video_full_range_flag < 2 ∧ v.colour_description_present_flag < 2
          else v.video_format = 0 ∧ v.video_full_range_flag = 0 ∧ v.colour_description_present_flag = 0
  colour : if v.video_signal_type_present_flag = 1 ∧ v.colour_description_present_flag = 1
           then v.colour_primaries < 256 ∧ v.transfer_characteristics < 256 ∧ v.matrix_coefficients < 256
           else v.colour_primaries = 0 ∧ v.transfer_characteristics = 0 ∧ v.matrix_coefficients = 0
  chroma_flag : v.chroma_loc_info_present_flag < 2
  chroma : if v.chroma_loc_info_present_flag = 1
           then v.chroma_sample_loc_type_top_field ≤ 5 ∧ v.chroma_sample_loc_type_bottom_field ≤ 5
           else v.chroma_sample_loc_type_top_field = 0 ∧ v.chroma_sample_loc_type_bottom_field = 0
  timing_flag : v.timing_info_present_flag < 2
  timing : if v.timing_info_present_flag = 1
           then (1 ≤ v.num_units_in_tick ∧ v.num_units_in_tick < 2 ^ 32) ∧
                (1 ≤ v.time_scale ∧ v.time_scale < 2 ^ 32) ∧ v.fixed_frame_rate_flag < 2
           else v.num_units_in_tick = 0 ∧ v.time_scale = 0 ∧ v.fixed_frame_rate_flag = 0
  nal_hrd_flag : v.nal_hrd_parameters_present_flag < 2
  nal_hrd : if v.nal_hrd_parameters_present_flag = 1 then ∃ h, v.nal_hrd_parameters = some h ∧ h.Ok
            else v.nal_hrd_parameters = none
  vcl_hrd_flag : v.vcl_hrd_parameters_present_flag < 2
  vcl_hrd : if v.vcl_hrd_parameters_present_flag = 1 then ∃ h, v.vcl_hrd_parameters = some h ∧ h.Ok
            else v.vcl_hrd_parameters = none
  low_delay : if v.nal_hrd_parameters_present_flag = 1 ∨ v.vcl_hrd_parameters_present_flag = 1
              then v.low_delay_hrd_flag < 2 else v.low_delay_hrd_flag = 0
  pic_struct : v.pic_struct_present_flag < 2
  restriction_flag : v.bitstream_restriction_flag < 2
  restriction : if v.bitstream_restriction_flag = 1
    then v.motion_vectors_over_pic_boundaries_flag < 2 ∧ v.max_bytes_per_pic_denom ≤ 16 ∧
         v.max_bits_per_mb_denom ≤ 16 ∧ v.log2_max_mv_length_horizontal ≤ 16 ∧
         v.log2_max_mv_length_vertical ≤ 16 ∧ v.max_num_reorder_frames ≤ 16 ∧ v.max_dec_frame_buffering ≤ 16
    else v.motion_vectors_over_pic_boundaries_flag = 0 ∧ v.max_bytes_per_pic_denom = 0 ∧
         v.max_bits_per_mb_denom = 0 ∧ v.log2_max_mv_length_horizontal = 0 ∧
         v.log2_max_mv_length_vertical = 0 ∧ v.max_num_reorder_frames = 0 ∧ v.max_dec_frame_buffering = 0

end H264

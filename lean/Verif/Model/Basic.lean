import Verif.Logic
import Verif.Types.Basic

/-
Model of the NAL unit header, HRD and VUI parsers.
-/

namespace H264
open Prog

/-- `ReadExponentialGolomb` followed by `if (v < lo || v > hi) return nullptr;`, the library's range-check idiom. -/
def Prog.ueIn (lo hi : Nat) : Prog Nat := do
  let v ← Prog.ue
  Prog.guard (lo ≤ v ∧ v ≤ hi)
  pure v

/-- `if (c) { x = p; }` with `x` keeping its default `d` otherwise. -/
def Prog.opt {α : Type} (c : Prop) [Decidable c] (d : α) (p : Prog α) : Prog α := if c then p else pure d

/-- `ParseNalUnitHeaderSvcExtension` (src/h264_nal_unit_header_svc_extension_parser.cc:35-94). -/
def parseSvcHeaderExt : Prog SvcHeaderExt := do
  let idr_flag ← u 1
  let priority_id ← u 6
  let no_inter_layer_pred_flag ← u 1
  let dependency_id ← u 3
  let quality_id ← u 4
  let temporal_id ← u 3
  let use_ref_base_pic_flag ← u 1
  let discardable_flag ← u 1
  let output_flag ← u 1
  let reserved_three_2bits ← u 2
  pure { idr_flag, priority_id, no_inter_layer_pred_flag, dependency_id, quality_id, temporal_id,
         use_ref_base_pic_flag, discardable_flag, output_flag, reserved_three_2bits }

/-- The two flags of src/h264_nal_unit_header_parser.cc:69-80: (svc_extension_flag, avc_3d_extension_flag). -/
def parseExtFlags (nal_unit_type : Nat) : Prog (Nat × Nat) :=
  if nal_unit_type ≠ 21 then do let f ← u 1; pure (f, 0)
  else do let f ← u 1; pure (0, f)

/-- src/h264_nal_unit_header_parser.cc:88-110: the extension structure, given the two flags. -/
def parseExtBody (flags : Nat × Nat) : Prog (Option SvcHeaderExt) :=
  if flags.1 ≠ 0 then do
    let e ← parseSvcHeaderExt
    pure (some e)
  else if flags.2 ≠ 0 then do
    unimpl
    .null
  else do
    unimpl
    .null

/-- `ParseNalUnitHeader(BitBuffer*)` (src/h264_nal_unit_header_parser.cc:44-114). -/
def parseNalHeader : Prog NalHeader := do
  let forbidden_zero_bit ← u 1
  let nal_ref_idc ← u 2
  let nal_unit_type ← u 5
  let ext ← opt (nal_unit_type = 14 ∨ nal_unit_type = 20 ∨ nal_unit_type = 21) ((0, 0), none) do
    let flags ← parseExtFlags nal_unit_type
    let e ← parseExtBody flags
    pure (flags, e)
  pure { forbidden_zero_bit, nal_ref_idc, nal_unit_type, svc_extension_flag := ext.1.1,
         avc_3d_extension_flag := ext.1.2, svc_extension := ext.2 }

/-- The loop body of src/h264_hrd_parameters_parser.cc:69-85: (bit_rate_value_minus1, cpb_size_value_minus1, cbr_flag). -/
def parseHrdEntry : Prog (Nat × Nat × Nat) := do
  let br ← ue
  let cs ← ue
  let cbr ← u 1
  pure (br, cs, cbr)

/-- `ParseHrdParameters(BitBuffer*)` (src/h264_hrd_parameters_parser.cc:31-112). -/
def parseHrd : Prog Hrd := do
  let cpb_cnt_minus1 ← ueIn 0 31
  let bit_rate_scale ← u 4
  let cpb_size_scale ← u 4
  let es ← parseHrdEntry.rep (cpb_cnt_minus1 + 1)
  let initial_cpb_removal_delay_length_minus1 ← u 5
  let cpb_removal_delay_length_minus1 ← u 5
  let dpb_output_delay_length_minus1 ← u 5
  let time_offset_length ← u 5
  pure { cpb_cnt_minus1, bit_rate_scale, cpb_size_scale, bit_rate_value_minus1 := es.map (fun e => e.1),
         cpb_size_value_minus1 := es.map (fun e => e.2.1), cbr_flag := es.map (fun e => e.2.2),
         initial_cpb_removal_delay_length_minus1, cpb_removal_delay_length_minus1,
         dpb_output_delay_length_minus1, time_offset_length }

/-- src/h264_vui_parameters_parser.cc:48-57: (sar_width, sar_height). -/
def parseSar (aspect_ratio_idc : Nat) : Prog (Nat × Nat) := opt (aspect_ratio_idc = 255) (0, 0) do
  let w ← u 16
  let h ← u 16
  pure (w, h)

/-- src/h264_vui_parameters_parser.cc:43-58: (aspect_ratio_idc, (sar_width, sar_height)). -/
def parseAspectRatio (flag : Nat) : Prog (Nat × Nat × Nat) := opt (flag ≠ 0) (0, 0, 0) do
  let idc ← u 8
  let sar ← parseSar idc
  pure (idc, sar)

/-- src/h264_vui_parameters_parser.cc:90-103: (colour_primaries, transfer_characteristics, matrix_coefficients). -/
def parseColour (flag : Nat) : Prog (Nat × Nat × Nat) := opt (flag ≠ 0) (0, 0, 0) do
  let a ← u 8
  let b ← u 8
  let c ← u 8
  pure (a, b, c)

/-- src/h264_vui_parameters_parser.cc:77-104: (video_format, video_full_range_flag, colour_description_present_flag, colour). -/
def parseVideoSignal (flag : Nat) : Prog (Nat × Nat × Nat × Nat × Nat × Nat) := opt (flag ≠ 0) (0, 0, 0, 0, 0, 0) do
  let fmt ← u 3
  let full ← u 1
  let cdp ← u 1
  let col ← parseColour cdp
  pure (fmt, full, cdp, col)

/-- src/h264_vui_parameters_parser.cc:110-151: the two chroma_sample_loc_type fields. -/
def parseChromaLoc (flag : Nat) : Prog (Nat × Nat) := opt (flag ≠ 0) (0, 0) do
  let t ← ueIn 0 5
  let b ← ueIn 0 5
  pure (t, b)

/-- src/h264_vui_parameters_parser.cc:158-189: (num_units_in_tick, time_scale, fixed_frame_rate_flag). -/
def parseTiming (flag : Nat) : Prog (Nat × Nat × Nat) := opt (flag ≠ 0) (0, 0, 0) do
  let n ← u 32
  guard (1 ≤ n)
  let t ← u 32
  guard (1 ≤ t)
  let f ← u 1
  pure (n, t, f)

/-- src/h264_vui_parameters_parser.cc:196-203 and 210-217. -/
def parseOptHrd (flag : Nat) : Prog (Option Hrd) := opt (flag ≠ 0) none do
  let h ← parseHrd
  pure (some h)

/-- src/h264_vui_parameters_parser.cc:237-344: the bitstream restriction fields, in order. -/
def parseRestriction (flag : Nat) : Prog (Nat × Nat × Nat × Nat × Nat × Nat × Nat) :=
  opt (flag ≠ 0) (0, 0, 0, 0, 0, 0, 0) do
    let mv ← u 1
    let bytes ← ueIn 0 16
    let bits ← ueIn 0 16
    let h ← ueIn 0 16
    let v ← ueIn 0 16
    let r ← ueIn 0 16
    let d ← ueIn 0 16
    pure (mv, bytes, bits, h, v, r, d)

/-- `ParseVuiParameters(BitBuffer*)` (src/h264_vui_parameters_parser.cc:31-347). -/
def parseVui : Prog Vui := do
  let aspect_ratio_info_present_flag ← u 1
  let ar ← parseAspectRatio aspect_ratio_info_present_flag
  let overscan_info_present_flag ← u 1
  let overscan_appropriate_flag ← opt (overscan_info_present_flag ≠ 0) 0 (u 1)
  let video_signal_type_present_flag ← u 1
  let vs ← parseVideoSignal video_signal_type_present_flag
  let chroma_loc_info_present_flag ← u 1
  let cl ← parseChromaLoc chroma_loc_info_present_flag
  let timing_info_present_flag ← u 1
  let ti ← parseTiming timing_info_present_flag
  let nal_hrd_parameters_present_flag ← u 1
  let nal_hrd_parameters ← parseOptHrd nal_hrd_parameters_present_flag
  let vcl_hrd_parameters_present_flag ← u 1
  let vcl_hrd_parameters ← parseOptHrd vcl_hrd_parameters_present_flag
  let low_delay_hrd_flag ←
    opt (nal_hrd_parameters_present_flag ≠ 0 ∨ vcl_hrd_parameters_present_flag ≠ 0) 0 (u 1)
  let pic_struct_present_flag ← u 1
  let bitstream_restriction_flag ← u 1
  let br ← parseRestriction bitstream_restriction_flag
  pure { aspect_ratio_info_present_flag, aspect_ratio_idc := ar.1, sar_width := ar.2.1, sar_height := ar.2.2,
         overscan_info_present_flag, overscan_appropriate_flag, video_signal_type_present_flag,
         video_format := vs.1, video_full_range_flag := vs.2.1, colour_description_present_flag := vs.2.2.1,
         colour_primaries := vs.2.2.2.1, transfer_characteristics := vs.2.2.2.2.1,
         matrix_coefficients := vs.2.2.2.2.2, chroma_loc_info_present_flag,
         chroma_sample_loc_type_top_field := cl.1, chroma_sample_loc_type_bottom_field := cl.2,
         timing_info_present_flag, num_units_in_tick := ti.1, time_scale := ti.2.1,
         fixed_frame_rate_flag := ti.2.2, nal_hrd_parameters_present_flag, nal_hrd_parameters,
         vcl_hrd_parameters_present_flag, vcl_hrd_parameters, low_delay_hrd_flag, pic_struct_present_flag,
         bitstream_restriction_flag, motion_vectors_over_pic_boundaries_flag := br.1,
         max_bytes_per_pic_denom := br.2.1, max_bits_per_mb_denom := br.2.2.1,
         log2_max_mv_length_horizontal := br.2.2.2.1, log2_max_mv_length_vertical := br.2.2.2.2.1,
         max_num_reorder_frames := br.2.2.2.2.2.1, max_dec_frame_buffering := br.2.2.2.2.2.2 }

end H264

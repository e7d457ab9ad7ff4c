import Verif.Model.Common
import Verif.Model.Rtp

/-
Model of the fuzz targets of the directory fuzz.  Each is a function `LLVMFuzzerTestOneInput(data, size)`; here it takes the data, and
gives the value returned, together with the number of unimplemented structures reported so far (`cnt`).
-/

namespace H264
open Prog

/-- The parser state of most targets that need one (e.g. fuzz/h264_slice_header_parser_fuzzer.cc:33-54). -/
def fuzzState : Store where
  sps k := if k = 0 then some { log2_max_frame_num_minus4 := 1, frame_mbs_only_flag := 1, pic_order_cnt_type := 2 } else none
  pps k := if k = 0 then some { deblocking_filter_control_present_flag := 1 } else none

/-- The parser state of the third part of fuzz/h264_slice_header_parser_fuzzer.cc:89-112. -/
def fuzzState3 : Store where
  sps k := if k = 0 then some { pic_order_cnt_type := 1, pic_width_in_mbs_minus1 := 11, pic_height_in_map_units_minus1 := 3 } else none
  pps k := if k = 0 then some { bottom_field_pic_order_in_frame_present_flag := 1, entropy_coding_mode_flag := 1
                                num_ref_idx_l0_default_active_minus1 := 4 } else none

/-- The parser state of fuzz/h264_slice_layer_extension_rbsp_parser_fuzzer.cc:26-80. -/
def fuzzStateExt : Store where
  sps k := if k = 0 then some { profile_idc := 66, log2_max_frame_num_minus4 := 1, frame_mbs_only_flag := 1, pic_order_cnt_type := 2
                                pic_width_in_mbs_minus1 := 10, pic_height_in_map_units_minus1 := 8 } else none
  pps k := if k = 0 then some { deblocking_filter_control_present_flag := 1 }
    else if k = 1 then some { pic_parameter_set_id := 1, deblocking_filter_control_present_flag := 1 } else none
  subset_sps k := if k = 0 then some (
    { seq_parameter_set_data :=
        { profile_idc := 83, log2_max_frame_num_minus4 := 1, frame_mbs_only_flag := 1, pic_order_cnt_type := 2
          pic_width_in_mbs_minus1 := 21, pic_height_in_map_units_minus1 := 17 }
      seq_parameter_set_svc_extension :=
        some { inter_layer_deblocking_filter_control_present_flag := 1, slice_header_restriction_flag := 1 } }) else none

/-- The NAL unit header of fuzz/h264_slice_layer_extension_rbsp_parser_fuzzer.cc:81-99. -/
def fuzzHeaderExt : NalHeader :=
  { nal_ref_idc := 3, nal_unit_type := 20, svc_extension_flag := 1
    svc_extension := some { idr_flag := 1, no_inter_layer_pred_flag := 1, dependency_id := 1, discardable_flag := 1
                            output_flag := 1, reserved_three_2bits := 3 } }

section
variable (nd : Bool) (data : List UInt8) (cnt : Nat)

/-- fuzz/h264_bitstream_parser_fuzzer.cc:16-36. -/
def fuzzBitstream : Res (Nat × Nat) := do
  let (_, _, c) ← parseBitstream nd { add_checksum := true } data {} cnt
  pure (0, c)

/-- fuzz/h264_common__unescape_rbsp_fuzzer.cc:55-58: the helpers `byte_aligned`, `get_current_offset`, `more_rbsp_data` and
`rbsp_trailing_bits`.  The first two only look at members of the reader, and their results are not used. -/
def fuzzHelpersAt (b : Buf) (cnt : Nat) : Res (Nat × Nat) := do
  let _ := b.currentOffset
  let (_, s) ← (run nd (aligned >>= fun _ => moreRbspData) ⟨b, cnt⟩).res
  let (_, s) ← (run nd rbspTrailingBits s).res
  pure (0, s.cnt)

/-- fuzz/h264_common__unescape_rbsp_fuzzer.cc:43-59: a reader on the data, and a first read of 0 to 16 bits. -/
def fuzzHelpers : Res (Nat × Nat) := do
  let b ← Buf.new nd data
  match data with
  | [] => fuzzHelpersAt nd b cnt
  | x :: _ =>
    if x.toNat % 17 > 0 then do
      let r ← b.readBits 32 (x.toNat % 17)
      fuzzHelpersAt nd r.2 cnt
    else fuzzHelpersAt nd b cnt

/-- fuzz/h264_common__unescape_rbsp_fuzzer.cc:27-62. -/
def fuzzUnescape : Res (Nat × Nat) := do
  let bytes ← unescapeRbsp data 0 data.length
  if bytes ≠ [] then do
    let b ← Buf.new nd bytes
    let _ ← b.readBits 32 1
    fuzzHelpers nd data cnt
  else fuzzHelpers nd data cnt

/-- fuzz/h264_common_fuzzer.cc:15-27, whose body is empty. -/
def fuzzCommon : Res (Nat × Nat) := pure (0, cnt)

/-- fuzz/h264_dec_ref_pic_marking_parser_fuzzer.cc:15-36. -/
def fuzzDecRefPicMarking : Res (Nat × Nat) := do
  let (_, c) ← parseDecRefPicMarkingData nd data 0 data.length 1 cnt
  let (_, c) ← parseDecRefPicMarkingData nd data 0 data.length 0 c
  pure (0, c)

/-- fuzz/h264_hrd_parameters_parser_fuzzer.cc:15-30. -/
def fuzzHrd : Res (Nat × Nat) := do
  let (_, c) ← parseHrdData nd data 0 data.length cnt
  pure (0, c)

/-- fuzz/h264_nal_unit_header_parser_fuzzer.cc:13-19. -/
def fuzzNalUnitHeader : Res (Nat × Nat) := do
  let (_, c) ← parseNalHeaderData nd data 0 data.length cnt
  pure (0, c)

/-- fuzz/h264_nal_unit_header_svc_extension_parser_fuzzer.cc:14-30. -/
def fuzzSvcHeaderExt : Res (Nat × Nat) := do
  let (_, c) ← parseSvcHeaderExtData nd data 0 data.length cnt
  pure (0, c)

/-- fuzz/h264_nal_unit_parser_fuzzer.cc:17-36. -/
def fuzzNalUnit : Res (Nat × Nat) := do
  let (_, _, c) ← parseNalUnit nd { add_checksum := true } data 0 data.length {} cnt
  pure (0, c)

/-- fuzz/h264_pps_parser_fuzzer.cc:15-30. -/
def fuzzPps : Res (Nat × Nat) := do
  let (_, c) ← parsePpsData nd data 0 data.length 1 cnt
  pure (0, c)

/-- fuzz/h264_pred_weight_table_parser_fuzzer.cc:15-44.  `SliceType::P_ALL` is 5 (include/h264_common.h). -/
def fuzzPredWeightTable : Res (Nat × Nat) := do
  let (_, c) ← parsePredWeightTableData nd data 0 data.length 1 5 0 0 cnt
  let (_, c) ← parsePredWeightTableData nd data 0 data.length 1 5 12 0 c
  pure (0, c)

/-- fuzz/h264_prefix_nal_unit_parser_fuzzer.cc:16-45. -/
def fuzzPrefix : Res (Nat × Nat) := do
  let (_, c) ← parsePrefixRbspData nd data 0 data.length 1 2 1 1 cnt
  let (_, _, c) ← parseNalUnit nd { add_checksum := true } data 0 data.length {} c
  pure (0, c)

/-- fuzz/h264_ref_pic_list_modification_parser_fuzzer.cc:15-32. -/
def fuzzRefPicListMod : Res (Nat × Nat) := do
  let (_, c) ← parseRefPicListModData nd data 0 data.length 5 cnt
  pure (0, c)

/-- fuzz/h264_rtp_fua_parser_fuzzer.cc:15-53. -/
def fuzzRtpFuA : Res (Nat × Nat) := do
  let (_, _, c) ← parseRtpFuAData nd data 0 data.length 3 fuzzState cnt
  pure (0, c)

/-- fuzz/h264_rtp_parser_fuzzer.cc:15-31. -/
def fuzzRtp : Res (Nat × Nat) := do
  let (_, _, c) ← parseRtpData nd data 0 data.length {} cnt
  pure (0, c)

/-- fuzz/h264_rtp_single_parser_fuzzer.cc:16-32. -/
def fuzzRtpSingle : Res (Nat × Nat) := do
  let (_, _, c) ← parseRtpSingleData nd data 0 data.length {} cnt
  pure (0, c)

/-- fuzz/h264_rtp_stapa_parser_fuzzer.cc:15-31. -/
def fuzzRtpStapA : Res (Nat × Nat) := do
  let (_, _, c) ← parseRtpStapAData nd data 0 data.length {} cnt
  pure (0, c)

/-- fuzz/h264_slice_header_in_scalable_extension_parser_fuzzer.cc:21-53. -/
def fuzzScalHeader : Res (Nat × Nat) := do
  let (_, c) ← parseScalHeaderData nd data 0 data.length { nal_ref_idc := 3, nal_unit_type := 5 } fuzzState cnt
  pure (0, c)

/-- fuzz/h264_slice_header_parser_fuzzer.cc:21-121. -/
def fuzzSliceHeader : Res (Nat × Nat) := do
  let (_, c) ← parseSliceHeaderData nd data 0 data.length 3 5 fuzzState cnt
  let (_, c) ← parseSliceHeaderData nd data 0 data.length 2 1 fuzzState c
  let (_, c) ← parseSliceHeaderData nd data 0 data.length 2 1 fuzzState3 c
  pure (0, c)

/-- fuzz/h264_slice_layer_extension_rbsp_parser_fuzzer.cc:23-104. -/
def fuzzSliceLayerExt : Res (Nat × Nat) := do
  let (_, c) ← parseSliceLayerExtData nd data 0 data.length fuzzHeaderExt fuzzStateExt cnt
  pure (0, c)

/-- fuzz/h264_slice_layer_without_partitioning_rbsp_parser_fuzzer.cc:21-94. -/
def fuzzSliceLayer : Res (Nat × Nat) := do
  let (_, c) ← parseSliceLayerData nd data 0 data.length 3 5 fuzzState cnt
  let (_, c) ← parseSliceLayerData nd data 0 data.length 2 1 fuzzState c
  pure (0, c)

/-- fuzz/h264_sps_extension_parser_fuzzer.cc:16-31. -/
def fuzzSpsExtension : Res (Nat × Nat) := do
  let (_, c) ← parseSpsExtensionData nd data 0 data.length cnt
  pure (0, c)

/-- fuzz/h264_sps_parser_fuzzer.cc:15-29. -/
def fuzzSps : Res (Nat × Nat) := do
  let (_, c) ← parseSpsRbspData nd data 0 data.length cnt
  pure (0, c)

/-- fuzz/h264_sps_svc_extension_parser_fuzzer.cc:15-36. -/
def fuzzSpsSvcExt : Res (Nat × Nat) := do
  let (_, c) ← parseSpsSvcExtData nd data 0 data.length 0 cnt
  let (_, c) ← parseSpsSvcExtData nd data 0 data.length 1 c
  pure (0, c)

/-- fuzz/h264_subset_sps_parser_fuzzer.cc:16-31. -/
def fuzzSubsetSps : Res (Nat × Nat) := do
  let (_, c) ← parseSubsetSpsData nd data 0 data.length cnt
  pure (0, c)

/-- fuzz/h264_vui_parameters_parser_fuzzer.cc:15-30. -/
def fuzzVui : Res (Nat × Nat) := do
  let (_, c) ← parseVuiData nd data 0 data.length cnt
  pure (0, c)

/-- All the targets (fuzz/CMakeLists.txt). -/
def fuzzTargets : List (Res (Nat × Nat)) :=
  [fuzzBitstream nd data cnt, fuzzUnescape nd data cnt, fuzzCommon cnt, fuzzDecRefPicMarking nd data cnt, fuzzHrd nd data cnt,
   fuzzNalUnitHeader nd data cnt, fuzzSvcHeaderExt nd data cnt, fuzzNalUnit nd data cnt, fuzzPps nd data cnt,
   fuzzPredWeightTable nd data cnt, fuzzPrefix nd data cnt, fuzzRefPicListMod nd data cnt, fuzzRtpFuA nd data cnt, fuzzRtp nd data cnt,
   fuzzRtpSingle nd data cnt, fuzzRtpStapA nd data cnt, fuzzScalHeader nd data cnt, fuzzSliceHeader nd data cnt,
   fuzzSliceLayerExt nd data cnt, fuzzSliceLayer nd data cnt, fuzzSpsExtension nd data cnt, fuzzSps nd data cnt,
   fuzzSpsSvcExt nd data cnt, fuzzSubsetSps nd data cnt, fuzzVui nd data cnt]

end

end H264

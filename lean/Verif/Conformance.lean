import Verif.Model.Rtp

/-
Generated by tools/gen_conformance.py from the unit tests of the library: the model gives the results the tests expect of
the code.  These are tests of the model, not proofs about it; no property rests on them.
-/

set_option linter.unusedVariables false

namespace H264

/-- A `(data, length)` overload of a parser. -/
def onBytes {α : Type} (nd : Bool) (p : Prog α) (data : List UInt8) : Res (Option α) := do
  let bytes ← unescapeRbsp data 0 data.length
  let b ← Buf.new nd bytes
  let (x, _) ← (run nd p ⟨b, 0⟩).res
  pure x

/-! ### test/h264_bitstream_parser_unittest.cc -/

/-- TestSampleBitstream601 (test/h264_bitstream_parser_unittest.cc:43), 17 expectations. -/
example : ∀ nd : Bool, (do
    let (bitstream, σ0, _) ← parseBitstream nd { add_checksum := true } ([0, 0, 0, 1, 103, 66, 192, 22, 166, 17, 5, 7, 233, 178, 0, 0, 3, 0, 2, 0, 0, 3, 0, 100, 30, 44, 92, 35, 0, 0, 0, 1, 104, 200, 66, 2, 50, 200, 0, 0, 0, 1, 101, 136, 130, 6, 120, 140, 80, 0, 28, 171, 142, 0, 2, 251, 49, 192, 0, 95, 102, 251, 239, 190, 0, 0, 0, 1, 65, 154, 28, 12, 240, 9, 108] : List UInt8)  ({  } : Store) 0
    pure ((some ((bitstream.nal_units).length)) == some 4 &&
      (do let y0 ← (bitstream.nal_units)[0]?; pure (y0.nal_unit_header.forbidden_zero_bit) : Option _) == some 0 &&
      (do let y0 ← (bitstream.nal_units)[0]?; pure (y0.nal_unit_header.nal_ref_idc) : Option _) == some 3 &&
      (do let y0 ← (bitstream.nal_units)[0]?; pure (y0.nal_unit_header.nal_unit_type) : Option _) == some 7 &&
      ((do let y0 ← (bitstream.nal_units)[0]?; let y1 ← y0.checksum; pure (y1) : Option _).map (fun (x : NaluChecksum) => x.checksum.take x.length)) == some [172, 113, 28, 180] &&
      (do let y0 ← (bitstream.nal_units)[1]?; pure (y0.nal_unit_header.forbidden_zero_bit) : Option _) == some 0 &&
      (do let y0 ← (bitstream.nal_units)[1]?; pure (y0.nal_unit_header.nal_ref_idc) : Option _) == some 3 &&
      (do let y0 ← (bitstream.nal_units)[1]?; pure (y0.nal_unit_header.nal_unit_type) : Option _) == some 8 &&
      ((do let y0 ← (bitstream.nal_units)[1]?; let y1 ← y0.checksum; pure (y1) : Option _).map (fun (x : NaluChecksum) => x.checksum.take x.length)) == some [100, 111, 189, 253] &&
      (do let y0 ← (bitstream.nal_units)[2]?; pure (y0.nal_unit_header.forbidden_zero_bit) : Option _) == some 0 &&
      (do let y0 ← (bitstream.nal_units)[2]?; pure (y0.nal_unit_header.nal_ref_idc) : Option _) == some 3 &&
      (do let y0 ← (bitstream.nal_units)[2]?; pure (y0.nal_unit_header.nal_unit_type) : Option _) == some 5 &&
      ((do let y0 ← (bitstream.nal_units)[2]?; let y1 ← y0.checksum; pure (y1) : Option _).map (fun (x : NaluChecksum) => x.checksum.take x.length)) == some [18, 39, 7, 61] &&
      (do let y0 ← (bitstream.nal_units)[3]?; pure (y0.nal_unit_header.forbidden_zero_bit) : Option _) == some 0 &&
      (do let y0 ← (bitstream.nal_units)[3]?; pure (y0.nal_unit_header.nal_ref_idc) : Option _) == some 2 &&
      (do let y0 ← (bitstream.nal_units)[3]?; pure (y0.nal_unit_header.nal_unit_type) : Option _) == some 1 &&
      ((do let y0 ← (bitstream.nal_units)[3]?; let y1 ← y0.checksum; pure (y1) : Option _).map (fun (x : NaluChecksum) => x.checksum.take x.length)) == some [206, 92, 119, 242]) : Res Bool) = .val true := by decide +kernel

/-- TestSampleBitstream601Alt (test/h264_bitstream_parser_unittest.cc:114), 17 expectations. -/
example : ∀ nd : Bool, (do
    let (bitstream, _) ← parseBitstreamFresh nd {} ([0, 0, 0, 1, 103, 66, 192, 22, 166, 17, 5, 7, 233, 178, 0, 0, 3, 0, 2, 0, 0, 3, 0, 100, 30, 44, 92, 35, 0, 0, 0, 1, 104, 200, 66, 2, 50, 200, 0, 0, 0, 1, 101, 136, 130, 6, 120, 140, 80, 0, 28, 171, 142, 0, 2, 251, 49, 192, 0, 95, 102, 251, 239, 190, 0, 0, 0, 1, 65, 154, 28, 12, 240, 9, 108] : List UInt8)  0
    pure ((some ((bitstream.nal_units).length)) == some 4 &&
      (do let y0 ← (bitstream.nal_units)[0]?; pure (y0.offset) : Option _) == some 4 &&
      (do let y0 ← (bitstream.nal_units)[0]?; pure (y0.length) : Option _) == some 24 &&
      (do let y0 ← (bitstream.nal_units)[0]?; pure (y0.parsed_length) : Option _) == some 22 &&
      ((do let y0 ← (bitstream.nal_units)[0]?; let y1 ← y0.checksum; pure (y1) : Option _).map (fun (x : NaluChecksum) => x.checksum.take x.length)) == some [172, 113, 28, 180] &&
      (do let y0 ← (bitstream.nal_units)[1]?; pure (y0.offset) : Option _) == some 32 &&
      (do let y0 ← (bitstream.nal_units)[1]?; pure (y0.length) : Option _) == some 6 &&
      (do let y0 ← (bitstream.nal_units)[1]?; pure (y0.parsed_length) : Option _) == some 6 &&
      ((do let y0 ← (bitstream.nal_units)[1]?; let y1 ← y0.checksum; pure (y1) : Option _).map (fun (x : NaluChecksum) => x.checksum.take x.length)) == some [100, 111, 189, 253] &&
      (do let y0 ← (bitstream.nal_units)[2]?; pure (y0.offset) : Option _) == some 42 &&
      (do let y0 ← (bitstream.nal_units)[2]?; pure (y0.length) : Option _) == some 22 &&
      (do let y0 ← (bitstream.nal_units)[2]?; pure (y0.parsed_length) : Option _) == some 5 &&
      ((do let y0 ← (bitstream.nal_units)[2]?; let y1 ← y0.checksum; pure (y1) : Option _).map (fun (x : NaluChecksum) => x.checksum.take x.length)) == some [18, 39, 7, 61] &&
      (do let y0 ← (bitstream.nal_units)[3]?; pure (y0.offset) : Option _) == some 68 &&
      (do let y0 ← (bitstream.nal_units)[3]?; pure (y0.length) : Option _) == some 7 &&
      (do let y0 ← (bitstream.nal_units)[3]?; pure (y0.parsed_length) : Option _) == some 5 &&
      ((do let y0 ← (bitstream.nal_units)[3]?; let y1 ← y0.checksum; pure (y1) : Option _).map (fun (x : NaluChecksum) => x.checksum.take x.length)) == some [206, 92, 119, 242]) : Res Bool) = .val true := by decide +kernel

/-- TestZeroLengthBitstream (test/h264_bitstream_parser_unittest.cc:182), 1 expectations. -/
example : ∀ nd : Bool, (do
    let (bitstream, σ0, _) ← parseBitstream nd {} (([0] : List UInt8).take 0)  ({  } : Store) 0
    pure ((some ((bitstream.nal_units).length)) == some 0) : Res Bool) = .val true := by decide +kernel

/-- TestTruncatedBitstream (test/h264_bitstream_parser_unittest.cc:192), 1 expectations. -/
example : ∀ nd : Bool, (do
    let (bitstream, σ0, _) ← parseBitstream nd {} ([0, 0] : List UInt8)  ({  } : Store) 0
    pure ((some ((bitstream.nal_units).length)) == some 0) : Res Bool) = .val true := by decide +kernel

/-- TestMaliciousNaluLength (test/h264_bitstream_parser_unittest.cc:204), 1 expectations. -/
example : ∀ nd : Bool, (do
    let (bitstream, σ0, _) ← parseBitstreamNALULength nd {} ([255, 255, 255, 255, 103, 66] : List UInt8) 4 ({  } : Store) 0
    pure ((some ((bitstream.nal_units).length)) == some 0) : Res Bool) = .val true := by decide +kernel

/-- TestZeroNaluLength (test/h264_bitstream_parser_unittest.cc:216), 1 expectations. -/
example : ∀ nd : Bool, (do
    let (bitstream, σ0, _) ← parseBitstreamNALULength nd {} ([0, 0, 0, 0, 103, 66] : List UInt8) 4 ({  } : Store) 0
    pure ((some ((bitstream.nal_units).length)) == some 0) : Res Bool) = .val true := by decide +kernel

/-! ### test/h264_dec_ref_pic_marking_parser_unittest.cc -/

/-- TestSampleDecRefPicMarking601IDR (test/h264_dec_ref_pic_marking_parser_unittest.cc:21), 3 expectations. -/
example : ∀ nd : Bool, (do
    let dec_ref_pic_marking ← onBytes nd (parseDecRefPicMarking 1) ([0] : List UInt8)
    pure (dec_ref_pic_marking.isSome &&
      (do let y0 ← dec_ref_pic_marking; pure (y0.no_output_of_prior_pics_flag) : Option _) == some 0 &&
      (do let y0 ← dec_ref_pic_marking; pure (y0.long_term_reference_flag) : Option _) == some 0) : Res Bool) = .val true := by decide +kernel

/-- TestSampleDecRefPicMarking601NonIDR (test/h264_dec_ref_pic_marking_parser_unittest.cc:37), 2 expectations. -/
example : ∀ nd : Bool, (do
    let dec_ref_pic_marking ← onBytes nd (parseDecRefPicMarking 0) ([0] : List UInt8)
    pure (dec_ref_pic_marking.isSome &&
      (do let y0 ← dec_ref_pic_marking; pure (y0.adaptive_ref_pic_marking_mode_flag) : Option _) == some 0) : Res Bool) = .val true := by decide +kernel

/-! ### test/h264_hrd_parameters_parser_unittest.cc -/

/-- TestSampleHrdParameters601IDR (test/h264_hrd_parameters_parser_unittest.cc:21), 11 expectations. -/
example : ∀ nd : Bool, (do
    let hrd_parameters ← onBytes nd (parseHrd) ([154, 128, 0, 76, 75, 64, 0, 38, 37, 175, 214, 184, 30, 48, 98, 36] : List UInt8)
    pure (hrd_parameters.isSome &&
      (do let y0 ← hrd_parameters; pure (y0.cpb_cnt_minus1) : Option _) == some 0 &&
      (do let y0 ← hrd_parameters; pure (y0.bit_rate_scale) : Option _) == some 3 &&
      (do let y0 ← hrd_parameters; pure (y0.cpb_size_scale) : Option _) == some 5 &&
      (do let y0 ← hrd_parameters; pure (y0.bit_rate_value_minus1) : Option _) == some [78124] &&
      (do let y0 ← hrd_parameters; pure (y0.cpb_size_value_minus1) : Option _) == some [78124] &&
      (do let y0 ← hrd_parameters; pure (y0.cbr_flag) : Option _) == some [0] &&
      (do let y0 ← hrd_parameters; pure (y0.initial_cpb_removal_delay_length_minus1) : Option _) == some 31 &&
      (do let y0 ← hrd_parameters; pure (y0.cpb_removal_delay_length_minus1) : Option _) == some 21 &&
      (do let y0 ← hrd_parameters; pure (y0.dpb_output_delay_length_minus1) : Option _) == some 21 &&
      (do let y0 ← hrd_parameters; pure (y0.time_offset_length) : Option _) == some 24) : Res Bool) = .val true := by decide +kernel

/-! ### test/h264_nal_unit_header_svc_extension_parser_unittest.cc -/

/-- TestNalUnitHeaderSvcExtension01 (test/h264_nal_unit_header_svc_extension_parser_unittest.cc:20), 11 expectations. -/
example : ∀ nd : Bool, (do
    let nal_unit_header_svc_extension ← onBytes nd (parseSvcHeaderExt) ([255, 255, 255] : List UInt8)
    pure (nal_unit_header_svc_extension.isSome &&
      (do let y0 ← nal_unit_header_svc_extension; pure (y0.idr_flag) : Option _) == some 1 &&
      (do let y0 ← nal_unit_header_svc_extension; pure (y0.priority_id) : Option _) == some 63 &&
      (do let y0 ← nal_unit_header_svc_extension; pure (y0.no_inter_layer_pred_flag) : Option _) == some 1 &&
      (do let y0 ← nal_unit_header_svc_extension; pure (y0.dependency_id) : Option _) == some 7 &&
      (do let y0 ← nal_unit_header_svc_extension; pure (y0.quality_id) : Option _) == some 15 &&
      (do let y0 ← nal_unit_header_svc_extension; pure (y0.temporal_id) : Option _) == some 7 &&
      (do let y0 ← nal_unit_header_svc_extension; pure (y0.use_ref_base_pic_flag) : Option _) == some 1 &&
      (do let y0 ← nal_unit_header_svc_extension; pure (y0.discardable_flag) : Option _) == some 1 &&
      (do let y0 ← nal_unit_header_svc_extension; pure (y0.output_flag) : Option _) == some 1 &&
      (do let y0 ← nal_unit_header_svc_extension; pure (y0.reserved_three_2bits) : Option _) == some 3) : Res Bool) = .val true := by decide +kernel

/-- TestNalUnitHeaderSvcExtensionForeman (test/h264_nal_unit_header_svc_extension_parser_unittest.cc:45), 11 expectations. -/
example : ∀ nd : Bool, (do
    let nal_unit_header_svc_extension ← onBytes nd (parseSvcHeaderExt) ([129, 0, 46] : List UInt8)
    pure (nal_unit_header_svc_extension.isSome &&
      (do let y0 ← nal_unit_header_svc_extension; pure (y0.idr_flag) : Option _) == some 1 &&
      (do let y0 ← nal_unit_header_svc_extension; pure (y0.priority_id) : Option _) == some 0 &&
      (do let y0 ← nal_unit_header_svc_extension; pure (y0.no_inter_layer_pred_flag) : Option _) == some 1 &&
      (do let y0 ← nal_unit_header_svc_extension; pure (y0.dependency_id) : Option _) == some 0 &&
      (do let y0 ← nal_unit_header_svc_extension; pure (y0.quality_id) : Option _) == some 0 &&
      (do let y0 ← nal_unit_header_svc_extension; pure (y0.temporal_id) : Option _) == some 0 &&
      (do let y0 ← nal_unit_header_svc_extension; pure (y0.use_ref_base_pic_flag) : Option _) == some 1 &&
      (do let y0 ← nal_unit_header_svc_extension; pure (y0.discardable_flag) : Option _) == some 0 &&
      (do let y0 ← nal_unit_header_svc_extension; pure (y0.output_flag) : Option _) == some 1 &&
      (do let y0 ← nal_unit_header_svc_extension; pure (y0.reserved_three_2bits) : Option _) == some 3) : Res Bool) = .val true := by decide +kernel

/-! ### test/h264_nal_unit_parser_unittest.cc -/

/-- TestSampleNalUnit (test/h264_nal_unit_parser_unittest.cc:24), 9 expectations. -/
example : ∀ nd : Bool, (do
    let (nal_unit, σ0, _) ← parseNalUnit nd { add_checksum := true } ([103] : List UInt8) 0 ([103] : List UInt8).length  ({  } : Store) 0
    pure (nal_unit.isSome &&
      (do let y0 ← nal_unit; pure (y0.parsed_length) : Option _) == some 1 &&
      ((do let y0 ← nal_unit; let y1 ← y0.checksum; pure (y1) : Option _).map (fun (x : NaluChecksum) => x.checksum.take x.length)) == some [152, 255, 255, 255] &&
      (do let y0 ← nal_unit; pure (y0.nal_unit_header.forbidden_zero_bit) : Option _) == some 0 &&
      (do let y0 ← nal_unit; pure (y0.nal_unit_header.nal_ref_idc) : Option _) == some 3 &&
      (do let y0 ← nal_unit; pure (y0.nal_unit_header.nal_unit_type) : Option _) == some 7 &&
      (do let y0 ← nal_unit; pure (y0.nal_unit_payload) : Option _).isSome &&
      (do let p ← (do let y0 ← nal_unit; pure (y0.nal_unit_payload) : Option _); let t ← (do let y0 ← nal_unit; pure (y0.nal_unit_header.nal_unit_type) : Option _); pure (p.isPayloadParsed t) : Option Bool) == some false &&
      (do let p ← (do let y0 ← nal_unit; pure (y0.nal_unit_payload) : Option _); let t ← (some 6); pure (p.isPayloadParsed t) : Option Bool) == some true) : Res Bool) = .val true := by decide +kernel

/-- TestEmptyNalUnit (test/h264_nal_unit_parser_unittest.cc:68), 1 expectations. -/
example : ∀ nd : Bool, (do
    let (nal_unit, σ0, _) ← parseNalUnit nd { add_checksum := false } (([0] : List UInt8).take 0) 0 (([0] : List UInt8).take 0).length  ({  } : Store) 0
    pure (nal_unit.isNone) : Res Bool) = .val true := by decide +kernel

/-- TestSvcExtensionHeader (test/h264_nal_unit_parser_unittest.cc:105), 6 expectations. -/
example : ∀ nd : Bool, (do
    let nal_unit_header ← onBytes nd (parseNalHeader) ([116, 192, 16, 7, 180] : List UInt8)
    pure (nal_unit_header.isSome &&
      (do let y0 ← nal_unit_header; pure (y0.forbidden_zero_bit) : Option _) == some 0 &&
      (do let y0 ← nal_unit_header; pure (y0.nal_ref_idc) : Option _) == some 3 &&
      (do let y0 ← nal_unit_header; pure (y0.nal_unit_type) : Option _) == some 20 &&
      (do let y0 ← nal_unit_header; pure (y0.svc_extension_flag) : Option _) == some 1 &&
      ((do let y0 ← nal_unit_header; pure (y0) : Option _).map (fun x => x.svc_extension.isSome)) == some true) : Res Bool) = .val true := by decide +kernel

/-- TestMvcExtensionHeaderIsRefused (test/h264_nal_unit_parser_unittest.cc:120), 1 expectations. -/
example : ∀ nd : Bool, (do
    let nal_unit_header ← onBytes nd (parseNalHeader) ([116, 2, 0, 69, 180] : List UInt8)
    pure (nal_unit_header.isNone) : Res Bool) = .val true := by decide +kernel

/-- Test3davcExtensionHeaderIsRefused (test/h264_nal_unit_parser_unittest.cc:133), 1 expectations. -/
example : ∀ nd : Bool, (do
    let nal_unit_header ← onBytes nd (parseNalHeader) ([85, 129, 195, 181, 95] : List UInt8)
    pure (nal_unit_header.isNone) : Res Bool) = .val true := by decide +kernel

/-! ### test/h264_pps_parser_unittest.cc -/

/-- TestSamplePPS601 (test/h264_pps_parser_unittest.cc:21), 16 expectations. -/
example : ∀ nd : Bool, (do
    let pps ← onBytes nd (parsePps 1) ([200, 66, 2, 50, 200] : List UInt8)
    pure (pps.isSome &&
      (do let y0 ← pps; pure (y0.pic_parameter_set_id) : Option _) == some 0 &&
      (do let y0 ← pps; pure (y0.seq_parameter_set_id) : Option _) == some 0 &&
      (do let y0 ← pps; pure (y0.entropy_coding_mode_flag) : Option _) == some 0 &&
      (do let y0 ← pps; pure (y0.bottom_field_pic_order_in_frame_present_flag) : Option _) == some 0 &&
      (do let y0 ← pps; pure (y0.num_slice_groups_minus1) : Option _) == some 0 &&
      (do let y0 ← pps; pure (y0.num_ref_idx_l0_default_active_minus1) : Option _) == some 15 &&
      (do let y0 ← pps; pure (y0.num_ref_idx_l1_default_active_minus1) : Option _) == some 0 &&
      (do let y0 ← pps; pure (y0.weighted_pred_flag) : Option _) == some 0 &&
      (do let y0 ← pps; pure (y0.weighted_bipred_idc) : Option _) == some 0 &&
      (do let y0 ← pps; pure (y0.pic_init_qp_minus26) : Option _) == some (-8) &&
      (do let y0 ← pps; pure (y0.pic_init_qs_minus26) : Option _) == some 0 &&
      (do let y0 ← pps; pure (y0.chroma_qp_index_offset) : Option _) == some (-2) &&
      (do let y0 ← pps; pure (y0.deblocking_filter_control_present_flag) : Option _) == some 1 &&
      (do let y0 ← pps; pure (y0.constrained_intra_pred_flag) : Option _) == some 0 &&
      (do let y0 ← pps; pure (y0.redundant_pic_cnt_present_flag) : Option _) == some 0) : Res Bool) = .val true := by decide +kernel

/-- TestSamplePPS2012 (test/h264_pps_parser_unittest.cc:53), 19 expectations. -/
example : ∀ nd : Bool, (do
    let pps ← onBytes nd (parsePps 1) ([232, 67, 130, 146, 200, 176] : List UInt8)
    pure (pps.isSome &&
      (do let y0 ← pps; pure (y0.pic_parameter_set_id) : Option _) == some 0 &&
      (do let y0 ← pps; pure (y0.seq_parameter_set_id) : Option _) == some 0 &&
      (do let y0 ← pps; pure (y0.entropy_coding_mode_flag) : Option _) == some 1 &&
      (do let y0 ← pps; pure (y0.bottom_field_pic_order_in_frame_present_flag) : Option _) == some 0 &&
      (do let y0 ← pps; pure (y0.num_slice_groups_minus1) : Option _) == some 0 &&
      (do let y0 ← pps; pure (y0.num_ref_idx_l0_default_active_minus1) : Option _) == some 15 &&
      (do let y0 ← pps; pure (y0.num_ref_idx_l1_default_active_minus1) : Option _) == some 0 &&
      (do let y0 ← pps; pure (y0.weighted_pred_flag) : Option _) == some 1 &&
      (do let y0 ← pps; pure (y0.weighted_bipred_idc) : Option _) == some 2 &&
      (do let y0 ← pps; pure (y0.pic_init_qp_minus26) : Option _) == some 10 &&
      (do let y0 ← pps; pure (y0.pic_init_qs_minus26) : Option _) == some 0 &&
      (do let y0 ← pps; pure (y0.chroma_qp_index_offset) : Option _) == some (-2) &&
      (do let y0 ← pps; pure (y0.deblocking_filter_control_present_flag) : Option _) == some 1 &&
      (do let y0 ← pps; pure (y0.constrained_intra_pred_flag) : Option _) == some 0 &&
      (do let y0 ← pps; pure (y0.redundant_pic_cnt_present_flag) : Option _) == some 0 &&
      (do let y0 ← pps; pure (y0.transform_8x8_mode_flag) : Option _) == some 1 &&
      (do let y0 ← pps; pure (y0.pic_scaling_matrix_present_flag) : Option _) == some 0 &&
      (do let y0 ← pps; pure (y0.second_chroma_qp_index_offset) : Option _) == some (-2)) : Res Bool) = .val true := by decide +kernel

/-- TestSliceGroupMapType0 (test/h264_pps_parser_unittest.cc:85), 20 expectations. -/
example : ∀ nd : Bool, (do
    let pps ← onBytes nd (parsePps 1) ([199, 12, 133, 69, 148, 163, 136] : List UInt8)
    pure (pps.isSome &&
      (do let y0 ← pps; pure (y0.pic_parameter_set_id) : Option _) == some 0 &&
      (do let y0 ← pps; pure (y0.seq_parameter_set_id) : Option _) == some 0 &&
      (do let y0 ← pps; pure (y0.entropy_coding_mode_flag) : Option _) == some 0 &&
      (do let y0 ← pps; pure (y0.num_slice_groups_minus1) : Option _) == some 2 &&
      (do let y0 ← pps; pure (y0.slice_group_map_type) : Option _) == some 0 &&
      (do let y0 ← pps; pure ((y0.run_length_minus1).length) : Option _) == some 3 &&
      (do let y0 ← pps; let y1 ← (y0.run_length_minus1)[0]?; pure (y1) : Option _) == some 24 &&
      (do let y0 ← pps; let y1 ← (y0.run_length_minus1)[1]?; pure (y1) : Option _) == some 20 &&
      (do let y0 ← pps; let y1 ← (y0.run_length_minus1)[2]?; pure (y1) : Option _) == some 10 &&
      (do let y0 ← pps; pure (y0.num_ref_idx_l0_default_active_minus1) : Option _) == some 4 &&
      (do let y0 ← pps; pure (y0.num_ref_idx_l1_default_active_minus1) : Option _) == some 4 &&
      (do let y0 ← pps; pure (y0.weighted_pred_flag) : Option _) == some 0 &&
      (do let y0 ← pps; pure (y0.weighted_bipred_idc) : Option _) == some 0 &&
      (do let y0 ← pps; pure (y0.pic_init_qp_minus26) : Option _) == some 0 &&
      (do let y0 ← pps; pure (y0.pic_init_qs_minus26) : Option _) == some 0 &&
      (do let y0 ← pps; pure (y0.chroma_qp_index_offset) : Option _) == some 0 &&
      (do let y0 ← pps; pure (y0.deblocking_filter_control_present_flag) : Option _) == some 0 &&
      (do let y0 ← pps; pure (y0.constrained_intra_pred_flag) : Option _) == some 0 &&
      (do let y0 ← pps; pure (y0.redundant_pic_cnt_present_flag) : Option _) == some 0) : Res Bool) = .val true := by decide +kernel

/-- TestSliceGroupMapType6 (test/h264_pps_parser_unittest.cc:127), 10 expectations. -/
example : ∀ nd : Bool, (do
    let pps ← onBytes nd (parsePps 1) ([17, 14, 112, 49, 136, 106, 204, 67, 86, 98, 26, 179, 16, 213, 152, 134, 172, 196, 53, 102, 33, 171, 49, 13, 89, 136, 106, 204, 67, 86, 98, 26, 179, 16, 213, 152, 134, 172, 196, 53, 102, 9, 28, 64] : List UInt8)
    pure (pps.isSome &&
      (do let y0 ← pps; pure (y0.pic_parameter_set_id) : Option _) == some 7 &&
      (do let y0 ← pps; pure (y0.num_slice_groups_minus1) : Option _) == some 6 &&
      (do let y0 ← pps; pure (y0.slice_group_map_type) : Option _) == some 6 &&
      (do let y0 ← pps; pure (y0.pic_size_in_map_units_minus1) : Option _) == some 98 &&
      (do let y0 ← pps; pure ((y0.slice_group_id).length) : Option _) == some 99 &&
      (do let y0 ← pps; pure (y0.weighted_pred_flag) : Option _) == some 0 &&
      (do let y0 ← pps; pure (y0.weighted_bipred_idc) : Option _) == some 0 &&
      (do let y0 ← pps; pure (y0.deblocking_filter_control_present_flag) : Option _) == some 0 &&
      (do let y0 ← pps; pure (y0.redundant_pic_cnt_present_flag) : Option _) == some 0) : Res Bool) = .val true := by decide +kernel

/-- TestTruncatedPps (test/h264_pps_parser_unittest.cc:167), 1 expectations. -/
example : ∀ nd : Bool, (do
    let pps ← onBytes nd (parsePps 1) ([8] : List UInt8)
    pure (pps.isNone) : Res Bool) = .val true := by decide +kernel

/-- TestZeroLengthPps (test/h264_pps_parser_unittest.cc:176), 1 expectations. -/
example : ∀ nd : Bool, (do
    let pps ← onBytes nd (parsePps 1) (([0] : List UInt8).take 0)
    pure (pps.isNone) : Res Bool) = .val true := by decide +kernel

/-! ### test/h264_pred_weight_table_parser_unittest.cc -/

/-- TestSamplePredWeightTable1 (test/h264_pred_weight_table_parser_unittest.cc:21), 17 expectations. -/
example : ∀ nd : Bool, (do
    let pred_weight_table ← onBytes nd (parsePredWeightTable 1 5 0 0) ([108] : List UInt8)
    pure (pred_weight_table.isSome &&
      (do let y0 ← pred_weight_table; pure (y0.luma_log2_weight_denom) : Option _) == some 2 &&
      (do let y0 ← pred_weight_table; pure (y0.chroma_log2_weight_denom) : Option _) == some 2 &&
      (do let y0 ← pred_weight_table; pure (((lumaFlags y0.l0)).length) : Option _) == some 1 &&
      (do let y0 ← pred_weight_table; pure ((lumaFlags y0.l0)) : Option _) == some [0] &&
      (do let y0 ← pred_weight_table; pure (((lumaWeights y0.l0)).length) : Option _) == some 0 &&
      (do let y0 ← pred_weight_table; pure (((lumaOffsets y0.l0)).length) : Option _) == some 0 &&
      (do let y0 ← pred_weight_table; pure (((chromaFlags y0.chroma_array_type y0.l0)).length) : Option _) == some 1 &&
      (do let y0 ← pred_weight_table; pure ((chromaFlags y0.chroma_array_type y0.l0)) : Option _) == some [0] &&
      (do let y0 ← pred_weight_table; pure (((chromaWeights y0.l0)).length) : Option _) == some 0 &&
      (do let y0 ← pred_weight_table; pure (((chromaOffsets y0.l0)).length) : Option _) == some 0 &&
      (do let y0 ← pred_weight_table; pure (((lumaFlags y0.l1)).length) : Option _) == some 0 &&
      (do let y0 ← pred_weight_table; pure (((lumaWeights y0.l1)).length) : Option _) == some 0 &&
      (do let y0 ← pred_weight_table; pure (((lumaOffsets y0.l1)).length) : Option _) == some 0 &&
      (do let y0 ← pred_weight_table; pure (((chromaFlags y0.chroma_array_type y0.l1)).length) : Option _) == some 0 &&
      (do let y0 ← pred_weight_table; pure (((chromaWeights y0.l1)).length) : Option _) == some 0 &&
      (do let y0 ← pred_weight_table; pure (((chromaOffsets y0.l1)).length) : Option _) == some 0) : Res Bool) = .val true := by decide +kernel

/-- TestSamplePredWeightTable2 (test/h264_pred_weight_table_parser_unittest.cc:58), 15 expectations. -/
example : ∀ nd : Bool, (do
    let pred_weight_table ← onBytes nd (parsePredWeightTable 1 5 12 0) ([145, 109, 109, 106, 116, 105, 109, 27, 74, 201, 148, 192, 0, 0, 0, 175, 255, 34, 153, 174, 198, 88, 66, 137, 53, 134, 64, 35] : List UInt8)
    pure (pred_weight_table.isSome &&
      (do let y0 ← pred_weight_table; pure (y0.luma_log2_weight_denom) : Option _) == some 0 &&
      (do let y0 ← pred_weight_table; pure (y0.chroma_log2_weight_denom) : Option _) == some 3 &&
      (do let y0 ← pred_weight_table; pure ((lumaFlags y0.l0)) : Option _) == some [0, 1, 0, 0, 1, 0, 1, 0, 1, 0, 0, 0, 0] &&
      (do let y0 ← pred_weight_table; pure ((lumaWeights y0.l0)) : Option _) == some [(-1), (-1), (-1), 2] &&
      (do let y0 ← pred_weight_table; pure ((lumaOffsets y0.l0)) : Option _) == some [1, 2, 6, 0] &&
      (do let y0 ← pred_weight_table; pure ((chromaFlags y0.chroma_array_type y0.l0)) : Option _) == some [1, 1, 1, 1, 1, 1, 1, 0, 1, 0, 0, 0, 0] &&
      (do let y0 ← pred_weight_table; pure ((chromaOffsets y0.l0)) : Option _) == some [[(-1), 0], [1, (-3)], [(-2), (-1)], [0, 1], [(-2), 369091667], [1, 0], [8, 1], [0, (-12)]] &&
      (do let y0 ← pred_weight_table; pure ((chromaWeights y0.l0)) : Option _) == some [[(-1), 1], [0, 0], [(-6), 0], [(-6), 1], [0, 3], [0, 0], [(-1), 0], [1, 0]] &&
      (do let y0 ← pred_weight_table; pure (((lumaFlags y0.l1)).length) : Option _) == some 0 &&
      (do let y0 ← pred_weight_table; pure (((lumaWeights y0.l1)).length) : Option _) == some 0 &&
      (do let y0 ← pred_weight_table; pure (((lumaOffsets y0.l1)).length) : Option _) == some 0 &&
      (do let y0 ← pred_weight_table; pure (((chromaFlags y0.chroma_array_type y0.l1)).length) : Option _) == some 0 &&
      (do let y0 ← pred_weight_table; pure (((chromaWeights y0.l1)).length) : Option _) == some 0 &&
      (do let y0 ← pred_weight_table; pure (((chromaOffsets y0.l1)).length) : Option _) == some 0) : Res Bool) = .val true := by decide +kernel

/-! ### test/h264_prefix_nal_unit_parser_unittest.cc -/

/-- TestPrefixNalUnitParser01 (test/h264_prefix_nal_unit_parser_unittest.cc:22), 5 expectations. -/
example : ∀ nd : Bool, (do
    let prefix_nal_unit_rbsp ← onBytes nd (parsePrefixRbsp 1 2 1 1) ([32] : List UInt8)
    pure (prefix_nal_unit_rbsp.isSome &&
      ((do let y0 ← prefix_nal_unit_rbsp; pure (y0) : Option _).map (fun x => x.prefix_nal_unit_svc.isSome)) == some true &&
      (do let y0 ← prefix_nal_unit_rbsp; let y1 ← y0.prefix_nal_unit_svc; pure (y1.store_ref_base_pic_flag) : Option _) == some 0 &&
      (do let y0 ← prefix_nal_unit_rbsp; let y1 ← y0.prefix_nal_unit_svc; pure (y1.additional_prefix_nal_unit_extension_flag) : Option _) == some 0 &&
      (do let y0 ← prefix_nal_unit_rbsp; let y1 ← y0.prefix_nal_unit_svc; pure (y1.additional_prefix_nal_unit_extension_data_flag) : Option _) == some 0) : Res Bool) = .val true := by decide +kernel

/-- TestSampleNalUnit01 (test/h264_prefix_nal_unit_parser_unittest.cc:51), 21 expectations. -/
example : ∀ nd : Bool, (do
    let (nal_unit, σ0, _) ← parseNalUnit nd { add_checksum := true } ([110, 192, 128, 15] : List UInt8) 0 ([110, 192, 128, 15] : List UInt8).length  ({  } : Store) 0
    pure (nal_unit.isSome &&
      (do let y0 ← nal_unit; pure (y0.parsed_length) : Option _) == some 4 &&
      (do let y0 ← nal_unit; pure (y0.nal_unit_header) : Option _).isSome &&
      (do let y0 ← nal_unit; pure (y0.nal_unit_header.forbidden_zero_bit) : Option _) == some 0 &&
      (do let y0 ← nal_unit; pure (y0.nal_unit_header.nal_ref_idc) : Option _) == some 3 &&
      (do let y0 ← nal_unit; pure (y0.nal_unit_header.nal_unit_type) : Option _) == some 14 &&
      (do let y0 ← nal_unit; pure (y0.nal_unit_header.svc_extension_flag) : Option _) == some 1 &&
      (do let y0 ← nal_unit; pure (y0.nal_unit_header.avc_3d_extension_flag) : Option _) == some 0 &&
      ((do let y0 ← nal_unit; pure (y0.nal_unit_header) : Option _).map (fun x => x.svc_extension.isSome)) == some true &&
      (do let y0 ← nal_unit; let y1 ← y0.nal_unit_header.svc_extension; pure (y1.idr_flag) : Option _) == some 1 &&
      (do let y0 ← nal_unit; let y1 ← y0.nal_unit_header.svc_extension; pure (y1.priority_id) : Option _) == some 0 &&
      (do let y0 ← nal_unit; let y1 ← y0.nal_unit_header.svc_extension; pure (y1.no_inter_layer_pred_flag) : Option _) == some 1 &&
      (do let y0 ← nal_unit; let y1 ← y0.nal_unit_header.svc_extension; pure (y1.dependency_id) : Option _) == some 0 &&
      (do let y0 ← nal_unit; let y1 ← y0.nal_unit_header.svc_extension; pure (y1.quality_id) : Option _) == some 0 &&
      (do let y0 ← nal_unit; let y1 ← y0.nal_unit_header.svc_extension; pure (y1.temporal_id) : Option _) == some 0 &&
      (do let y0 ← nal_unit; let y1 ← y0.nal_unit_header.svc_extension; pure (y1.use_ref_base_pic_flag) : Option _) == some 0 &&
      (do let y0 ← nal_unit; let y1 ← y0.nal_unit_header.svc_extension; pure (y1.discardable_flag) : Option _) == some 1 &&
      (do let y0 ← nal_unit; let y1 ← y0.nal_unit_header.svc_extension; pure (y1.output_flag) : Option _) == some 1 &&
      (do let y0 ← nal_unit; let y1 ← y0.nal_unit_header.svc_extension; pure (y1.reserved_three_2bits) : Option _) == some 3 &&
      (do let y0 ← nal_unit; pure (y0.nal_unit_payload) : Option _).isSome &&
      ((do let y0 ← nal_unit; pure (y0.nal_unit_payload) : Option _).map (fun x => x.prefix_nal_unit.isNone)) == some true) : Res Bool) = .val true := by decide +kernel

/-- TestSampleNalUnit01Fixed (test/h264_prefix_nal_unit_parser_unittest.cc:103), 28 expectations. -/
example : ∀ nd : Bool, (do
    let (nal_unit, σ0, _) ← parseNalUnit nd { add_checksum := true } ([110, 192, 128, 15, 255] : List UInt8) 0 ([110, 192, 128, 15, 255] : List UInt8).length  ({  } : Store) 0
    pure (nal_unit.isSome &&
      (do let y0 ← nal_unit; pure (y0.parsed_length) : Option _) == some 5 &&
      (do let y0 ← nal_unit; pure (y0.nal_unit_header) : Option _).isSome &&
      (do let y0 ← nal_unit; pure (y0.nal_unit_header.forbidden_zero_bit) : Option _) == some 0 &&
      (do let y0 ← nal_unit; pure (y0.nal_unit_header.nal_ref_idc) : Option _) == some 3 &&
      (do let y0 ← nal_unit; pure (y0.nal_unit_header.nal_unit_type) : Option _) == some 14 &&
      (do let y0 ← nal_unit; pure (y0.nal_unit_header.svc_extension_flag) : Option _) == some 1 &&
      (do let y0 ← nal_unit; pure (y0.nal_unit_header.avc_3d_extension_flag) : Option _) == some 0 &&
      ((do let y0 ← nal_unit; pure (y0.nal_unit_header) : Option _).map (fun x => x.svc_extension.isSome)) == some true &&
      (do let y0 ← nal_unit; let y1 ← y0.nal_unit_header.svc_extension; pure (y1.idr_flag) : Option _) == some 1 &&
      (do let y0 ← nal_unit; let y1 ← y0.nal_unit_header.svc_extension; pure (y1.priority_id) : Option _) == some 0 &&
      (do let y0 ← nal_unit; let y1 ← y0.nal_unit_header.svc_extension; pure (y1.no_inter_layer_pred_flag) : Option _) == some 1 &&
      (do let y0 ← nal_unit; let y1 ← y0.nal_unit_header.svc_extension; pure (y1.dependency_id) : Option _) == some 0 &&
      (do let y0 ← nal_unit; let y1 ← y0.nal_unit_header.svc_extension; pure (y1.quality_id) : Option _) == some 0 &&
      (do let y0 ← nal_unit; let y1 ← y0.nal_unit_header.svc_extension; pure (y1.temporal_id) : Option _) == some 0 &&
      (do let y0 ← nal_unit; let y1 ← y0.nal_unit_header.svc_extension; pure (y1.use_ref_base_pic_flag) : Option _) == some 0 &&
      (do let y0 ← nal_unit; let y1 ← y0.nal_unit_header.svc_extension; pure (y1.discardable_flag) : Option _) == some 1 &&
      (do let y0 ← nal_unit; let y1 ← y0.nal_unit_header.svc_extension; pure (y1.output_flag) : Option _) == some 1 &&
      (do let y0 ← nal_unit; let y1 ← y0.nal_unit_header.svc_extension; pure (y1.reserved_three_2bits) : Option _) == some 3 &&
      (do let y0 ← nal_unit; pure (y0.nal_unit_payload) : Option _).isSome &&
      ((do let y0 ← nal_unit; pure (y0.nal_unit_payload) : Option _).map (fun x => x.prefix_nal_unit.isSome)) == some true &&
      ((do let y0 ← nal_unit; let y1 ← y0.nal_unit_payload.prefix_nal_unit; pure (y1) : Option _).map (fun x => x.prefix_nal_unit_svc.isSome)) == some true &&
      (do let y0 ← nal_unit; let y1 ← y0.nal_unit_payload.prefix_nal_unit; let y2 ← y1.prefix_nal_unit_svc; pure (y2.nal_ref_idc) : Option _) == some 3 &&
      (do let y0 ← nal_unit; let y1 ← y0.nal_unit_payload.prefix_nal_unit; let y2 ← y1.prefix_nal_unit_svc; pure (y2.use_ref_base_pic_flag) : Option _) == some 0 &&
      (do let y0 ← nal_unit; let y1 ← y0.nal_unit_payload.prefix_nal_unit; let y2 ← y1.prefix_nal_unit_svc; pure (y2.idr_flag) : Option _) == some 1 &&
      (do let y0 ← nal_unit; let y1 ← y0.nal_unit_payload.prefix_nal_unit; let y2 ← y1.prefix_nal_unit_svc; pure (y2.store_ref_base_pic_flag) : Option _) == some 1 &&
      (do let y0 ← nal_unit; let y1 ← y0.nal_unit_payload.prefix_nal_unit; let y2 ← y1.prefix_nal_unit_svc; pure (y2.additional_prefix_nal_unit_extension_flag) : Option _) == some 1 &&
      (do let y0 ← nal_unit; let y1 ← y0.nal_unit_payload.prefix_nal_unit; let y2 ← y1.prefix_nal_unit_svc; pure (y2.additional_prefix_nal_unit_extension_data_flag) : Option _) == some 1) : Res Bool) = .val true := by decide +kernel

/-! ### test/h264_ref_pic_list_modification_parser_unittest.cc -/

/-- TestSampleRefPicListModification601NonIDR (test/h264_ref_pic_list_modification_parser_unittest.cc:21), 2 expectations. -/
example : ∀ nd : Bool, (do
    let ref_pic_list_modification ← onBytes nd (parseRefPicListMod 5) ([0] : List UInt8)
    pure (ref_pic_list_modification.isSome &&
      (do let y0 ← ref_pic_list_modification; pure (y0.ref_pic_list_modification_flag_l0) : Option _) == some 0) : Res Bool) = .val true := by decide +kernel

/-! ### test/h264_rtp_fua_parser_unittest.cc -/

/-- TestSampleStart (test/h264_rtp_fua_parser_unittest.cc:21), 11 expectations. -/
example : ∀ nd : Bool, (do
    let (rtp_fua, σ0, _) ← parseRtpFuAData nd ([124, 133, 136, 130, 6, 120, 140, 80, 0] : List UInt8) 0 ([124, 133, 136, 130, 6, 120, 140, 80, 0] : List UInt8).length 3 ({ sps := (upd (fun _ => none) 0 ({ log2_max_frame_num_minus4 := 1, frame_mbs_only_flag := 1, pic_order_cnt_type := 2, delta_pic_order_always_zero_flag := 0, pic_width_in_mbs_minus1 := 0, pic_height_in_map_units_minus1 := 0 } : SpsData)), pps := (upd (fun _ => none) 0 ({ bottom_field_pic_order_in_frame_present_flag := 0, redundant_pic_cnt_present_flag := 0, weighted_pred_flag := 0, weighted_bipred_idc := 0, entropy_coding_mode_flag := 0, deblocking_filter_control_present_flag := 1, num_slice_groups_minus1 := 0, slice_group_map_type := 0, slice_group_change_rate_minus1 := 0 } : Pps)) } : Store) 0
    pure (rtp_fua.isSome &&
      (do let y0 ← rtp_fua; pure (y0.header.forbidden_zero_bit) : Option _) == some 0 &&
      (do let y0 ← rtp_fua; pure (y0.header.nal_ref_idc) : Option _) == some 3 &&
      (do let y0 ← rtp_fua; pure (y0.header.nal_unit_type) : Option _) == some 28 &&
      (do let y0 ← rtp_fua; pure (y0.s_bit) : Option _) == some 1 &&
      (do let y0 ← rtp_fua; pure (y0.e_bit) : Option _) == some 0 &&
      (do let y0 ← rtp_fua; pure (y0.r_bit) : Option _) == some 0 &&
      (do let y0 ← rtp_fua; pure (y0.fu_type) : Option _) == some 5 &&
      ((do let y0 ← rtp_fua; let y1 ← y0.nal_unit_payload; let y2 ← y1.slice_layer_without_partitioning_rbsp; pure (y2) : Option _).map (fun x => x.slice_header.isSome)) == some true &&
      (do let y0 ← rtp_fua; let y1 ← y0.nal_unit_payload; let y2 ← y1.slice_layer_without_partitioning_rbsp; let y3 ← y2.slice_header; pure (y3.first_mb_in_slice) : Option _) == some 0 &&
      (do let y0 ← rtp_fua; let y1 ← y0.nal_unit_payload; let y2 ← y1.slice_layer_without_partitioning_rbsp; let y3 ← y2.slice_header; pure (y3.slice_type) : Option _) == some 7) : Res Bool) = .val true := by decide +kernel

/-- TestSampleMiddle (test/h264_rtp_fua_parser_unittest.cc:83), 8 expectations. -/
example : ∀ nd : Bool, (do
    let (rtp_fua, σ0, _) ← parseRtpFuAData nd ([124, 5, 28, 171, 142, 0, 2, 251, 49, 192] : List UInt8) 0 ([124, 5, 28, 171, 142, 0, 2, 251, 49, 192] : List UInt8).length 3 ({  } : Store) 0
    pure (rtp_fua.isSome &&
      (do let y0 ← rtp_fua; pure (y0.header.forbidden_zero_bit) : Option _) == some 0 &&
      (do let y0 ← rtp_fua; pure (y0.header.nal_ref_idc) : Option _) == some 3 &&
      (do let y0 ← rtp_fua; pure (y0.header.nal_unit_type) : Option _) == some 28 &&
      (do let y0 ← rtp_fua; pure (y0.s_bit) : Option _) == some 0 &&
      (do let y0 ← rtp_fua; pure (y0.e_bit) : Option _) == some 0 &&
      (do let y0 ← rtp_fua; pure (y0.r_bit) : Option _) == some 0 &&
      (do let y0 ← rtp_fua; pure (y0.fu_type) : Option _) == some 5) : Res Bool) = .val true := by decide +kernel

/-- TestSampleEnd (test/h264_rtp_fua_parser_unittest.cc:113), 8 expectations. -/
example : ∀ nd : Bool, (do
    let (rtp_fua, σ0, _) ← parseRtpFuAData nd ([124, 69, 0, 95, 102, 251, 239, 190] : List UInt8) 0 ([124, 69, 0, 95, 102, 251, 239, 190] : List UInt8).length 3 ({  } : Store) 0
    pure (rtp_fua.isSome &&
      (do let y0 ← rtp_fua; pure (y0.header.forbidden_zero_bit) : Option _) == some 0 &&
      (do let y0 ← rtp_fua; pure (y0.header.nal_ref_idc) : Option _) == some 3 &&
      (do let y0 ← rtp_fua; pure (y0.header.nal_unit_type) : Option _) == some 28 &&
      (do let y0 ← rtp_fua; pure (y0.s_bit) : Option _) == some 0 &&
      (do let y0 ← rtp_fua; pure (y0.e_bit) : Option _) == some 1 &&
      (do let y0 ← rtp_fua; pure (y0.r_bit) : Option _) == some 0 &&
      (do let y0 ← rtp_fua; pure (y0.fu_type) : Option _) == some 5) : Res Bool) = .val true := by decide +kernel

/-! ### test/h264_rtp_parser_unittest.cc -/

/-- TestSampleSingle (test/h264_rtp_parser_unittest.cc:21), 10 expectations. -/
example : ∀ nd : Bool, (do
    let (rtp, σ0, _) ← parseRtpData nd ([103, 66, 192, 22, 166, 17, 5, 7, 233, 178, 0, 0, 3, 0, 2, 0, 0, 3, 0, 100, 30, 44, 92, 35] : List UInt8) 0 ([103, 66, 192, 22, 166, 17, 5, 7, 233, 178, 0, 0, 3, 0, 2, 0, 0, 3, 0, 100, 30, 44, 92, 35] : List UInt8).length  ({  } : Store) 0
    pure (rtp.isSome &&
      (do let y0 ← rtp; pure (y0.nal_unit_header.forbidden_zero_bit) : Option _) == some 0 &&
      (do let y0 ← rtp; pure (y0.nal_unit_header.nal_ref_idc) : Option _) == some 3 &&
      (do let y0 ← rtp; pure (y0.nal_unit_header.nal_unit_type) : Option _) == some 7 &&
      (do let y0 ← rtp; let y1 ← y0.rtp_single; let y2 ← y1.nal_unit_payload.sps; pure (y2.profile_idc) : Option _) == some 66 &&
      (do let y0 ← rtp; let y1 ← y0.rtp_single; let y2 ← y1.nal_unit_payload.sps; pure (y2.pic_width_in_mbs_minus1) : Option _) == some 19 &&
      (do let y0 ← rtp; let y1 ← y0.rtp_single; let y2 ← y1.nal_unit_payload.sps; pure (y2.pic_height_in_map_units_minus1) : Option _) == some 14 &&
      (do let i ← (do let y0 ← rtp; let y1 ← y0.rtp_single; let y2 ← y1.nal_unit_payload.sps; pure (y2.seq_parameter_set_id) : Option _); let y0 ← σ0.sps i; pure (y0.profile_idc) : Option _) == some 66 &&
      (do let i ← (do let y0 ← rtp; let y1 ← y0.rtp_single; let y2 ← y1.nal_unit_payload.sps; pure (y2.seq_parameter_set_id) : Option _); let y0 ← σ0.sps i; pure (y0.pic_width_in_mbs_minus1) : Option _) == some 19 &&
      (do let i ← (do let y0 ← rtp; let y1 ← y0.rtp_single; let y2 ← y1.nal_unit_payload.sps; pure (y2.seq_parameter_set_id) : Option _); let y0 ← σ0.sps i; pure (y0.pic_height_in_map_units_minus1) : Option _) == some 14) : Res Bool) = .val true := by decide +kernel

/-- TestSampleApAndFu (test/h264_rtp_parser_unittest.cc:56), 19 expectations. -/
example : ∀ nd : Bool, (do
    let (rtp, σ0, _) ← parseRtpData nd ([120, 0, 24, 103, 66, 192, 22, 166, 17, 5, 7, 233, 178, 0, 0, 3, 0, 2, 0, 0, 3, 0, 100, 30, 44, 92, 35, 0, 5, 104, 200, 66, 2, 50, 200] : List UInt8) 0 ([120, 0, 24, 103, 66, 192, 22, 166, 17, 5, 7, 233, 178, 0, 0, 3, 0, 2, 0, 0, 3, 0, 100, 30, 44, 92, 35, 0, 5, 104, 200, 66, 2, 50, 200] : List UInt8).length  ({  } : Store) 0
    let (rtp2, σ1, _) ← parseRtpData nd ([124, 133, 136, 130, 6, 120, 140, 80, 0] : List UInt8) 0 ([124, 133, 136, 130, 6, 120, 140, 80, 0] : List UInt8).length  σ0 0
    pure (rtp.isSome &&
      (do let y0 ← rtp; pure (y0.nal_unit_header.forbidden_zero_bit) : Option _) == some 0 &&
      (do let y0 ← rtp; pure (y0.nal_unit_header.nal_ref_idc) : Option _) == some 3 &&
      (do let y0 ← rtp; pure (y0.nal_unit_header.nal_unit_type) : Option _) == some 24 &&
      (do let y0 ← rtp; let y1 ← y0.rtp_stapa; pure (((y1.nal_units.map (·.1))).length) : Option _) == some 2 &&
      (do let y0 ← rtp; let y1 ← y0.rtp_stapa; pure (((y1.nal_units.map (·.2.1))).length) : Option _) == some 2 &&
      (do let y0 ← rtp; let y1 ← y0.rtp_stapa; pure (((y1.nal_units.map (·.2.2))).length) : Option _) == some 2 &&
      (do let y0 ← rtp; let y1 ← y0.rtp_stapa; let y2 ← ((y1.nal_units.map (·.2.1)))[0]?; pure (y2.nal_unit_type) : Option _) == some 7 &&
      (do let y0 ← rtp; let y1 ← y0.rtp_stapa; let y2 ← ((y1.nal_units.map (·.2.1)))[1]?; pure (y2.nal_unit_type) : Option _) == some 8 &&
      rtp2.isSome &&
      (do let y0 ← rtp2; pure (y0.nal_unit_header.forbidden_zero_bit) : Option _) == some 0 &&
      (do let y0 ← rtp2; pure (y0.nal_unit_header.nal_ref_idc) : Option _) == some 3 &&
      (do let y0 ← rtp2; pure (y0.nal_unit_header.nal_unit_type) : Option _) == some 28 &&
      (do let y0 ← rtp2; let y1 ← y0.rtp_fua; pure (y1.s_bit) : Option _) == some 1 &&
      (do let y0 ← rtp2; let y1 ← y0.rtp_fua; pure (y1.e_bit) : Option _) == some 0 &&
      (do let y0 ← rtp2; let y1 ← y0.rtp_fua; pure (y1.r_bit) : Option _) == some 0 &&
      (do let y0 ← rtp2; let y1 ← y0.rtp_fua; pure (y1.fu_type) : Option _) == some 5 &&
      (do let y0 ← rtp2; let y1 ← y0.rtp_fua; let y2 ← y1.nal_unit_payload; let y3 ← y2.slice_layer_without_partitioning_rbsp; let y4 ← y3.slice_header; pure (y4.first_mb_in_slice) : Option _) == some 0 &&
      (do let y0 ← rtp2; let y1 ← y0.rtp_fua; let y2 ← y1.nal_unit_payload; let y3 ← y2.slice_layer_without_partitioning_rbsp; let y4 ← y3.slice_header; pure (y4.slice_type) : Option _) == some 7) : Res Bool) = .val true := by decide +kernel

/-! ### test/h264_rtp_single_parser_unittest.cc -/

/-- TestSampleSps (test/h264_rtp_single_parser_unittest.cc:23), 4 expectations. -/
example : ∀ nd : Bool, (do
    let (rtp_single, σ0, _) ← parseRtpSingleData nd ([103, 66, 192, 22, 166, 17, 5, 7, 233, 178, 0, 0, 3, 0, 2, 0, 0, 3, 0, 100, 30, 44, 92, 35] : List UInt8) 0 ([103, 66, 192, 22, 166, 17, 5, 7, 233, 178, 0, 0, 3, 0, 2, 0, 0, 3, 0, 100, 30, 44, 92, 35] : List UInt8).length  ({  } : Store) 0
    pure (rtp_single.isSome &&
      (do let y0 ← rtp_single; pure (y0.nal_unit_header.forbidden_zero_bit) : Option _) == some 0 &&
      (do let y0 ← rtp_single; pure (y0.nal_unit_header.nal_ref_idc) : Option _) == some 3 &&
      (do let y0 ← rtp_single; pure (y0.nal_unit_header.nal_unit_type) : Option _) == some 7) : Res Bool) = .val true := by decide +kernel

/-! ### test/h264_rtp_stapa_parser_unittest.cc -/

/-- TestSampleAUD (test/h264_rtp_stapa_parser_unittest.cc:21), 9 expectations. -/
example : ∀ nd : Bool, (do
    let (rtp_stapa, σ0, _) ← parseRtpStapAData nd ([120, 0, 24, 103, 66, 192, 22, 166, 17, 5, 7, 233, 178, 0, 0, 3, 0, 2, 0, 0, 3, 0, 100, 30, 44, 92, 35, 0, 5, 104, 200, 66, 2, 50, 200] : List UInt8) 0 ([120, 0, 24, 103, 66, 192, 22, 166, 17, 5, 7, 233, 178, 0, 0, 3, 0, 2, 0, 0, 3, 0, 100, 30, 44, 92, 35, 0, 5, 104, 200, 66, 2, 50, 200] : List UInt8).length  ({  } : Store) 0
    pure (rtp_stapa.isSome &&
      (do let y0 ← rtp_stapa; pure (y0.header.forbidden_zero_bit) : Option _) == some 0 &&
      (do let y0 ← rtp_stapa; pure (y0.header.nal_ref_idc) : Option _) == some 3 &&
      (do let y0 ← rtp_stapa; pure (y0.header.nal_unit_type) : Option _) == some 24 &&
      (do let y0 ← rtp_stapa; pure (((y0.nal_units.map (·.1))).length) : Option _) == some 2 &&
      (do let y0 ← rtp_stapa; pure (((y0.nal_units.map (·.2.1))).length) : Option _) == some 2 &&
      (do let y0 ← rtp_stapa; pure (((y0.nal_units.map (·.2.2))).length) : Option _) == some 2 &&
      (do let y0 ← rtp_stapa; let y1 ← ((y0.nal_units.map (·.2.1)))[0]?; pure (y1.nal_unit_type) : Option _) == some 7 &&
      (do let y0 ← rtp_stapa; let y1 ← ((y0.nal_units.map (·.2.1)))[1]?; pure (y1.nal_unit_type) : Option _) == some 8) : Res Bool) = .val true := by decide +kernel

/-! ### test/h264_slice_header_in_scalable_extension_parser_unittest.cc -/

/-- TestSampleBitstream01 (test/h264_slice_header_in_scalable_extension_parser_unittest.cc:46), 90 expectations. -/
example : ∀ nd : Bool, (do
    let (bitstream, σ0, _) ← parseBitstream nd { add_checksum := true } ([0, 0, 0, 1, 103, 66, 0, 10, 166, 130, 196, 228, 0, 0, 0, 1, 104, 206, 7, 114, 0, 0, 0, 1, 111, 83, 0, 11, 172, 77, 2, 193, 44, 129, 32, 0, 0, 0, 1, 104, 83, 129, 220, 128, 0, 0, 0, 1, 101, 184, 17, 126, 32, 226, 248, 8, 62, 239, 192, 8, 76, 24, 183, 84, 190, 62, 30, 206, 78, 75, 60, 79, 0, 0, 0, 1, 116, 192, 144, 15, 180, 4, 95, 192, 196, 66, 0, 4, 224, 207, 192, 248, 0, 26, 100, 5, 99, 251, 19, 159, 252, 177, 191, 199, 133, 62, 107, 77, 6, 217, 223, 32, 149, 254, 178, 180, 237, 33, 244, 224, 93, 79, 36, 111, 122, 105, 253, 64, 18, 174, 66, 113, 210, 202, 147, 54, 172, 24, 189, 79] : List UInt8)  ({  } : Store) 0
    pure ((some ((bitstream.nal_units).length)) == some 6 &&
      (do let y0 ← (bitstream.nal_units)[0]?; pure (y0.nal_unit_header.forbidden_zero_bit) : Option _) == some 0 &&
      (do let y0 ← (bitstream.nal_units)[0]?; pure (y0.nal_unit_header.nal_ref_idc) : Option _) == some 3 &&
      (do let y0 ← (bitstream.nal_units)[0]?; pure (y0.nal_unit_header.nal_unit_type) : Option _) == some 7 &&
      (do let y0 ← (bitstream.nal_units)[1]?; pure (y0.nal_unit_header.forbidden_zero_bit) : Option _) == some 0 &&
      (do let y0 ← (bitstream.nal_units)[1]?; pure (y0.nal_unit_header.nal_ref_idc) : Option _) == some 3 &&
      (do let y0 ← (bitstream.nal_units)[1]?; pure (y0.nal_unit_header.nal_unit_type) : Option _) == some 8 &&
      (do let y0 ← (bitstream.nal_units)[2]?; pure (y0.nal_unit_header.forbidden_zero_bit) : Option _) == some 0 &&
      (do let y0 ← (bitstream.nal_units)[2]?; pure (y0.nal_unit_header.nal_ref_idc) : Option _) == some 3 &&
      (do let y0 ← (bitstream.nal_units)[2]?; pure (y0.nal_unit_header.nal_unit_type) : Option _) == some 15 &&
      (do let y0 ← (bitstream.nal_units)[3]?; pure (y0.nal_unit_header.forbidden_zero_bit) : Option _) == some 0 &&
      (do let y0 ← (bitstream.nal_units)[3]?; pure (y0.nal_unit_header.nal_ref_idc) : Option _) == some 3 &&
      (do let y0 ← (bitstream.nal_units)[3]?; pure (y0.nal_unit_header.nal_unit_type) : Option _) == some 8 &&
      (do let y0 ← (bitstream.nal_units)[4]?; pure (y0.nal_unit_header.forbidden_zero_bit) : Option _) == some 0 &&
      (do let y0 ← (bitstream.nal_units)[4]?; pure (y0.nal_unit_header.nal_ref_idc) : Option _) == some 3 &&
      (do let y0 ← (bitstream.nal_units)[4]?; pure (y0.nal_unit_header.nal_unit_type) : Option _) == some 5 &&
      (do let y0 ← (bitstream.nal_units)[5]?; pure (y0.nal_unit_header.forbidden_zero_bit) : Option _) == some 0 &&
      (do let y0 ← (bitstream.nal_units)[5]?; pure (y0.nal_unit_header.nal_ref_idc) : Option _) == some 3 &&
      (do let y0 ← (bitstream.nal_units)[5]?; pure (y0.nal_unit_header.nal_unit_type) : Option _) == some 20 &&
      (do let y0 ← (bitstream.nal_units)[5]?; pure (y0.nal_unit_header) : Option _).isSome &&
      (do let y0 ← (bitstream.nal_units)[5]?; pure (y0.nal_unit_header.svc_extension_flag) : Option _) == some 1 &&
      (do let y0 ← (bitstream.nal_units)[5]?; pure (y0.nal_unit_header.avc_3d_extension_flag) : Option _) == some 0 &&
      ((do let y0 ← (bitstream.nal_units)[5]?; pure (y0.nal_unit_header) : Option _).map (fun x => x.svc_extension.isSome)) == some true &&
      (do let y0 ← (bitstream.nal_units)[5]?; let y1 ← y0.nal_unit_header.svc_extension; pure (y1.idr_flag) : Option _) == some 1 &&
      (do let y0 ← (bitstream.nal_units)[5]?; let y1 ← y0.nal_unit_header.svc_extension; pure (y1.priority_id) : Option _) == some 0 &&
      (do let y0 ← (bitstream.nal_units)[5]?; let y1 ← y0.nal_unit_header.svc_extension; pure (y1.no_inter_layer_pred_flag) : Option _) == some 1 &&
      (do let y0 ← (bitstream.nal_units)[5]?; let y1 ← y0.nal_unit_header.svc_extension; pure (y1.dependency_id) : Option _) == some 1 &&
      (do let y0 ← (bitstream.nal_units)[5]?; let y1 ← y0.nal_unit_header.svc_extension; pure (y1.quality_id) : Option _) == some 0 &&
      (do let y0 ← (bitstream.nal_units)[5]?; let y1 ← y0.nal_unit_header.svc_extension; pure (y1.temporal_id) : Option _) == some 0 &&
      (do let y0 ← (bitstream.nal_units)[5]?; let y1 ← y0.nal_unit_header.svc_extension; pure (y1.use_ref_base_pic_flag) : Option _) == some 0 &&
      (do let y0 ← (bitstream.nal_units)[5]?; let y1 ← y0.nal_unit_header.svc_extension; pure (y1.discardable_flag) : Option _) == some 1 &&
      (do let y0 ← (bitstream.nal_units)[5]?; let y1 ← y0.nal_unit_header.svc_extension; pure (y1.output_flag) : Option _) == some 1 &&
      (do let y0 ← (bitstream.nal_units)[5]?; let y1 ← y0.nal_unit_header.svc_extension; pure (y1.reserved_three_2bits) : Option _) == some 3 &&
      (do let y0 ← (bitstream.nal_units)[5]?; pure (y0.nal_unit_payload) : Option _).isSome &&
      ((do let y0 ← (bitstream.nal_units)[5]?; pure (y0.nal_unit_payload) : Option _).map (fun x => x.slice_layer_extension_rbsp.isSome)) == some true &&
      ((do let y0 ← (bitstream.nal_units)[5]?; let y1 ← y0.nal_unit_payload.slice_layer_extension_rbsp; pure (y1) : Option _).map (fun x => x.slice_header_in_scalable_extension.isSome)) == some true &&
      (do let y0 ← (bitstream.nal_units)[5]?; let y1 ← y0.nal_unit_payload.slice_layer_extension_rbsp; let y2 ← y1.slice_header_in_scalable_extension; pure (y2.first_mb_in_slice) : Option _) == some 0 &&
      (do let y0 ← (bitstream.nal_units)[5]?; let y1 ← y0.nal_unit_payload.slice_layer_extension_rbsp; let y2 ← y1.slice_header_in_scalable_extension; pure (y2.slice_type) : Option _) == some 2 &&
      (do let y0 ← (bitstream.nal_units)[5]?; let y1 ← y0.nal_unit_payload.slice_layer_extension_rbsp; let y2 ← y1.slice_header_in_scalable_extension; pure (y2.pic_parameter_set_id) : Option _) == some 1 &&
      (do let y0 ← (bitstream.nal_units)[5]?; let y1 ← y0.nal_unit_payload.slice_layer_extension_rbsp; let y2 ← y1.slice_header_in_scalable_extension; pure (y2.pic.colour_plane_id) : Option _) == some 0 &&
      (do let y0 ← (bitstream.nal_units)[5]?; let y1 ← y0.nal_unit_payload.slice_layer_extension_rbsp; let y2 ← y1.slice_header_in_scalable_extension; pure (y2.pic.frame_num) : Option _) == some 0 &&
      (do let y0 ← (bitstream.nal_units)[5]?; let y1 ← y0.nal_unit_payload.slice_layer_extension_rbsp; let y2 ← y1.slice_header_in_scalable_extension; pure (y2.pic.field_pic_flag) : Option _) == some 0 &&
      (do let y0 ← (bitstream.nal_units)[5]?; let y1 ← y0.nal_unit_payload.slice_layer_extension_rbsp; let y2 ← y1.slice_header_in_scalable_extension; pure (y2.pic.bottom_field_flag) : Option _) == some 0 &&
      (do let y0 ← (bitstream.nal_units)[5]?; let y1 ← y0.nal_unit_payload.slice_layer_extension_rbsp; let y2 ← y1.slice_header_in_scalable_extension; pure (y2.pic.idr_pic_id) : Option _) == some 1 &&
      (do let y0 ← (bitstream.nal_units)[5]?; let y1 ← y0.nal_unit_payload.slice_layer_extension_rbsp; let y2 ← y1.slice_header_in_scalable_extension; pure (y2.pic.pic_order_cnt_lsb) : Option _) == some 0 &&
      (do let y0 ← (bitstream.nal_units)[5]?; let y1 ← y0.nal_unit_payload.slice_layer_extension_rbsp; let y2 ← y1.slice_header_in_scalable_extension; pure (y2.pic.delta_pic_order_cnt_bottom) : Option _) == some 0 &&
      (do let y0 ← (bitstream.nal_units)[5]?; let y1 ← y0.nal_unit_payload.slice_layer_extension_rbsp; let y2 ← y1.slice_header_in_scalable_extension; pure ((y2.pic.delta_pic_order_cnt).length) : Option _) == some 0 &&
      (do let y0 ← (bitstream.nal_units)[5]?; let y1 ← y0.nal_unit_payload.slice_layer_extension_rbsp; let y2 ← y1.slice_header_in_scalable_extension; pure (y2.ref.direct_spatial_mv_pred_flag) : Option _) == some 0 &&
      (do let y0 ← (bitstream.nal_units)[5]?; let y1 ← y0.nal_unit_payload.slice_layer_extension_rbsp; let y2 ← y1.slice_header_in_scalable_extension; pure (y2.ref.num_ref_idx_active_override_flag) : Option _) == some 0 &&
      (do let y0 ← (bitstream.nal_units)[5]?; let y1 ← y0.nal_unit_payload.slice_layer_extension_rbsp; let y2 ← y1.slice_header_in_scalable_extension; pure (y2.ref.num_ref_idx_l0_active_minus1) : Option _) == some 0 &&
      (do let y0 ← (bitstream.nal_units)[5]?; let y1 ← y0.nal_unit_payload.slice_layer_extension_rbsp; let y2 ← y1.slice_header_in_scalable_extension; pure (y2.ref.num_ref_idx_l1_active_minus1) : Option _) == some 0 &&
      ((do let y0 ← (bitstream.nal_units)[5]?; let y1 ← y0.nal_unit_payload.slice_layer_extension_rbsp; let y2 ← y1.slice_header_in_scalable_extension; pure (y2) : Option _).map (fun x => x.ref.ref_pic_list_modification.isSome)) == some true &&
      (do let y0 ← (bitstream.nal_units)[5]?; let y1 ← y0.nal_unit_payload.slice_layer_extension_rbsp; let y2 ← y1.slice_header_in_scalable_extension; let y3 ← y2.ref.ref_pic_list_modification; pure (y3.slice_type) : Option _) == some 2 &&
      (do let y0 ← (bitstream.nal_units)[5]?; let y1 ← y0.nal_unit_payload.slice_layer_extension_rbsp; let y2 ← y1.slice_header_in_scalable_extension; let y3 ← y2.ref.ref_pic_list_modification; pure (y3.ref_pic_list_modification_flag_l0) : Option _) == some 0 &&
      (do let y0 ← (bitstream.nal_units)[5]?; let y1 ← y0.nal_unit_payload.slice_layer_extension_rbsp; let y2 ← y1.slice_header_in_scalable_extension; let y3 ← y2.ref.ref_pic_list_modification; pure ((y3.modification_of_pic_nums_idc).length) : Option _) == some 0 &&
      (do let y0 ← (bitstream.nal_units)[5]?; let y1 ← y0.nal_unit_payload.slice_layer_extension_rbsp; let y2 ← y1.slice_header_in_scalable_extension; let y3 ← y2.ref.ref_pic_list_modification; pure ((y3.abs_diff_pic_num_minus1).length) : Option _) == some 0 &&
      (do let y0 ← (bitstream.nal_units)[5]?; let y1 ← y0.nal_unit_payload.slice_layer_extension_rbsp; let y2 ← y1.slice_header_in_scalable_extension; let y3 ← y2.ref.ref_pic_list_modification; pure ((y3.long_term_pic_num).length) : Option _) == some 0 &&
      (do let y0 ← (bitstream.nal_units)[5]?; let y1 ← y0.nal_unit_payload.slice_layer_extension_rbsp; let y2 ← y1.slice_header_in_scalable_extension; let y3 ← y2.ref.ref_pic_list_modification; pure (y3.ref_pic_list_modification_flag_l1) : Option _) == some 0 &&
      (do let y0 ← (bitstream.nal_units)[5]?; let y1 ← y0.nal_unit_payload.slice_layer_extension_rbsp; let y2 ← y1.slice_header_in_scalable_extension; pure (y2.ref.base_pred_weight_table_flag) : Option _) == some 0 &&
      ((do let y0 ← (bitstream.nal_units)[5]?; let y1 ← y0.nal_unit_payload.slice_layer_extension_rbsp; let y2 ← y1.slice_header_in_scalable_extension; pure (y2) : Option _).map (fun x => x.ref.pred_weight_table.isNone)) == some true &&
      ((do let y0 ← (bitstream.nal_units)[5]?; let y1 ← y0.nal_unit_payload.slice_layer_extension_rbsp; let y2 ← y1.slice_header_in_scalable_extension; pure (y2) : Option _).map (fun x => x.ref.dec_ref_pic_marking.isSome)) == some true &&
      (do let y0 ← (bitstream.nal_units)[5]?; let y1 ← y0.nal_unit_payload.slice_layer_extension_rbsp; let y2 ← y1.slice_header_in_scalable_extension; let y3 ← y2.ref.dec_ref_pic_marking; pure (y3.IdrPicFlag) : Option _) == some 1 &&
      (do let y0 ← (bitstream.nal_units)[5]?; let y1 ← y0.nal_unit_payload.slice_layer_extension_rbsp; let y2 ← y1.slice_header_in_scalable_extension; let y3 ← y2.ref.dec_ref_pic_marking; pure (y3.no_output_of_prior_pics_flag) : Option _) == some 0 &&
      (do let y0 ← (bitstream.nal_units)[5]?; let y1 ← y0.nal_unit_payload.slice_layer_extension_rbsp; let y2 ← y1.slice_header_in_scalable_extension; let y3 ← y2.ref.dec_ref_pic_marking; pure (y3.long_term_reference_flag) : Option _) == some 0 &&
      (do let y0 ← (bitstream.nal_units)[5]?; let y1 ← y0.nal_unit_payload.slice_layer_extension_rbsp; let y2 ← y1.slice_header_in_scalable_extension; let y3 ← y2.ref.dec_ref_pic_marking; pure (y3.adaptive_ref_pic_marking_mode_flag) : Option _) == some 0 &&
      (do let y0 ← (bitstream.nal_units)[5]?; let y1 ← y0.nal_unit_payload.slice_layer_extension_rbsp; let y2 ← y1.slice_header_in_scalable_extension; let y3 ← y2.ref.dec_ref_pic_marking; pure ((y3.memory_management_control_operation).length) : Option _) == some 0 &&
      (do let y0 ← (bitstream.nal_units)[5]?; let y1 ← y0.nal_unit_payload.slice_layer_extension_rbsp; let y2 ← y1.slice_header_in_scalable_extension; let y3 ← y2.ref.dec_ref_pic_marking; pure ((y3.difference_of_pic_nums_minus1).length) : Option _) == some 0 &&
      (do let y0 ← (bitstream.nal_units)[5]?; let y1 ← y0.nal_unit_payload.slice_layer_extension_rbsp; let y2 ← y1.slice_header_in_scalable_extension; let y3 ← y2.ref.dec_ref_pic_marking; pure ((y3.long_term_pic_num).length) : Option _) == some 0 &&
      (do let y0 ← (bitstream.nal_units)[5]?; let y1 ← y0.nal_unit_payload.slice_layer_extension_rbsp; let y2 ← y1.slice_header_in_scalable_extension; let y3 ← y2.ref.dec_ref_pic_marking; pure ((y3.long_term_frame_idx).length) : Option _) == some 0 &&
      (do let y0 ← (bitstream.nal_units)[5]?; let y1 ← y0.nal_unit_payload.slice_layer_extension_rbsp; let y2 ← y1.slice_header_in_scalable_extension; let y3 ← y2.ref.dec_ref_pic_marking; pure ((y3.max_long_term_frame_idx_plus1).length) : Option _) == some 0 &&
      (do let y0 ← (bitstream.nal_units)[5]?; let y1 ← y0.nal_unit_payload.slice_layer_extension_rbsp; let y2 ← y1.slice_header_in_scalable_extension; pure (y2.ref.store_ref_base_pic_flag) : Option _) == some 0 &&
      (do let y0 ← (bitstream.nal_units)[5]?; let y1 ← y0.nal_unit_payload.slice_layer_extension_rbsp; let y2 ← y1.slice_header_in_scalable_extension; pure (y2.qp.cabac_init_idc) : Option _) == some 0 &&
      (do let y0 ← (bitstream.nal_units)[5]?; let y1 ← y0.nal_unit_payload.slice_layer_extension_rbsp; let y2 ← y1.slice_header_in_scalable_extension; pure (y2.qp.slice_qp_delta) : Option _) == some 0 &&
      (do let y0 ← (bitstream.nal_units)[5]?; let y1 ← y0.nal_unit_payload.slice_layer_extension_rbsp; let y2 ← y1.slice_header_in_scalable_extension; pure (y2.qp.disable_deblocking_filter_idc) : Option _) == some 2 &&
      (do let y0 ← (bitstream.nal_units)[5]?; let y1 ← y0.nal_unit_payload.slice_layer_extension_rbsp; let y2 ← y1.slice_header_in_scalable_extension; pure (y2.qp.slice_alpha_c0_offset_div2) : Option _) == some 0 &&
      (do let y0 ← (bitstream.nal_units)[5]?; let y1 ← y0.nal_unit_payload.slice_layer_extension_rbsp; let y2 ← y1.slice_header_in_scalable_extension; pure (y2.qp.slice_beta_offset_div2) : Option _) == some 0 &&
      (do let y0 ← (bitstream.nal_units)[5]?; let y1 ← y0.nal_unit_payload.slice_layer_extension_rbsp; let y2 ← y1.slice_header_in_scalable_extension; pure (y2.qp.slice_group_change_cycle) : Option _) == some 0 &&
      (do let y0 ← (bitstream.nal_units)[5]?; let y1 ← y0.nal_unit_payload.slice_layer_extension_rbsp; let y2 ← y1.slice_header_in_scalable_extension; pure (y2.layer.ref_layer_dq_id) : Option _) == some 0 &&
      (do let y0 ← (bitstream.nal_units)[5]?; let y1 ← y0.nal_unit_payload.slice_layer_extension_rbsp; let y2 ← y1.slice_header_in_scalable_extension; pure (y2.layer.disable_inter_layer_deblocking_filter_idc) : Option _) == some 0 &&
      (do let y0 ← (bitstream.nal_units)[5]?; let y1 ← y0.nal_unit_payload.slice_layer_extension_rbsp; let y2 ← y1.slice_header_in_scalable_extension; pure (y2.layer.inter_layer_slice_alpha_c0_offset_div2) : Option _) == some 0 &&
      (do let y0 ← (bitstream.nal_units)[5]?; let y1 ← y0.nal_unit_payload.slice_layer_extension_rbsp; let y2 ← y1.slice_header_in_scalable_extension; pure (y2.layer.inter_layer_slice_beta_offset_div2) : Option _) == some 0 &&
      (do let y0 ← (bitstream.nal_units)[5]?; let y1 ← y0.nal_unit_payload.slice_layer_extension_rbsp; let y2 ← y1.slice_header_in_scalable_extension; pure (y2.layer.constrained_intra_resampling_flag) : Option _) == some 0 &&
      (do let y0 ← (bitstream.nal_units)[5]?; let y1 ← y0.nal_unit_payload.slice_layer_extension_rbsp; let y2 ← y1.slice_header_in_scalable_extension; pure (y2.pred.slice_skip_flag) : Option _) == some 0 &&
      (do let y0 ← (bitstream.nal_units)[5]?; let y1 ← y0.nal_unit_payload.slice_layer_extension_rbsp; let y2 ← y1.slice_header_in_scalable_extension; pure (y2.pred.num_mbs_in_slice_minus1) : Option _) == some 0 &&
      (do let y0 ← (bitstream.nal_units)[5]?; let y1 ← y0.nal_unit_payload.slice_layer_extension_rbsp; let y2 ← y1.slice_header_in_scalable_extension; pure (y2.pred.adaptive_base_mode_flag) : Option _) == some 0 &&
      (do let y0 ← (bitstream.nal_units)[5]?; let y1 ← y0.nal_unit_payload.slice_layer_extension_rbsp; let y2 ← y1.slice_header_in_scalable_extension; pure (y2.pred.default_base_mode_flag) : Option _) == some 0 &&
      (do let y0 ← (bitstream.nal_units)[5]?; let y1 ← y0.nal_unit_payload.slice_layer_extension_rbsp; let y2 ← y1.slice_header_in_scalable_extension; pure (y2.pred.adaptive_residual_prediction_flag) : Option _) == some 0 &&
      (do let y0 ← (bitstream.nal_units)[5]?; let y1 ← y0.nal_unit_payload.slice_layer_extension_rbsp; let y2 ← y1.slice_header_in_scalable_extension; pure (y2.pred.default_residual_prediction_flag) : Option _) == some 0 &&
      (do let y0 ← (bitstream.nal_units)[5]?; let y1 ← y0.nal_unit_payload.slice_layer_extension_rbsp; let y2 ← y1.slice_header_in_scalable_extension; pure (y2.scan_idx_start) : Option _) == some 0 &&
      (do let y0 ← (bitstream.nal_units)[5]?; let y1 ← y0.nal_unit_payload.slice_layer_extension_rbsp; let y2 ← y1.slice_header_in_scalable_extension; pure (y2.scan_idx_end) : Option _) == some 0) : Res Bool) = .val true := by decide +kernel

/-- TestSubsetSpsIdValueSpace (test/h264_slice_header_in_scalable_extension_parser_unittest.cc:247), 9 expectations. -/
example : ∀ nd : Bool, (do
    let (bitstream, σ0, _) ← parseBitstream nd {} ([0, 0, 0, 1, 103, 66, 224, 12, 154, 220, 40, 63, 32, 0, 0, 0, 1, 111, 83, 192, 30, 75, 13, 101, 130, 128, 246, 27, 124, 32, 0, 0, 0, 1, 104, 107, 224, 41, 168, 0, 0, 0, 1, 20, 128, 32, 79, 216, 4, 27, 146, 64, 137, 195, 255, 22, 185, 213, 45, 64, 146, 64, 180, 71, 69, 49, 204, 153, 181, 83, 116, 197, 229, 105, 57, 232, 190, 108, 103, 240, 234, 2, 51, 178, 65, 87, 96, 181, 102, 71, 130, 13, 67, 180, 80, 180, 190, 230, 101, 141, 5, 169, 157, 84, 246, 131, 23] : List UInt8)  ({  } : Store) 0
    pure ((some ((bitstream.nal_units).length)) == some 4 &&
      (do let y0 ← (bitstream.nal_units)[3]?; pure (y0.nal_unit_header.nal_unit_type) : Option _) == some 20 &&
      ((do let y0 ← (bitstream.nal_units)[3]?; pure (y0.nal_unit_payload) : Option _).map (fun x => x.slice_layer_extension_rbsp.isSome)) == some true &&
      ((do let y0 ← (bitstream.nal_units)[3]?; let y1 ← y0.nal_unit_payload.slice_layer_extension_rbsp; pure (y1) : Option _).map (fun x => x.slice_header_in_scalable_extension.isSome)) == some true &&
      (do let y0 ← (bitstream.nal_units)[3]?; let y1 ← y0.nal_unit_payload.slice_layer_extension_rbsp; let y2 ← y1.slice_header_in_scalable_extension; pure (y2.first_mb_in_slice) : Option _) == some 0 &&
      (do let y0 ← (bitstream.nal_units)[3]?; let y1 ← y0.nal_unit_payload.slice_layer_extension_rbsp; let y2 ← y1.slice_header_in_scalable_extension; pure (y2.slice_type) : Option _) == some 0 &&
      (do let y0 ← (bitstream.nal_units)[3]?; let y1 ← y0.nal_unit_payload.slice_layer_extension_rbsp; let y2 ← y1.slice_header_in_scalable_extension; pure (y2.pic_parameter_set_id) : Option _) == some 2 &&
      (do let y0 ← (bitstream.nal_units)[3]?; let y1 ← y0.nal_unit_payload.slice_layer_extension_rbsp; let y2 ← y1.slice_header_in_scalable_extension; pure (y2.pic.frame_num) : Option _) == some 1 &&
      (do let y0 ← (bitstream.nal_units)[3]?; let y1 ← y0.nal_unit_payload.slice_layer_extension_rbsp; let y2 ← y1.slice_header_in_scalable_extension; pure (y2.pic.pic_order_cnt_lsb) : Option _) == some 1) : Res Bool) = .val true := by decide +kernel

/-- TestDisableDeblockingFilterIdcRange (test/h264_slice_header_in_scalable_extension_parser_unittest.cc:307), 11 expectations. -/
example : ∀ nd : Bool, (do
    let (bitstream, σ0, _) ← parseBitstream nd {} ([0, 0, 0, 1, 39, 66, 224, 13, 149, 150, 23, 31, 229, 208, 0, 0, 0, 1, 47, 83, 128, 40, 75, 10, 203, 5, 193, 239, 19, 165, 8, 0, 0, 0, 1, 40, 74, 224, 71, 32, 0, 0, 0, 1, 20, 128, 16, 103, 208, 15, 114, 76, 65, 131, 47, 172, 63, 11, 94, 25, 76, 124, 63, 37, 133, 112, 84, 69, 129, 112, 14, 67, 211, 200, 39, 190, 200, 43, 128, 169, 140, 215, 4, 179, 32, 102, 96, 142, 206, 16, 101, 145, 183, 251, 206, 22, 97, 73, 176, 197, 169, 205, 123, 233, 9, 223, 104, 153, 135, 223, 123, 120, 197, 244, 187, 198] : List UInt8)  ({  } : Store) 0
    pure ((some ((bitstream.nal_units).length)) == some 4 &&
      (do let y0 ← (bitstream.nal_units)[3]?; pure (y0.nal_unit_header.nal_unit_type) : Option _) == some 20 &&
      ((do let y0 ← (bitstream.nal_units)[3]?; pure (y0.nal_unit_payload) : Option _).map (fun x => x.slice_layer_extension_rbsp.isSome)) == some true &&
      ((do let y0 ← (bitstream.nal_units)[3]?; let y1 ← y0.nal_unit_payload.slice_layer_extension_rbsp; pure (y1) : Option _).map (fun x => x.slice_header_in_scalable_extension.isSome)) == some true &&
      (do let y0 ← (bitstream.nal_units)[3]?; let y1 ← y0.nal_unit_payload.slice_layer_extension_rbsp; let y2 ← y1.slice_header_in_scalable_extension; pure (y2.qp.disable_deblocking_filter_idc) : Option _) == some 3 &&
      (do let y0 ← (bitstream.nal_units)[3]?; let y1 ← y0.nal_unit_payload.slice_layer_extension_rbsp; let y2 ← y1.slice_header_in_scalable_extension; pure (y2.first_mb_in_slice) : Option _) == some 0 &&
      (do let y0 ← (bitstream.nal_units)[3]?; let y1 ← y0.nal_unit_payload.slice_layer_extension_rbsp; let y2 ← y1.slice_header_in_scalable_extension; pure (y2.slice_type) : Option _) == some 0 &&
      (do let y0 ← (bitstream.nal_units)[3]?; let y1 ← y0.nal_unit_payload.slice_layer_extension_rbsp; let y2 ← y1.slice_header_in_scalable_extension; pure (y2.pic_parameter_set_id) : Option _) == some 1 &&
      (do let y0 ← (bitstream.nal_units)[3]?; let y1 ← y0.nal_unit_payload.slice_layer_extension_rbsp; let y2 ← y1.slice_header_in_scalable_extension; pure (y2.pic.frame_num) : Option _) == some 1 &&
      (do let y0 ← (bitstream.nal_units)[3]?; let y1 ← y0.nal_unit_payload.slice_layer_extension_rbsp; let y2 ← y1.slice_header_in_scalable_extension; pure (y2.copied.quality_id) : Option _) == some 0 &&
      (do let y0 ← (bitstream.nal_units)[3]?; let y1 ← y0.nal_unit_payload.slice_layer_extension_rbsp; let y2 ← y1.slice_header_in_scalable_extension; pure (y2.qp.slice_qp_delta) : Option _) == some 3) : Res Bool) = .val true := by decide +kernel

/-- TestSliceGroupChangeCycleLen (test/h264_slice_header_in_scalable_extension_parser_unittest.cc:484), 6 expectations. -/
example : ∀ nd : Bool, (do
    pure (sliceGroupChangeCycleLen 0 0 1 == .val 1 &&
      sliceGroupChangeCycleLen 0 0 9 == .val 1 &&
      sliceGroupChangeCycleLen 2 0 1 == .val 2 &&
      sliceGroupChangeCycleLen 0 0 0 == .val 1 &&
      sliceGroupChangeCycleLen 10 8 0 == .val 7 &&
      sliceGroupChangeCycleLen 10 8 1 == .val 6) : Res Bool) = .val true := by decide +kernel

/-! ### test/h264_slice_header_parser_unittest.cc -/

/-- TestSampleSliceIDR601 (test/h264_slice_header_parser_unittest.cc:27), 40 expectations. -/
example : ∀ nd : Bool, (do
    let slice_header ← onBytes nd (parseSliceHeader ({ sps := (upd (fun _ => none) 0 ({ log2_max_frame_num_minus4 := 1, frame_mbs_only_flag := 1, pic_order_cnt_type := 2, delta_pic_order_always_zero_flag := 0, pic_width_in_mbs_minus1 := 0, pic_height_in_map_units_minus1 := 0 } : SpsData)), pps := (upd (fun _ => none) 0 ({ bottom_field_pic_order_in_frame_present_flag := 0, redundant_pic_cnt_present_flag := 0, weighted_pred_flag := 0, weighted_bipred_idc := 0, entropy_coding_mode_flag := 0, deblocking_filter_control_present_flag := 1, num_slice_groups_minus1 := 0, slice_group_map_type := 0, slice_group_change_rate_minus1 := 0 } : Pps)) } : Store) 3 5) ([136, 130, 6, 120, 140, 80, 0, 28, 171, 142, 0, 2, 251, 49, 192, 0, 95, 102, 251, 239, 190] : List UInt8)
    pure (slice_header.isSome &&
      (do let y0 ← slice_header; pure (y0.first_mb_in_slice) : Option _) == some 0 &&
      (do let y0 ← slice_header; pure (y0.slice_type) : Option _) == some 7 &&
      (do let y0 ← slice_header; pure (y0.pic_parameter_set_id) : Option _) == some 0 &&
      (do let y0 ← slice_header; pure (y0.frame_num) : Option _) == some 0 &&
      (do let y0 ← slice_header; pure (y0.field_pic_flag) : Option _) == some 0 &&
      (do let y0 ← slice_header; pure (y0.bottom_field_flag) : Option _) == some 0 &&
      (do let y0 ← slice_header; pure (y0.idr_pic_id) : Option _) == some 0 &&
      (do let y0 ← slice_header; pure (y0.pic_order_cnt_lsb) : Option _) == some 0 &&
      (do let y0 ← slice_header; pure (y0.delta_pic_order_cnt_bottom) : Option _) == some 0 &&
      (do let y0 ← slice_header; pure ((y0.delta_pic_order_cnt).length) : Option _) == some 0 &&
      (do let y0 ← slice_header; pure (y0.redundant_pic_cnt) : Option _) == some 0 &&
      (do let y0 ← slice_header; pure (y0.direct_spatial_mv_pred_flag) : Option _) == some 0 &&
      (do let y0 ← slice_header; pure (y0.num_ref_idx_active_override_flag) : Option _) == some 0 &&
      (do let y0 ← slice_header; pure (y0.num_ref_idx_l0_active_minus1) : Option _) == some 0 &&
      (do let y0 ← slice_header; pure (y0.num_ref_idx_l1_active_minus1) : Option _) == some 0 &&
      ((do let y0 ← slice_header; pure (y0) : Option _).map (fun x => x.ref_pic_list_modification.isSome)) == some true &&
      (do let y0 ← slice_header; let y1 ← y0.ref_pic_list_modification; pure (y1.ref_pic_list_modification_flag_l0) : Option _) == some 0 &&
      (do let y0 ← slice_header; let y1 ← y0.ref_pic_list_modification; pure (y1.ref_pic_list_modification_flag_l1) : Option _) == some 0 &&
      (do let y0 ← slice_header; let y1 ← y0.ref_pic_list_modification; pure ((y1.modification_of_pic_nums_idc).length) : Option _) == some 0 &&
      (do let y0 ← slice_header; let y1 ← y0.ref_pic_list_modification; pure ((y1.abs_diff_pic_num_minus1).length) : Option _) == some 0 &&
      (do let y0 ← slice_header; let y1 ← y0.ref_pic_list_modification; pure ((y1.long_term_pic_num).length) : Option _) == some 0 &&
      ((do let y0 ← slice_header; pure (y0) : Option _).map (fun x => x.pred_weight_table.isNone)) == some true &&
      ((do let y0 ← slice_header; pure (y0) : Option _).map (fun x => x.dec_ref_pic_marking.isSome)) == some true &&
      (do let y0 ← slice_header; let y1 ← y0.dec_ref_pic_marking; pure (y1.no_output_of_prior_pics_flag) : Option _) == some 0 &&
      (do let y0 ← slice_header; let y1 ← y0.dec_ref_pic_marking; pure (y1.long_term_reference_flag) : Option _) == some 0 &&
      (do let y0 ← slice_header; let y1 ← y0.dec_ref_pic_marking; pure (y1.adaptive_ref_pic_marking_mode_flag) : Option _) == some 0 &&
      (do let y0 ← slice_header; let y1 ← y0.dec_ref_pic_marking; pure ((y1.memory_management_control_operation).length) : Option _) == some 0 &&
      (do let y0 ← slice_header; let y1 ← y0.dec_ref_pic_marking; pure ((y1.difference_of_pic_nums_minus1).length) : Option _) == some 0 &&
      (do let y0 ← slice_header; let y1 ← y0.dec_ref_pic_marking; pure ((y1.long_term_pic_num).length) : Option _) == some 0 &&
      (do let y0 ← slice_header; let y1 ← y0.dec_ref_pic_marking; pure ((y1.long_term_frame_idx).length) : Option _) == some 0 &&
      (do let y0 ← slice_header; let y1 ← y0.dec_ref_pic_marking; pure ((y1.max_long_term_frame_idx_plus1).length) : Option _) == some 0 &&
      (do let y0 ← slice_header; pure (y0.cabac_init_idc) : Option _) == some 0 &&
      (do let y0 ← slice_header; pure (y0.sp_for_switch_flag) : Option _) == some 0 &&
      (do let y0 ← slice_header; pure (y0.slice_qp_delta) : Option _) == some (-12) &&
      (do let y0 ← slice_header; pure (y0.slice_qs_delta) : Option _) == some 0 &&
      (do let y0 ← slice_header; pure (y0.disable_deblocking_filter_idc) : Option _) == some 0 &&
      (do let y0 ← slice_header; pure (y0.slice_alpha_c0_offset_div2) : Option _) == some 0 &&
      (do let y0 ← slice_header; pure (y0.slice_beta_offset_div2) : Option _) == some 0 &&
      (do let y0 ← slice_header; pure (y0.slice_group_change_cycle) : Option _) == some 0) : Res Bool) = .val true := by decide +kernel

/-- TestSampleSliceNonIDR601 (test/h264_slice_header_parser_unittest.cc:125), 40 expectations. -/
example : ∀ nd : Bool, (do
    let slice_header ← onBytes nd (parseSliceHeader ({ sps := (upd (fun _ => none) 0 ({ log2_max_frame_num_minus4 := 1, frame_mbs_only_flag := 1, pic_order_cnt_type := 2, delta_pic_order_always_zero_flag := 0, pic_width_in_mbs_minus1 := 0, pic_height_in_map_units_minus1 := 0 } : SpsData)), pps := (upd (fun _ => none) 0 ({ bottom_field_pic_order_in_frame_present_flag := 0, redundant_pic_cnt_present_flag := 0, weighted_pred_flag := 0, weighted_bipred_idc := 0, entropy_coding_mode_flag := 0, deblocking_filter_control_present_flag := 1, num_slice_groups_minus1 := 0, slice_group_map_type := 0, slice_group_change_rate_minus1 := 0 } : Pps)) } : Store) 2 1) ([154, 28, 12, 240, 9, 108] : List UInt8)
    pure (slice_header.isSome &&
      (do let y0 ← slice_header; pure (y0.first_mb_in_slice) : Option _) == some 0 &&
      (do let y0 ← slice_header; pure (y0.slice_type) : Option _) == some 5 &&
      (do let y0 ← slice_header; pure (y0.pic_parameter_set_id) : Option _) == some 0 &&
      (do let y0 ← slice_header; pure (y0.frame_num) : Option _) == some 1 &&
      (do let y0 ← slice_header; pure (y0.field_pic_flag) : Option _) == some 0 &&
      (do let y0 ← slice_header; pure (y0.bottom_field_flag) : Option _) == some 0 &&
      (do let y0 ← slice_header; pure (y0.idr_pic_id) : Option _) == some 0 &&
      (do let y0 ← slice_header; pure (y0.pic_order_cnt_lsb) : Option _) == some 0 &&
      (do let y0 ← slice_header; pure (y0.delta_pic_order_cnt_bottom) : Option _) == some 0 &&
      (do let y0 ← slice_header; pure ((y0.delta_pic_order_cnt).length) : Option _) == some 0 &&
      (do let y0 ← slice_header; pure (y0.redundant_pic_cnt) : Option _) == some 0 &&
      (do let y0 ← slice_header; pure (y0.direct_spatial_mv_pred_flag) : Option _) == some 0 &&
      (do let y0 ← slice_header; pure (y0.num_ref_idx_active_override_flag) : Option _) == some 1 &&
      (do let y0 ← slice_header; pure (y0.num_ref_idx_l0_active_minus1) : Option _) == some 0 &&
      (do let y0 ← slice_header; pure (y0.num_ref_idx_l1_active_minus1) : Option _) == some 0 &&
      ((do let y0 ← slice_header; pure (y0) : Option _).map (fun x => x.ref_pic_list_modification.isSome)) == some true &&
      (do let y0 ← slice_header; let y1 ← y0.ref_pic_list_modification; pure (y1.ref_pic_list_modification_flag_l0) : Option _) == some 0 &&
      (do let y0 ← slice_header; let y1 ← y0.ref_pic_list_modification; pure (y1.ref_pic_list_modification_flag_l1) : Option _) == some 0 &&
      (do let y0 ← slice_header; let y1 ← y0.ref_pic_list_modification; pure ((y1.modification_of_pic_nums_idc).length) : Option _) == some 0 &&
      (do let y0 ← slice_header; let y1 ← y0.ref_pic_list_modification; pure ((y1.abs_diff_pic_num_minus1).length) : Option _) == some 0 &&
      (do let y0 ← slice_header; let y1 ← y0.ref_pic_list_modification; pure ((y1.long_term_pic_num).length) : Option _) == some 0 &&
      ((do let y0 ← slice_header; pure (y0) : Option _).map (fun x => x.pred_weight_table.isNone)) == some true &&
      ((do let y0 ← slice_header; pure (y0) : Option _).map (fun x => x.dec_ref_pic_marking.isSome)) == some true &&
      (do let y0 ← slice_header; let y1 ← y0.dec_ref_pic_marking; pure (y1.no_output_of_prior_pics_flag) : Option _) == some 0 &&
      (do let y0 ← slice_header; let y1 ← y0.dec_ref_pic_marking; pure (y1.long_term_reference_flag) : Option _) == some 0 &&
      (do let y0 ← slice_header; let y1 ← y0.dec_ref_pic_marking; pure (y1.adaptive_ref_pic_marking_mode_flag) : Option _) == some 0 &&
      (do let y0 ← slice_header; let y1 ← y0.dec_ref_pic_marking; pure ((y1.memory_management_control_operation).length) : Option _) == some 0 &&
      (do let y0 ← slice_header; let y1 ← y0.dec_ref_pic_marking; pure ((y1.difference_of_pic_nums_minus1).length) : Option _) == some 0 &&
      (do let y0 ← slice_header; let y1 ← y0.dec_ref_pic_marking; pure ((y1.long_term_pic_num).length) : Option _) == some 0 &&
      (do let y0 ← slice_header; let y1 ← y0.dec_ref_pic_marking; pure ((y1.long_term_frame_idx).length) : Option _) == some 0 &&
      (do let y0 ← slice_header; let y1 ← y0.dec_ref_pic_marking; pure ((y1.max_long_term_frame_idx_plus1).length) : Option _) == some 0 &&
      (do let y0 ← slice_header; pure (y0.cabac_init_idc) : Option _) == some 0 &&
      (do let y0 ← slice_header; pure (y0.sp_for_switch_flag) : Option _) == some 0 &&
      (do let y0 ← slice_header; pure (y0.slice_qp_delta) : Option _) == some (-12) &&
      (do let y0 ← slice_header; pure (y0.slice_qs_delta) : Option _) == some 0 &&
      (do let y0 ← slice_header; pure (y0.disable_deblocking_filter_idc) : Option _) == some 0 &&
      (do let y0 ← slice_header; pure (y0.slice_alpha_c0_offset_div2) : Option _) == some 0 &&
      (do let y0 ← slice_header; pure (y0.slice_beta_offset_div2) : Option _) == some 0 &&
      (do let y0 ← slice_header; pure (y0.slice_group_change_cycle) : Option _) == some 0) : Res Bool) = .val true := by decide +kernel

/-- TestDeltaPicOrderCntBothEntries (test/h264_slice_header_parser_unittest.cc:221), 24 expectations. -/
example : ∀ nd : Bool, (do
    let slice_header ← onBytes nd (parseSliceHeader ({ sps := (upd (fun _ => none) 0 ({ log2_max_frame_num_minus4 := 0, frame_mbs_only_flag := 0, pic_order_cnt_type := 1, delta_pic_order_always_zero_flag := 0, pic_width_in_mbs_minus1 := 11, pic_height_in_map_units_minus1 := 3 } : SpsData)), pps := (upd (fun _ => none) 0 ({ bottom_field_pic_order_in_frame_present_flag := 1, redundant_pic_cnt_present_flag := 0, weighted_pred_flag := 0, weighted_bipred_idc := 0, entropy_coding_mode_flag := 1, deblocking_filter_control_present_flag := 0, num_slice_groups_minus1 := 0, slice_group_map_type := 0, slice_group_change_rate_minus1 := 0, num_ref_idx_l0_default_active_minus1 := 4, num_ref_idx_l1_default_active_minus1 := 0 } : Pps)) } : Store) 2 1) ([226, 244, 175, 255, 240, 24, 14, 248, 30, 209, 10, 255, 10, 116, 167, 102, 211, 26, 54, 128, 113, 110, 172, 16] : List UInt8)
    pure (slice_header.isSome &&
      (do let y0 ← slice_header; pure (y0.first_mb_in_slice) : Option _) == some 0 &&
      (do let y0 ← slice_header; pure (y0.slice_type) : Option _) == some 0 &&
      (do let y0 ← slice_header; pure (y0.pic_parameter_set_id) : Option _) == some 0 &&
      (do let y0 ← slice_header; pure (y0.frame_num) : Option _) == some 1 &&
      (do let y0 ← slice_header; pure (y0.field_pic_flag) : Option _) == some 0 &&
      (do let y0 ← slice_header; pure (y0.bottom_field_pic_order_in_frame_present_flag) : Option _) == some 1 &&
      (do let y0 ← slice_header; pure ((y0.delta_pic_order_cnt).length) : Option _) == some 2 &&
      (do let y0 ← slice_header; let y1 ← (y0.delta_pic_order_cnt)[0]?; pure (y1) : Option _) == some 0 &&
      (do let y0 ← slice_header; let y1 ← (y0.delta_pic_order_cnt)[1]?; pure (y1) : Option _) == some 0 &&
      (do let y0 ← slice_header; pure (y0.num_ref_idx_active_override_flag) : Option _) == some 1 &&
      (do let y0 ← slice_header; pure (y0.num_ref_idx_l0_active_minus1) : Option _) == some 0 &&
      ((do let y0 ← slice_header; pure (y0) : Option _).map (fun x => x.ref_pic_list_modification.isSome)) == some true &&
      (do let y0 ← slice_header; let y1 ← y0.ref_pic_list_modification; pure (y1.ref_pic_list_modification_flag_l0) : Option _) == some 0 &&
      (do let y0 ← slice_header; let y1 ← y0.ref_pic_list_modification; pure (y1.ref_pic_list_modification_flag_l1) : Option _) == some 0 &&
      ((do let y0 ← slice_header; pure (y0) : Option _).map (fun x => x.dec_ref_pic_marking.isSome)) == some true &&
      (do let y0 ← slice_header; let y1 ← y0.dec_ref_pic_marking; pure (y1.adaptive_ref_pic_marking_mode_flag) : Option _) == some 1 &&
      (do let y0 ← slice_header; let y1 ← y0.dec_ref_pic_marking; pure ((y1.memory_management_control_operation).length) : Option _) == some 2 &&
      (do let y0 ← slice_header; let y1 ← y0.dec_ref_pic_marking; let y2 ← (y1.memory_management_control_operation)[0]?; pure (y2) : Option _) == some 4 &&
      (do let y0 ← slice_header; let y1 ← y0.dec_ref_pic_marking; let y2 ← (y1.memory_management_control_operation)[1]?; pure (y2) : Option _) == some 0 &&
      (do let y0 ← slice_header; let y1 ← y0.dec_ref_pic_marking; pure ((y1.max_long_term_frame_idx_plus1).length) : Option _) == some 1 &&
      (do let y0 ← slice_header; let y1 ← y0.dec_ref_pic_marking; let y2 ← (y1.max_long_term_frame_idx_plus1)[0]?; pure (y2) : Option _) == some 2 &&
      (do let y0 ← slice_header; pure (y0.cabac_init_idc) : Option _) == some 0 &&
      (do let y0 ← slice_header; pure (y0.slice_qp_delta) : Option _) == some 0) : Res Bool) = .val true := by decide +kernel

/-! ### test/h264_slice_layer_extension_rbsp_parser_unittest.cc -/

/-- TestSampleSlice01 (test/h264_slice_layer_extension_rbsp_parser_unittest.cc:29), 56 expectations. -/
example : ∀ nd : Bool, (do
    let slice_layer_extension_rbsp ← onBytes nd (parseSliceLayerExt ({ sps := (upd (fun _ => none) 0 ({ profile_idc := 66, seq_parameter_set_id := 0, log2_max_frame_num_minus4 := 1, frame_mbs_only_flag := 1, pic_order_cnt_type := 2, delta_pic_order_always_zero_flag := 0, pic_width_in_mbs_minus1 := 10, pic_height_in_map_units_minus1 := 8 } : SpsData)), pps := (upd (upd (fun _ => none) 0 ({ pic_parameter_set_id := 0, bottom_field_pic_order_in_frame_present_flag := 0, redundant_pic_cnt_present_flag := 0, weighted_pred_flag := 0, weighted_bipred_idc := 0, entropy_coding_mode_flag := 0, deblocking_filter_control_present_flag := 1, num_slice_groups_minus1 := 0, slice_group_map_type := 0, slice_group_change_rate_minus1 := 0 } : Pps)) 1 ({ pic_parameter_set_id := 1, bottom_field_pic_order_in_frame_present_flag := 0, redundant_pic_cnt_present_flag := 0, weighted_pred_flag := 0, weighted_bipred_idc := 0, entropy_coding_mode_flag := 0, deblocking_filter_control_present_flag := 1, num_slice_groups_minus1 := 0, slice_group_map_type := 0, slice_group_change_rate_minus1 := 0 } : Pps)), subset_sps := (upd (fun _ => none) 0 ({ seq_parameter_set_data := ({ profile_idc := 83, seq_parameter_set_id := 0, log2_max_frame_num_minus4 := 1, frame_mbs_only_flag := 1, pic_order_cnt_type := 2, delta_pic_order_always_zero_flag := 0, pic_width_in_mbs_minus1 := 21, pic_height_in_map_units_minus1 := 17 } : SpsData), seq_parameter_set_svc_extension := some ({ inter_layer_deblocking_filter_control_present_flag := 1, slice_header_restriction_flag := 1 } : SpsSvcExt) } : SubsetSps)) } : Store) ({ nal_ref_idc := 3, nal_unit_type := 20, svc_extension_flag := 1, avc_3d_extension_flag := 0, svc_extension := some ({ idr_flag := 1, priority_id := 0, no_inter_layer_pred_flag := 1, dependency_id := 1, quality_id := 0, temporal_id := 0, use_ref_base_pic_flag := 0, discardable_flag := 1, output_flag := 1, reserved_three_2bits := 3 } : SvcHeaderExt), forbidden_zero_bit := 0 } : NalHeader)) ([180, 4, 95, 192, 196, 66, 0, 4, 224, 207, 192, 248, 0, 26, 100, 5, 99, 251, 19, 159, 252, 177, 191, 199, 133, 62, 107, 77, 6, 217, 223, 32, 149, 254, 178, 180, 237, 33, 244, 224] : List UInt8)
    pure (slice_layer_extension_rbsp.isSome &&
      ((do let y0 ← slice_layer_extension_rbsp; pure (y0) : Option _).map (fun x => x.slice_header_in_scalable_extension.isSome)) == some true &&
      (do let y0 ← slice_layer_extension_rbsp; let y1 ← y0.slice_header_in_scalable_extension; pure (y1.first_mb_in_slice) : Option _) == some 0 &&
      (do let y0 ← slice_layer_extension_rbsp; let y1 ← y0.slice_header_in_scalable_extension; pure (y1.slice_type) : Option _) == some 2 &&
      (do let y0 ← slice_layer_extension_rbsp; let y1 ← y0.slice_header_in_scalable_extension; pure (y1.pic_parameter_set_id) : Option _) == some 1 &&
      (do let y0 ← slice_layer_extension_rbsp; let y1 ← y0.slice_header_in_scalable_extension; pure (y1.pic.colour_plane_id) : Option _) == some 0 &&
      (do let y0 ← slice_layer_extension_rbsp; let y1 ← y0.slice_header_in_scalable_extension; pure (y1.pic.frame_num) : Option _) == some 0 &&
      (do let y0 ← slice_layer_extension_rbsp; let y1 ← y0.slice_header_in_scalable_extension; pure (y1.pic.field_pic_flag) : Option _) == some 0 &&
      (do let y0 ← slice_layer_extension_rbsp; let y1 ← y0.slice_header_in_scalable_extension; pure (y1.pic.bottom_field_flag) : Option _) == some 0 &&
      (do let y0 ← slice_layer_extension_rbsp; let y1 ← y0.slice_header_in_scalable_extension; pure (y1.pic.idr_pic_id) : Option _) == some 1 &&
      (do let y0 ← slice_layer_extension_rbsp; let y1 ← y0.slice_header_in_scalable_extension; pure (y1.pic.pic_order_cnt_lsb) : Option _) == some 0 &&
      (do let y0 ← slice_layer_extension_rbsp; let y1 ← y0.slice_header_in_scalable_extension; pure (y1.pic.delta_pic_order_cnt_bottom) : Option _) == some 0 &&
      (do let y0 ← slice_layer_extension_rbsp; let y1 ← y0.slice_header_in_scalable_extension; pure ((y1.pic.delta_pic_order_cnt).length) : Option _) == some 0 &&
      (do let y0 ← slice_layer_extension_rbsp; let y1 ← y0.slice_header_in_scalable_extension; pure (y1.ref.direct_spatial_mv_pred_flag) : Option _) == some 0 &&
      (do let y0 ← slice_layer_extension_rbsp; let y1 ← y0.slice_header_in_scalable_extension; pure (y1.ref.num_ref_idx_active_override_flag) : Option _) == some 0 &&
      (do let y0 ← slice_layer_extension_rbsp; let y1 ← y0.slice_header_in_scalable_extension; pure (y1.ref.num_ref_idx_l0_active_minus1) : Option _) == some 0 &&
      (do let y0 ← slice_layer_extension_rbsp; let y1 ← y0.slice_header_in_scalable_extension; pure (y1.ref.num_ref_idx_l1_active_minus1) : Option _) == some 0 &&
      ((do let y0 ← slice_layer_extension_rbsp; let y1 ← y0.slice_header_in_scalable_extension; pure (y1) : Option _).map (fun x => x.ref.ref_pic_list_modification.isSome)) == some true &&
      (do let y0 ← slice_layer_extension_rbsp; let y1 ← y0.slice_header_in_scalable_extension; let y2 ← y1.ref.ref_pic_list_modification; pure (y2.slice_type) : Option _) == some 2 &&
      (do let y0 ← slice_layer_extension_rbsp; let y1 ← y0.slice_header_in_scalable_extension; let y2 ← y1.ref.ref_pic_list_modification; pure (y2.ref_pic_list_modification_flag_l0) : Option _) == some 0 &&
      (do let y0 ← slice_layer_extension_rbsp; let y1 ← y0.slice_header_in_scalable_extension; let y2 ← y1.ref.ref_pic_list_modification; pure ((y2.modification_of_pic_nums_idc).length) : Option _) == some 0 &&
      (do let y0 ← slice_layer_extension_rbsp; let y1 ← y0.slice_header_in_scalable_extension; let y2 ← y1.ref.ref_pic_list_modification; pure ((y2.abs_diff_pic_num_minus1).length) : Option _) == some 0 &&
      (do let y0 ← slice_layer_extension_rbsp; let y1 ← y0.slice_header_in_scalable_extension; let y2 ← y1.ref.ref_pic_list_modification; pure ((y2.long_term_pic_num).length) : Option _) == some 0 &&
      (do let y0 ← slice_layer_extension_rbsp; let y1 ← y0.slice_header_in_scalable_extension; let y2 ← y1.ref.ref_pic_list_modification; pure (y2.ref_pic_list_modification_flag_l1) : Option _) == some 0 &&
      (do let y0 ← slice_layer_extension_rbsp; let y1 ← y0.slice_header_in_scalable_extension; pure (y1.ref.base_pred_weight_table_flag) : Option _) == some 0 &&
      ((do let y0 ← slice_layer_extension_rbsp; let y1 ← y0.slice_header_in_scalable_extension; pure (y1) : Option _).map (fun x => x.ref.pred_weight_table.isNone)) == some true &&
      ((do let y0 ← slice_layer_extension_rbsp; let y1 ← y0.slice_header_in_scalable_extension; pure (y1) : Option _).map (fun x => x.ref.dec_ref_pic_marking.isSome)) == some true &&
      (do let y0 ← slice_layer_extension_rbsp; let y1 ← y0.slice_header_in_scalable_extension; let y2 ← y1.ref.dec_ref_pic_marking; pure (y2.IdrPicFlag) : Option _) == some 1 &&
      (do let y0 ← slice_layer_extension_rbsp; let y1 ← y0.slice_header_in_scalable_extension; let y2 ← y1.ref.dec_ref_pic_marking; pure (y2.no_output_of_prior_pics_flag) : Option _) == some 0 &&
      (do let y0 ← slice_layer_extension_rbsp; let y1 ← y0.slice_header_in_scalable_extension; let y2 ← y1.ref.dec_ref_pic_marking; pure (y2.long_term_reference_flag) : Option _) == some 0 &&
      (do let y0 ← slice_layer_extension_rbsp; let y1 ← y0.slice_header_in_scalable_extension; let y2 ← y1.ref.dec_ref_pic_marking; pure (y2.adaptive_ref_pic_marking_mode_flag) : Option _) == some 0 &&
      (do let y0 ← slice_layer_extension_rbsp; let y1 ← y0.slice_header_in_scalable_extension; let y2 ← y1.ref.dec_ref_pic_marking; pure ((y2.memory_management_control_operation).length) : Option _) == some 0 &&
      (do let y0 ← slice_layer_extension_rbsp; let y1 ← y0.slice_header_in_scalable_extension; let y2 ← y1.ref.dec_ref_pic_marking; pure ((y2.difference_of_pic_nums_minus1).length) : Option _) == some 0 &&
      (do let y0 ← slice_layer_extension_rbsp; let y1 ← y0.slice_header_in_scalable_extension; let y2 ← y1.ref.dec_ref_pic_marking; pure ((y2.long_term_pic_num).length) : Option _) == some 0 &&
      (do let y0 ← slice_layer_extension_rbsp; let y1 ← y0.slice_header_in_scalable_extension; let y2 ← y1.ref.dec_ref_pic_marking; pure ((y2.long_term_frame_idx).length) : Option _) == some 0 &&
      (do let y0 ← slice_layer_extension_rbsp; let y1 ← y0.slice_header_in_scalable_extension; let y2 ← y1.ref.dec_ref_pic_marking; pure ((y2.max_long_term_frame_idx_plus1).length) : Option _) == some 0 &&
      (do let y0 ← slice_layer_extension_rbsp; let y1 ← y0.slice_header_in_scalable_extension; pure (y1.ref.store_ref_base_pic_flag) : Option _) == some 0 &&
      (do let y0 ← slice_layer_extension_rbsp; let y1 ← y0.slice_header_in_scalable_extension; pure (y1.qp.cabac_init_idc) : Option _) == some 0 &&
      (do let y0 ← slice_layer_extension_rbsp; let y1 ← y0.slice_header_in_scalable_extension; pure (y1.qp.slice_qp_delta) : Option _) == some 0 &&
      (do let y0 ← slice_layer_extension_rbsp; let y1 ← y0.slice_header_in_scalable_extension; pure (y1.qp.disable_deblocking_filter_idc) : Option _) == some 2 &&
      (do let y0 ← slice_layer_extension_rbsp; let y1 ← y0.slice_header_in_scalable_extension; pure (y1.qp.slice_alpha_c0_offset_div2) : Option _) == some 0 &&
      (do let y0 ← slice_layer_extension_rbsp; let y1 ← y0.slice_header_in_scalable_extension; pure (y1.qp.slice_beta_offset_div2) : Option _) == some 0 &&
      (do let y0 ← slice_layer_extension_rbsp; let y1 ← y0.slice_header_in_scalable_extension; pure (y1.qp.slice_group_change_cycle) : Option _) == some 0 &&
      (do let y0 ← slice_layer_extension_rbsp; let y1 ← y0.slice_header_in_scalable_extension; pure (y1.layer.ref_layer_dq_id) : Option _) == some 0 &&
      (do let y0 ← slice_layer_extension_rbsp; let y1 ← y0.slice_header_in_scalable_extension; pure (y1.layer.disable_inter_layer_deblocking_filter_idc) : Option _) == some 0 &&
      (do let y0 ← slice_layer_extension_rbsp; let y1 ← y0.slice_header_in_scalable_extension; pure (y1.layer.inter_layer_slice_alpha_c0_offset_div2) : Option _) == some 0 &&
      (do let y0 ← slice_layer_extension_rbsp; let y1 ← y0.slice_header_in_scalable_extension; pure (y1.layer.inter_layer_slice_beta_offset_div2) : Option _) == some 0 &&
      (do let y0 ← slice_layer_extension_rbsp; let y1 ← y0.slice_header_in_scalable_extension; pure (y1.layer.constrained_intra_resampling_flag) : Option _) == some 0 &&
      (do let y0 ← slice_layer_extension_rbsp; let y1 ← y0.slice_header_in_scalable_extension; pure (y1.pred.slice_skip_flag) : Option _) == some 0 &&
      (do let y0 ← slice_layer_extension_rbsp; let y1 ← y0.slice_header_in_scalable_extension; pure (y1.pred.num_mbs_in_slice_minus1) : Option _) == some 0 &&
      (do let y0 ← slice_layer_extension_rbsp; let y1 ← y0.slice_header_in_scalable_extension; pure (y1.pred.adaptive_base_mode_flag) : Option _) == some 0 &&
      (do let y0 ← slice_layer_extension_rbsp; let y1 ← y0.slice_header_in_scalable_extension; pure (y1.pred.default_base_mode_flag) : Option _) == some 0 &&
      (do let y0 ← slice_layer_extension_rbsp; let y1 ← y0.slice_header_in_scalable_extension; pure (y1.pred.adaptive_residual_prediction_flag) : Option _) == some 0 &&
      (do let y0 ← slice_layer_extension_rbsp; let y1 ← y0.slice_header_in_scalable_extension; pure (y1.pred.default_residual_prediction_flag) : Option _) == some 0 &&
      (do let y0 ← slice_layer_extension_rbsp; let y1 ← y0.slice_header_in_scalable_extension; pure (y1.scan_idx_start) : Option _) == some 0 &&
      (do let y0 ← slice_layer_extension_rbsp; let y1 ← y0.slice_header_in_scalable_extension; pure (y1.scan_idx_end) : Option _) == some 0) : Res Bool) = .val true := by decide +kernel

/-! ### test/h264_slice_layer_without_partitioning_rbsp_parser_unittest.cc -/

/-- TestSampleSliceIDR601 (test/h264_slice_layer_without_partitioning_rbsp_parser_unittest.cc:27), 40 expectations. -/
example : ∀ nd : Bool, (do
    let slice_layer_without_partitioning_rbsp ← onBytes nd (parseSliceLayer ({ sps := (upd (fun _ => none) 0 ({ log2_max_frame_num_minus4 := 1, frame_mbs_only_flag := 1, pic_order_cnt_type := 2, delta_pic_order_always_zero_flag := 0, pic_width_in_mbs_minus1 := 0, pic_height_in_map_units_minus1 := 0 } : SpsData)), pps := (upd (fun _ => none) 0 ({ bottom_field_pic_order_in_frame_present_flag := 0, redundant_pic_cnt_present_flag := 0, weighted_pred_flag := 0, weighted_bipred_idc := 0, entropy_coding_mode_flag := 0, deblocking_filter_control_present_flag := 1, num_slice_groups_minus1 := 0, slice_group_map_type := 0, slice_group_change_rate_minus1 := 0 } : Pps)) } : Store) 3 5) ([136, 130, 6, 120, 140, 80, 0, 28, 171, 142, 0, 2, 251, 49, 192, 0, 95, 102, 251, 239, 190] : List UInt8)
    pure (slice_layer_without_partitioning_rbsp.isSome &&
      (do let y0 ← slice_layer_without_partitioning_rbsp; let y1 ← y0.slice_header; pure (y1.first_mb_in_slice) : Option _) == some 0 &&
      (do let y0 ← slice_layer_without_partitioning_rbsp; let y1 ← y0.slice_header; pure (y1.slice_type) : Option _) == some 7 &&
      (do let y0 ← slice_layer_without_partitioning_rbsp; let y1 ← y0.slice_header; pure (y1.pic_parameter_set_id) : Option _) == some 0 &&
      (do let y0 ← slice_layer_without_partitioning_rbsp; let y1 ← y0.slice_header; pure (y1.frame_num) : Option _) == some 0 &&
      (do let y0 ← slice_layer_without_partitioning_rbsp; let y1 ← y0.slice_header; pure (y1.field_pic_flag) : Option _) == some 0 &&
      (do let y0 ← slice_layer_without_partitioning_rbsp; let y1 ← y0.slice_header; pure (y1.bottom_field_flag) : Option _) == some 0 &&
      (do let y0 ← slice_layer_without_partitioning_rbsp; let y1 ← y0.slice_header; pure (y1.idr_pic_id) : Option _) == some 0 &&
      (do let y0 ← slice_layer_without_partitioning_rbsp; let y1 ← y0.slice_header; pure (y1.pic_order_cnt_lsb) : Option _) == some 0 &&
      (do let y0 ← slice_layer_without_partitioning_rbsp; let y1 ← y0.slice_header; pure (y1.delta_pic_order_cnt_bottom) : Option _) == some 0 &&
      (do let y0 ← slice_layer_without_partitioning_rbsp; let y1 ← y0.slice_header; pure ((y1.delta_pic_order_cnt).length) : Option _) == some 0 &&
      (do let y0 ← slice_layer_without_partitioning_rbsp; let y1 ← y0.slice_header; pure (y1.redundant_pic_cnt) : Option _) == some 0 &&
      (do let y0 ← slice_layer_without_partitioning_rbsp; let y1 ← y0.slice_header; pure (y1.direct_spatial_mv_pred_flag) : Option _) == some 0 &&
      (do let y0 ← slice_layer_without_partitioning_rbsp; let y1 ← y0.slice_header; pure (y1.num_ref_idx_active_override_flag) : Option _) == some 0 &&
      (do let y0 ← slice_layer_without_partitioning_rbsp; let y1 ← y0.slice_header; pure (y1.num_ref_idx_l0_active_minus1) : Option _) == some 0 &&
      (do let y0 ← slice_layer_without_partitioning_rbsp; let y1 ← y0.slice_header; pure (y1.num_ref_idx_l1_active_minus1) : Option _) == some 0 &&
      ((do let y0 ← slice_layer_without_partitioning_rbsp; let y1 ← y0.slice_header; pure (y1) : Option _).map (fun x => x.ref_pic_list_modification.isSome)) == some true &&
      (do let y0 ← slice_layer_without_partitioning_rbsp; let y1 ← y0.slice_header; let y2 ← y1.ref_pic_list_modification; pure (y2.ref_pic_list_modification_flag_l0) : Option _) == some 0 &&
      (do let y0 ← slice_layer_without_partitioning_rbsp; let y1 ← y0.slice_header; let y2 ← y1.ref_pic_list_modification; pure (y2.ref_pic_list_modification_flag_l1) : Option _) == some 0 &&
      (do let y0 ← slice_layer_without_partitioning_rbsp; let y1 ← y0.slice_header; let y2 ← y1.ref_pic_list_modification; pure ((y2.modification_of_pic_nums_idc).length) : Option _) == some 0 &&
      (do let y0 ← slice_layer_without_partitioning_rbsp; let y1 ← y0.slice_header; let y2 ← y1.ref_pic_list_modification; pure ((y2.abs_diff_pic_num_minus1).length) : Option _) == some 0 &&
      (do let y0 ← slice_layer_without_partitioning_rbsp; let y1 ← y0.slice_header; let y2 ← y1.ref_pic_list_modification; pure ((y2.long_term_pic_num).length) : Option _) == some 0 &&
      ((do let y0 ← slice_layer_without_partitioning_rbsp; let y1 ← y0.slice_header; pure (y1) : Option _).map (fun x => x.pred_weight_table.isNone)) == some true &&
      ((do let y0 ← slice_layer_without_partitioning_rbsp; let y1 ← y0.slice_header; pure (y1) : Option _).map (fun x => x.dec_ref_pic_marking.isSome)) == some true &&
      (do let y0 ← slice_layer_without_partitioning_rbsp; let y1 ← y0.slice_header; let y2 ← y1.dec_ref_pic_marking; pure (y2.no_output_of_prior_pics_flag) : Option _) == some 0 &&
      (do let y0 ← slice_layer_without_partitioning_rbsp; let y1 ← y0.slice_header; let y2 ← y1.dec_ref_pic_marking; pure (y2.long_term_reference_flag) : Option _) == some 0 &&
      (do let y0 ← slice_layer_without_partitioning_rbsp; let y1 ← y0.slice_header; let y2 ← y1.dec_ref_pic_marking; pure (y2.adaptive_ref_pic_marking_mode_flag) : Option _) == some 0 &&
      (do let y0 ← slice_layer_without_partitioning_rbsp; let y1 ← y0.slice_header; let y2 ← y1.dec_ref_pic_marking; pure ((y2.memory_management_control_operation).length) : Option _) == some 0 &&
      (do let y0 ← slice_layer_without_partitioning_rbsp; let y1 ← y0.slice_header; let y2 ← y1.dec_ref_pic_marking; pure ((y2.difference_of_pic_nums_minus1).length) : Option _) == some 0 &&
      (do let y0 ← slice_layer_without_partitioning_rbsp; let y1 ← y0.slice_header; let y2 ← y1.dec_ref_pic_marking; pure ((y2.long_term_pic_num).length) : Option _) == some 0 &&
      (do let y0 ← slice_layer_without_partitioning_rbsp; let y1 ← y0.slice_header; let y2 ← y1.dec_ref_pic_marking; pure ((y2.long_term_frame_idx).length) : Option _) == some 0 &&
      (do let y0 ← slice_layer_without_partitioning_rbsp; let y1 ← y0.slice_header; let y2 ← y1.dec_ref_pic_marking; pure ((y2.max_long_term_frame_idx_plus1).length) : Option _) == some 0 &&
      (do let y0 ← slice_layer_without_partitioning_rbsp; let y1 ← y0.slice_header; pure (y1.cabac_init_idc) : Option _) == some 0 &&
      (do let y0 ← slice_layer_without_partitioning_rbsp; let y1 ← y0.slice_header; pure (y1.sp_for_switch_flag) : Option _) == some 0 &&
      (do let y0 ← slice_layer_without_partitioning_rbsp; let y1 ← y0.slice_header; pure (y1.slice_qp_delta) : Option _) == some (-12) &&
      (do let y0 ← slice_layer_without_partitioning_rbsp; let y1 ← y0.slice_header; pure (y1.slice_qs_delta) : Option _) == some 0 &&
      (do let y0 ← slice_layer_without_partitioning_rbsp; let y1 ← y0.slice_header; pure (y1.disable_deblocking_filter_idc) : Option _) == some 0 &&
      (do let y0 ← slice_layer_without_partitioning_rbsp; let y1 ← y0.slice_header; pure (y1.slice_alpha_c0_offset_div2) : Option _) == some 0 &&
      (do let y0 ← slice_layer_without_partitioning_rbsp; let y1 ← y0.slice_header; pure (y1.slice_beta_offset_div2) : Option _) == some 0 &&
      (do let y0 ← slice_layer_without_partitioning_rbsp; let y1 ← y0.slice_header; pure (y1.slice_group_change_cycle) : Option _) == some 0) : Res Bool) = .val true := by decide +kernel

/-- TestSampleSliceNonIDR601 (test/h264_slice_layer_without_partitioning_rbsp_parser_unittest.cc:129), 40 expectations. -/
example : ∀ nd : Bool, (do
    let slice_layer_without_partitioning_rbsp ← onBytes nd (parseSliceLayer ({ sps := (upd (fun _ => none) 0 ({ log2_max_frame_num_minus4 := 1, frame_mbs_only_flag := 1, pic_order_cnt_type := 2, delta_pic_order_always_zero_flag := 0, pic_width_in_mbs_minus1 := 0, pic_height_in_map_units_minus1 := 0 } : SpsData)), pps := (upd (fun _ => none) 0 ({ bottom_field_pic_order_in_frame_present_flag := 0, redundant_pic_cnt_present_flag := 0, weighted_pred_flag := 0, weighted_bipred_idc := 0, entropy_coding_mode_flag := 0, deblocking_filter_control_present_flag := 1, num_slice_groups_minus1 := 0, slice_group_map_type := 0, slice_group_change_rate_minus1 := 0 } : Pps)) } : Store) 2 1) ([154, 28, 12, 240, 9, 108] : List UInt8)
    pure (slice_layer_without_partitioning_rbsp.isSome &&
      (do let y0 ← slice_layer_without_partitioning_rbsp; let y1 ← y0.slice_header; pure (y1.first_mb_in_slice) : Option _) == some 0 &&
      (do let y0 ← slice_layer_without_partitioning_rbsp; let y1 ← y0.slice_header; pure (y1.slice_type) : Option _) == some 5 &&
      (do let y0 ← slice_layer_without_partitioning_rbsp; let y1 ← y0.slice_header; pure (y1.pic_parameter_set_id) : Option _) == some 0 &&
      (do let y0 ← slice_layer_without_partitioning_rbsp; let y1 ← y0.slice_header; pure (y1.frame_num) : Option _) == some 1 &&
      (do let y0 ← slice_layer_without_partitioning_rbsp; let y1 ← y0.slice_header; pure (y1.field_pic_flag) : Option _) == some 0 &&
      (do let y0 ← slice_layer_without_partitioning_rbsp; let y1 ← y0.slice_header; pure (y1.bottom_field_flag) : Option _) == some 0 &&
      (do let y0 ← slice_layer_without_partitioning_rbsp; let y1 ← y0.slice_header; pure (y1.idr_pic_id) : Option _) == some 0 &&
      (do let y0 ← slice_layer_without_partitioning_rbsp; let y1 ← y0.slice_header; pure (y1.pic_order_cnt_lsb) : Option _) == some 0 &&
      (do let y0 ← slice_layer_without_partitioning_rbsp; let y1 ← y0.slice_header; pure (y1.delta_pic_order_cnt_bottom) : Option _) == some 0 &&
      (do let y0 ← slice_layer_without_partitioning_rbsp; let y1 ← y0.slice_header; pure ((y1.delta_pic_order_cnt).length) : Option _) == some 0 &&
      (do let y0 ← slice_layer_without_partitioning_rbsp; let y1 ← y0.slice_header; pure (y1.redundant_pic_cnt) : Option _) == some 0 &&
      (do let y0 ← slice_layer_without_partitioning_rbsp; let y1 ← y0.slice_header; pure (y1.direct_spatial_mv_pred_flag) : Option _) == some 0 &&
      (do let y0 ← slice_layer_without_partitioning_rbsp; let y1 ← y0.slice_header; pure (y1.num_ref_idx_active_override_flag) : Option _) == some 1 &&
      (do let y0 ← slice_layer_without_partitioning_rbsp; let y1 ← y0.slice_header; pure (y1.num_ref_idx_l0_active_minus1) : Option _) == some 0 &&
      (do let y0 ← slice_layer_without_partitioning_rbsp; let y1 ← y0.slice_header; pure (y1.num_ref_idx_l1_active_minus1) : Option _) == some 0 &&
      ((do let y0 ← slice_layer_without_partitioning_rbsp; let y1 ← y0.slice_header; pure (y1) : Option _).map (fun x => x.ref_pic_list_modification.isSome)) == some true &&
      (do let y0 ← slice_layer_without_partitioning_rbsp; let y1 ← y0.slice_header; let y2 ← y1.ref_pic_list_modification; pure (y2.ref_pic_list_modification_flag_l0) : Option _) == some 0 &&
      (do let y0 ← slice_layer_without_partitioning_rbsp; let y1 ← y0.slice_header; let y2 ← y1.ref_pic_list_modification; pure (y2.ref_pic_list_modification_flag_l1) : Option _) == some 0 &&
      (do let y0 ← slice_layer_without_partitioning_rbsp; let y1 ← y0.slice_header; let y2 ← y1.ref_pic_list_modification; pure ((y2.modification_of_pic_nums_idc).length) : Option _) == some 0 &&
      (do let y0 ← slice_layer_without_partitioning_rbsp; let y1 ← y0.slice_header; let y2 ← y1.ref_pic_list_modification; pure ((y2.abs_diff_pic_num_minus1).length) : Option _) == some 0 &&
      (do let y0 ← slice_layer_without_partitioning_rbsp; let y1 ← y0.slice_header; let y2 ← y1.ref_pic_list_modification; pure ((y2.long_term_pic_num).length) : Option _) == some 0 &&
      ((do let y0 ← slice_layer_without_partitioning_rbsp; let y1 ← y0.slice_header; pure (y1) : Option _).map (fun x => x.pred_weight_table.isNone)) == some true &&
      ((do let y0 ← slice_layer_without_partitioning_rbsp; let y1 ← y0.slice_header; pure (y1) : Option _).map (fun x => x.dec_ref_pic_marking.isSome)) == some true &&
      (do let y0 ← slice_layer_without_partitioning_rbsp; let y1 ← y0.slice_header; let y2 ← y1.dec_ref_pic_marking; pure (y2.no_output_of_prior_pics_flag) : Option _) == some 0 &&
      (do let y0 ← slice_layer_without_partitioning_rbsp; let y1 ← y0.slice_header; let y2 ← y1.dec_ref_pic_marking; pure (y2.long_term_reference_flag) : Option _) == some 0 &&
      (do let y0 ← slice_layer_without_partitioning_rbsp; let y1 ← y0.slice_header; let y2 ← y1.dec_ref_pic_marking; pure (y2.adaptive_ref_pic_marking_mode_flag) : Option _) == some 0 &&
      (do let y0 ← slice_layer_without_partitioning_rbsp; let y1 ← y0.slice_header; let y2 ← y1.dec_ref_pic_marking; pure ((y2.memory_management_control_operation).length) : Option _) == some 0 &&
      (do let y0 ← slice_layer_without_partitioning_rbsp; let y1 ← y0.slice_header; let y2 ← y1.dec_ref_pic_marking; pure ((y2.difference_of_pic_nums_minus1).length) : Option _) == some 0 &&
      (do let y0 ← slice_layer_without_partitioning_rbsp; let y1 ← y0.slice_header; let y2 ← y1.dec_ref_pic_marking; pure ((y2.long_term_pic_num).length) : Option _) == some 0 &&
      (do let y0 ← slice_layer_without_partitioning_rbsp; let y1 ← y0.slice_header; let y2 ← y1.dec_ref_pic_marking; pure ((y2.long_term_frame_idx).length) : Option _) == some 0 &&
      (do let y0 ← slice_layer_without_partitioning_rbsp; let y1 ← y0.slice_header; let y2 ← y1.dec_ref_pic_marking; pure ((y2.max_long_term_frame_idx_plus1).length) : Option _) == some 0 &&
      (do let y0 ← slice_layer_without_partitioning_rbsp; let y1 ← y0.slice_header; pure (y1.cabac_init_idc) : Option _) == some 0 &&
      (do let y0 ← slice_layer_without_partitioning_rbsp; let y1 ← y0.slice_header; pure (y1.sp_for_switch_flag) : Option _) == some 0 &&
      (do let y0 ← slice_layer_without_partitioning_rbsp; let y1 ← y0.slice_header; pure (y1.slice_qp_delta) : Option _) == some (-12) &&
      (do let y0 ← slice_layer_without_partitioning_rbsp; let y1 ← y0.slice_header; pure (y1.slice_qs_delta) : Option _) == some 0 &&
      (do let y0 ← slice_layer_without_partitioning_rbsp; let y1 ← y0.slice_header; pure (y1.disable_deblocking_filter_idc) : Option _) == some 0 &&
      (do let y0 ← slice_layer_without_partitioning_rbsp; let y1 ← y0.slice_header; pure (y1.slice_alpha_c0_offset_div2) : Option _) == some 0 &&
      (do let y0 ← slice_layer_without_partitioning_rbsp; let y1 ← y0.slice_header; pure (y1.slice_beta_offset_div2) : Option _) == some 0 &&
      (do let y0 ← slice_layer_without_partitioning_rbsp; let y1 ← y0.slice_header; pure (y1.slice_group_change_cycle) : Option _) == some 0) : Res Bool) = .val true := by decide +kernel

/-! ### test/h264_sps_extension_parser_unittest.cc -/

/-- TestSample01 (test/h264_sps_extension_parser_unittest.cc:22), 8 expectations. -/
example : ∀ nd : Bool, (do
    let sps_extension ← onBytes nd (parseSpsExt) ([162, 60, 60, 60, 0] : List UInt8)
    pure (sps_extension.isSome &&
      (do let y0 ← sps_extension; pure (y0.seq_parameter_set_id) : Option _) == some 0 &&
      (do let y0 ← sps_extension; pure (y0.aux_format_idc) : Option _) == some 1 &&
      (do let y0 ← sps_extension; pure (y0.bit_depth_aux_minus8) : Option _) == some 3 &&
      (do let y0 ← sps_extension; pure (y0.alpha_incr_flag) : Option _) == some 0 &&
      (do let y0 ← sps_extension; pure (y0.alpha_opaque_value) : Option _) == some 3855 &&
      (do let y0 ← sps_extension; pure (y0.alpha_transparent_value) : Option _) == some 240 &&
      (do let y0 ← sps_extension; pure (y0.additional_extension_flag) : Option _) == some 0) : Res Bool) = .val true := by decide +kernel

/-! ### test/h264_sps_parser_unittest.cc -/

/-- TestSampleSPS601 (test/h264_sps_parser_unittest.cc:21), 46 expectations. -/
example : ∀ nd : Bool, (do
    let sps ← onBytes nd (parseSps) ([66, 192, 22, 166, 17, 5, 7, 233, 178, 0, 0, 3, 0, 2, 0, 0, 3, 0, 100, 30, 44, 92, 35, 0] : List UInt8)
    pure (sps.isSome &&
      sps.isSome &&
      (do let y0 ← sps; pure (y0.profile_idc) : Option _) == some 66 &&
      (do let y0 ← sps; pure (y0.constraint_set0_flag) : Option _) == some 1 &&
      (do let y0 ← sps; pure (y0.constraint_set1_flag) : Option _) == some 1 &&
      (do let y0 ← sps; pure (y0.constraint_set2_flag) : Option _) == some 0 &&
      (do let y0 ← sps; pure (y0.constraint_set3_flag) : Option _) == some 0 &&
      (do let y0 ← sps; pure (y0.constraint_set4_flag) : Option _) == some 0 &&
      (do let y0 ← sps; pure (y0.constraint_set5_flag) : Option _) == some 0 &&
      (do let y0 ← sps; pure (y0.reserved_zero_2bits) : Option _) == some 0 &&
      (do let y0 ← sps; pure (y0.level_idc) : Option _) == some 22 &&
      (do let y0 ← sps; pure (y0.seq_parameter_set_id) : Option _) == some 0 &&
      (do let y0 ← sps; pure (y0.chroma_format_idc) : Option _) == some 1 &&
      (do let y0 ← sps; pure (y0.log2_max_frame_num_minus4) : Option _) == some 1 &&
      (do let y0 ← sps; pure (y0.pic_order_cnt_type) : Option _) == some 2 &&
      (do let y0 ← sps; pure (y0.max_num_ref_frames) : Option _) == some 16 &&
      (do let y0 ← sps; pure (y0.gaps_in_frame_num_value_allowed_flag) : Option _) == some 0 &&
      (do let y0 ← sps; pure (y0.pic_width_in_mbs_minus1) : Option _) == some 19 &&
      (do let y0 ← sps; pure (y0.pic_height_in_map_units_minus1) : Option _) == some 14 &&
      (do let y0 ← sps; pure (y0.frame_mbs_only_flag) : Option _) == some 1 &&
      (do let y0 ← sps; pure (y0.direct_8x8_inference_flag) : Option _) == some 1 &&
      (do let y0 ← sps; pure (y0.frame_cropping_flag) : Option _) == some 0 &&
      (do let y0 ← sps; pure (y0.vui_parameters_present_flag) : Option _) == some 1 &&
      ((do let y0 ← sps; pure (y0) : Option _).map (fun x => x.vui_parameters.isSome)) == some true &&
      (do let y0 ← sps; let y1 ← y0.vui_parameters; pure (y1.aspect_ratio_info_present_flag) : Option _) == some 0 &&
      (do let y0 ← sps; let y1 ← y0.vui_parameters; pure (y1.overscan_info_present_flag) : Option _) == some 0 &&
      (do let y0 ← sps; let y1 ← y0.vui_parameters; pure (y1.video_signal_type_present_flag) : Option _) == some 1 &&
      (do let y0 ← sps; let y1 ← y0.vui_parameters; pure (y1.video_format) : Option _) == some 5 &&
      (do let y0 ← sps; let y1 ← y0.vui_parameters; pure (y1.video_full_range_flag) : Option _) == some 1 &&
      (do let y0 ← sps; let y1 ← y0.vui_parameters; pure (y1.colour_description_present_flag) : Option _) == some 0 &&
      (do let y0 ← sps; let y1 ← y0.vui_parameters; pure (y1.chroma_loc_info_present_flag) : Option _) == some 0 &&
      (do let y0 ← sps; let y1 ← y0.vui_parameters; pure (y1.timing_info_present_flag) : Option _) == some 1 &&
      (do let y0 ← sps; let y1 ← y0.vui_parameters; pure (y1.num_units_in_tick) : Option _) == some 1 &&
      (do let y0 ← sps; let y1 ← y0.vui_parameters; pure (y1.time_scale) : Option _) == some 50 &&
      (do let y0 ← sps; let y1 ← y0.vui_parameters; pure (y1.fixed_frame_rate_flag) : Option _) == some 0 &&
      (do let y0 ← sps; let y1 ← y0.vui_parameters; pure (y1.nal_hrd_parameters_present_flag) : Option _) == some 0 &&
      (do let y0 ← sps; let y1 ← y0.vui_parameters; pure (y1.vcl_hrd_parameters_present_flag) : Option _) == some 0 &&
      (do let y0 ← sps; let y1 ← y0.vui_parameters; pure (y1.pic_struct_present_flag) : Option _) == some 0 &&
      (do let y0 ← sps; let y1 ← y0.vui_parameters; pure (y1.bitstream_restriction_flag) : Option _) == some 1 &&
      (do let y0 ← sps; let y1 ← y0.vui_parameters; pure (y1.motion_vectors_over_pic_boundaries_flag) : Option _) == some 1 &&
      (do let y0 ← sps; let y1 ← y0.vui_parameters; pure (y1.max_bytes_per_pic_denom) : Option _) == some 0 &&
      (do let y0 ← sps; let y1 ← y0.vui_parameters; pure (y1.max_bits_per_mb_denom) : Option _) == some 0 &&
      (do let y0 ← sps; let y1 ← y0.vui_parameters; pure (y1.log2_max_mv_length_horizontal) : Option _) == some 10 &&
      (do let y0 ← sps; let y1 ← y0.vui_parameters; pure (y1.log2_max_mv_length_vertical) : Option _) == some 10 &&
      (do let y0 ← sps; let y1 ← y0.vui_parameters; pure (y1.max_num_reorder_frames) : Option _) == some 0 &&
      (do let y0 ← sps; let y1 ← y0.vui_parameters; pure (y1.max_dec_frame_buffering) : Option _) == some 16) : Res Bool) = .val true := by decide +kernel

/-- TestSampleSPS2012 (test/h264_sps_parser_unittest.cc:89), 53 expectations. -/
example : ∀ nd : Bool, (do
    let sps ← onBytes nd (parseSps) ([100, 0, 51, 172, 114, 132, 64, 120, 2, 39, 229, 192, 68, 0, 0, 3, 0, 4, 0, 0, 3, 0, 240, 60, 96, 198, 17, 128] : List UInt8)
    pure (sps.isSome &&
      sps.isSome &&
      (do let y0 ← sps; pure (y0.profile_idc) : Option _) == some 100 &&
      (do let y0 ← sps; pure (y0.constraint_set0_flag) : Option _) == some 0 &&
      (do let y0 ← sps; pure (y0.constraint_set1_flag) : Option _) == some 0 &&
      (do let y0 ← sps; pure (y0.constraint_set2_flag) : Option _) == some 0 &&
      (do let y0 ← sps; pure (y0.constraint_set3_flag) : Option _) == some 0 &&
      (do let y0 ← sps; pure (y0.constraint_set4_flag) : Option _) == some 0 &&
      (do let y0 ← sps; pure (y0.constraint_set5_flag) : Option _) == some 0 &&
      (do let y0 ← sps; pure (y0.reserved_zero_2bits) : Option _) == some 0 &&
      (do let y0 ← sps; pure (y0.level_idc) : Option _) == some 51 &&
      (do let y0 ← sps; pure (y0.seq_parameter_set_id) : Option _) == some 0 &&
      (do let y0 ← sps; pure (y0.chroma_format_idc) : Option _) == some 1 &&
      (do let y0 ← sps; pure (y0.bit_depth_luma_minus8) : Option _) == some 0 &&
      (do let y0 ← sps; pure (y0.bit_depth_chroma_minus8) : Option _) == some 0 &&
      (do let y0 ← sps; pure (y0.qpprime_y_zero_transform_bypass_flag) : Option _) == some 0 &&
      (do let y0 ← sps; pure (y0.seq_scaling_matrix_present_flag) : Option _) == some 0 &&
      (do let y0 ← sps; pure (y0.log2_max_frame_num_minus4) : Option _) == some 2 &&
      (do let y0 ← sps; pure (y0.pic_order_cnt_type) : Option _) == some 0 &&
      (do let y0 ← sps; pure (y0.log2_max_pic_order_cnt_lsb_minus4) : Option _) == some 4 &&
      (do let y0 ← sps; pure (y0.max_num_ref_frames) : Option _) == some 16 &&
      (do let y0 ← sps; pure (y0.gaps_in_frame_num_value_allowed_flag) : Option _) == some 0 &&
      (do let y0 ← sps; pure (y0.pic_width_in_mbs_minus1) : Option _) == some 119 &&
      (do let y0 ← sps; pure (y0.pic_height_in_map_units_minus1) : Option _) == some 67 &&
      (do let y0 ← sps; pure (y0.frame_mbs_only_flag) : Option _) == some 1 &&
      (do let y0 ← sps; pure (y0.direct_8x8_inference_flag) : Option _) == some 1 &&
      (do let y0 ← sps; pure (y0.frame_cropping_flag) : Option _) == some 1 &&
      (do let y0 ← sps; pure (y0.frame_crop_left_offset) : Option _) == some 0 &&
      (do let y0 ← sps; pure (y0.frame_crop_right_offset) : Option _) == some 0 &&
      (do let y0 ← sps; pure (y0.frame_crop_top_offset) : Option _) == some 0 &&
      (do let y0 ← sps; pure (y0.frame_crop_bottom_offset) : Option _) == some 4 &&
      (do let y0 ← sps; pure (y0.vui_parameters_present_flag) : Option _) == some 1 &&
      ((do let y0 ← sps; pure (y0) : Option _).map (fun x => x.vui_parameters.isSome)) == some true &&
      (do let y0 ← sps; let y1 ← y0.vui_parameters; pure (y1.aspect_ratio_info_present_flag) : Option _) == some 1 &&
      (do let y0 ← sps; let y1 ← y0.vui_parameters; pure (y1.aspect_ratio_idc) : Option _) == some 1 &&
      (do let y0 ← sps; let y1 ← y0.vui_parameters; pure (y1.overscan_info_present_flag) : Option _) == some 0 &&
      (do let y0 ← sps; let y1 ← y0.vui_parameters; pure (y1.video_signal_type_present_flag) : Option _) == some 0 &&
      (do let y0 ← sps; let y1 ← y0.vui_parameters; pure (y1.chroma_loc_info_present_flag) : Option _) == some 0 &&
      (do let y0 ← sps; let y1 ← y0.vui_parameters; pure (y1.timing_info_present_flag) : Option _) == some 1 &&
      (do let y0 ← sps; let y1 ← y0.vui_parameters; pure (y1.num_units_in_tick) : Option _) == some 1 &&
      (do let y0 ← sps; let y1 ← y0.vui_parameters; pure (y1.time_scale) : Option _) == some 60 &&
      (do let y0 ← sps; let y1 ← y0.vui_parameters; pure (y1.fixed_frame_rate_flag) : Option _) == some 0 &&
      (do let y0 ← sps; let y1 ← y0.vui_parameters; pure (y1.nal_hrd_parameters_present_flag) : Option _) == some 0 &&
      (do let y0 ← sps; let y1 ← y0.vui_parameters; pure (y1.vcl_hrd_parameters_present_flag) : Option _) == some 0 &&
      (do let y0 ← sps; let y1 ← y0.vui_parameters; pure (y1.pic_struct_present_flag) : Option _) == some 0 &&
      (do let y0 ← sps; let y1 ← y0.vui_parameters; pure (y1.bitstream_restriction_flag) : Option _) == some 1 &&
      (do let y0 ← sps; let y1 ← y0.vui_parameters; pure (y1.motion_vectors_over_pic_boundaries_flag) : Option _) == some 1 &&
      (do let y0 ← sps; let y1 ← y0.vui_parameters; pure (y1.max_bytes_per_pic_denom) : Option _) == some 0 &&
      (do let y0 ← sps; let y1 ← y0.vui_parameters; pure (y1.max_bits_per_mb_denom) : Option _) == some 0 &&
      (do let y0 ← sps; let y1 ← y0.vui_parameters; pure (y1.log2_max_mv_length_horizontal) : Option _) == some 11 &&
      (do let y0 ← sps; let y1 ← y0.vui_parameters; pure (y1.log2_max_mv_length_vertical) : Option _) == some 11 &&
      (do let y0 ← sps; let y1 ← y0.vui_parameters; pure (y1.max_num_reorder_frames) : Option _) == some 2 &&
      (do let y0 ← sps; let y1 ← y0.vui_parameters; pure (y1.max_dec_frame_buffering) : Option _) == some 16) : Res Bool) = .val true := by decide +kernel

/-- TestBaselineProfileWithCropping (test/h264_sps_parser_unittest.cc:162), 22 expectations. -/
example : ∀ nd : Bool, (do
    let sps ← onBytes nd (parseSps) ([66, 192, 13, 217, 1, 65, 255, 150, 108, 128, 0, 0, 3, 0, 128, 0, 0, 25, 7, 138, 21, 36, 0] : List UInt8)
    let resolution ← (match ((do let y0 ← sps; pure (y0) : Option _) : Option SpsData) with | some x => x.getResolution | none => .val none)
    pure (sps.isSome &&
      sps.isSome &&
      (do let y0 ← sps; pure (y0.profile_idc) : Option _) == some 66 &&
      (do let y0 ← sps; pure (y0.level_idc) : Option _) == some 13 &&
      (do let y0 ← sps; pure (y0.chroma_format_idc) : Option _) == some 1 &&
      (do let y0 ← sps; pure (y0.log2_max_frame_num_minus4) : Option _) == some 0 &&
      (do let y0 ← sps; pure (y0.pic_order_cnt_type) : Option _) == some 2 &&
      (do let y0 ← sps; pure (y0.max_num_ref_frames) : Option _) == some 3 &&
      (do let y0 ← sps; pure (y0.gaps_in_frame_num_value_allowed_flag) : Option _) == some 0 &&
      (do let y0 ← sps; pure (y0.pic_width_in_mbs_minus1) : Option _) == some 19 &&
      (do let y0 ← sps; pure (y0.pic_height_in_map_units_minus1) : Option _) == some 14 &&
      (do let y0 ← sps; pure (y0.frame_mbs_only_flag) : Option _) == some 1 &&
      (do let y0 ← sps; pure (y0.direct_8x8_inference_flag) : Option _) == some 1 &&
      (do let y0 ← sps; pure (y0.frame_cropping_flag) : Option _) == some 1 &&
      (do let y0 ← sps; pure (y0.frame_crop_left_offset) : Option _) == some 0 &&
      (do let y0 ← sps; pure (y0.frame_crop_right_offset) : Option _) == some 0 &&
      (do let y0 ← sps; pure (y0.frame_crop_top_offset) : Option _) == some 0 &&
      (do let y0 ← sps; pure (y0.frame_crop_bottom_offset) : Option _) == some 4 &&
      (do let y0 ← sps; pure (y0.vui_parameters_present_flag) : Option _) == some 1 &&
      resolution.isSome &&
      (resolution.map (·.1)) == some 320 &&
      (resolution.map (·.2)) == some 232) : Res Bool) = .val true := by decide +kernel

/-- TestPaffSps (test/h264_sps_parser_unittest.cc:245), 33 expectations. -/
example : ∀ nd : Bool, (do
    let sps ← onBytes nd (parseSps) ([77, 64, 30, 141, 65, 41, 12, 48, 22, 143, 36] : List UInt8)
    let resolution ← (match ((do let y0 ← sps; pure (y0) : Option _) : Option SpsData) with | some x => x.getResolution | none => .val none)
    pure (sps.isSome &&
      sps.isSome &&
      (do let y0 ← sps; pure (y0.profile_idc) : Option _) == some 77 &&
      (do let y0 ← sps; pure (y0.constraint_set0_flag) : Option _) == some 0 &&
      (do let y0 ← sps; pure (y0.constraint_set1_flag) : Option _) == some 1 &&
      (do let y0 ← sps; pure (y0.constraint_set2_flag) : Option _) == some 0 &&
      (do let y0 ← sps; pure (y0.constraint_set3_flag) : Option _) == some 0 &&
      (do let y0 ← sps; pure (y0.constraint_set4_flag) : Option _) == some 0 &&
      (do let y0 ← sps; pure (y0.constraint_set5_flag) : Option _) == some 0 &&
      (do let y0 ← sps; pure (y0.reserved_zero_2bits) : Option _) == some 0 &&
      (do let y0 ← sps; pure (y0.level_idc) : Option _) == some 30 &&
      (do let y0 ← sps; pure (y0.seq_parameter_set_id) : Option _) == some 0 &&
      (do let y0 ← sps; pure (y0.chroma_format_idc) : Option _) == some 1 &&
      (do let y0 ← sps; pure (y0.log2_max_frame_num_minus4) : Option _) == some 12 &&
      (do let y0 ← sps; pure (y0.pic_order_cnt_type) : Option _) == some 1 &&
      (do let y0 ← sps; pure (y0.delta_pic_order_always_zero_flag) : Option _) == some 0 &&
      (do let y0 ← sps; pure (y0.offset_for_non_ref_pic) : Option _) == some (-4) &&
      (do let y0 ← sps; pure (y0.offset_for_top_to_bottom_field) : Option _) == some 1 &&
      (do let y0 ← sps; pure (y0.num_ref_frames_in_pic_order_cnt_cycle) : Option _) == some 1 &&
      (do let y0 ← sps; pure ((y0.offset_for_ref_frame).length) : Option _) == some 1 &&
      (do let y0 ← sps; let y1 ← (y0.offset_for_ref_frame)[0]?; pure (y1) : Option _) == some 6 &&
      (do let y0 ← sps; pure (y0.max_num_ref_frames) : Option _) == some 5 &&
      (do let y0 ← sps; pure (y0.gaps_in_frame_num_value_allowed_flag) : Option _) == some 0 &&
      (do let y0 ← sps; pure (y0.pic_width_in_mbs_minus1) : Option _) == some 44 &&
      (do let y0 ← sps; pure (y0.pic_height_in_map_units_minus1) : Option _) == some 14 &&
      (do let y0 ← sps; pure (y0.frame_mbs_only_flag) : Option _) == some 0 &&
      (do let y0 ← sps; pure (y0.mb_adaptive_frame_field_flag) : Option _) == some 0 &&
      (do let y0 ← sps; pure (y0.direct_8x8_inference_flag) : Option _) == some 1 &&
      (do let y0 ← sps; pure (y0.frame_cropping_flag) : Option _) == some 0 &&
      (do let y0 ← sps; pure (y0.vui_parameters_present_flag) : Option _) == some 0 &&
      resolution.isSome &&
      (resolution.map (·.1)) == some 720 &&
      (resolution.map (·.2)) == some 480) : Res Bool) = .val true := by decide +kernel

/-- TestInterlacedSpsFrameHeight (test/h264_sps_parser_unittest.cc:313), 12 expectations. -/
example : ∀ nd : Bool, (do
    let sps ← onBytes nd (parseSps) ([100, 0, 30, 172, 217, 64, 176, 123, 96, 34, 0, 0, 3, 0, 2, 0, 0, 3, 0, 120, 62, 40, 83, 44] : List UInt8)
    let resolution ← (match ((do let y0 ← sps; pure (y0) : Option _) : Option SpsData) with | some x => x.getResolution | none => .val none)
    pure (sps.isSome &&
      sps.isSome &&
      (do let y0 ← sps; pure (y0.profile_idc) : Option _) == some 100 &&
      (do let y0 ← sps; pure (y0.chroma_format_idc) : Option _) == some 1 &&
      (do let y0 ← sps; pure (y0.pic_width_in_mbs_minus1) : Option _) == some 43 &&
      (do let y0 ← sps; pure (y0.pic_height_in_map_units_minus1) : Option _) == some 14 &&
      (do let y0 ← sps; pure (y0.frame_mbs_only_flag) : Option _) == some 0 &&
      (do let y0 ← sps; pure (y0.mb_adaptive_frame_field_flag) : Option _) == some 1 &&
      (do let y0 ← sps; pure (y0.frame_cropping_flag) : Option _) == some 0 &&
      resolution.isSome &&
      (resolution.map (·.1)) == some 704 &&
      (resolution.map (·.2)) == some 480) : Res Bool) = .val true := by decide +kernel

/-- TestScalingListDeltaScaleOverflow (test/h264_sps_parser_unittest.cc:359), 1 expectations. -/
example : ∀ nd : Bool, (do
    let sps ← onBytes nd (parseSps) ([100, 0, 30, 173, 128, 0, 0, 0, 255, 255, 255, 28, 128] : List UInt8)
    pure (sps.isNone) : Res Bool) = .val true := by decide +kernel

/-- TestScalingListDeltaScaleOutOfRange (test/h264_sps_parser_unittest.cc:373), 1 expectations. -/
example : ∀ nd : Bool, (do
    let sps ← onBytes nd (parseSps) ([100, 0, 30, 173, 128, 64, 32] : List UInt8)
    pure (sps.isNone) : Res Bool) = .val true := by decide +kernel

/-- TestScalingListValidDeltaScale (test/h264_sps_parser_unittest.cc:382), 9 expectations. -/
example : ∀ nd : Bool, (do
    let sps ← onBytes nd (parseSps) ([100, 0, 30, 173, 132, 64, 116, 5, 129, 236, 128] : List UInt8)
    let resolution ← (match ((do let y0 ← sps; pure (y0) : Option _) : Option SpsData) with | some x => x.getResolution | none => .val none)
    pure (sps.isSome &&
      sps.isSome &&
      (do let y0 ← sps; pure (y0.seq_scaling_matrix_present_flag) : Option _) == some 1 &&
      (do let y0 ← sps; let y1 ← (y0.scaling_list_present_flag)[0]?; pure (y1) : Option _) == some 1 &&
      (do let y0 ← sps; pure (y0.delta_scale) : Option _) == some (-8) &&
      (do let y0 ← sps; let y1 ← (y0.UseDefaultScalingMatrix4x4Flag)[0]?; pure (y1) : Option _) == some 1 &&
      resolution.isSome &&
      (resolution.map (·.1)) == some 704 &&
      (resolution.map (·.2)) == some 480) : Res Bool) = .val true := by decide +kernel

/-- TestExcessiveFrameCropping (test/h264_sps_parser_unittest.cc:406), 1 expectations. -/
example : ∀ nd : Bool, (do
    let sps ← onBytes nd (parseSps) ([66, 0, 30, 221, 208, 50, 244] : List UInt8)
    pure (sps.isNone) : Res Bool) = .val true := by decide +kernel

/-- TestGetResolutionRejectsEmptyPicture (test/h264_sps_parser_unittest.cc:419), 1 expectations. -/
example : ∀ nd : Bool, (do
    let resolution ← (match (some ({ chroma_format_idc := 1, pic_width_in_mbs_minus1 := 0, pic_height_in_map_units_minus1 := 0, frame_mbs_only_flag := 1, frame_cropping_flag := 1, frame_crop_left_offset := 100 } : SpsData) : Option SpsData) with | some x => x.getResolution | none => .val none)
    pure (resolution.isNone) : Res Bool) = .val true := by decide +kernel

/-- TestTruncatedSps (test/h264_sps_parser_unittest.cc:441), 1 expectations. -/
example : ∀ nd : Bool, (do
    let sps ← onBytes nd (parseSps) ([66] : List UInt8)
    pure (sps.isNone) : Res Bool) = .val true := by decide +kernel

/-- TestZeroLengthSps (test/h264_sps_parser_unittest.cc:448), 1 expectations. -/
example : ∀ nd : Bool, (do
    let sps ← onBytes nd (parseSps) (([0] : List UInt8).take 0)
    pure (sps.isNone) : Res Bool) = .val true := by decide +kernel

/-! ### test/h264_sps_svc_extension_parser_unittest.cc -/

/-- TestSampleSpsSvcExtension01 (test/h264_sps_svc_extension_parser_unittest.cc:21), 5 expectations. -/
example : ∀ nd : Bool, (do
    let sps_svc_extension ← onBytes nd (parseSpsSvcExt 0) ([255] : List UInt8)
    pure (sps_svc_extension.isSome &&
      (do let y0 ← sps_svc_extension; pure (y0.inter_layer_deblocking_filter_control_present_flag) : Option _) == some 1 &&
      (do let y0 ← sps_svc_extension; pure (y0.extended_spatial_scalability_idc) : Option _) == some 3 &&
      (do let y0 ← sps_svc_extension; pure (y0.seq_tcoeff_level_prediction_flag) : Option _) == some 1 &&
      (do let y0 ← sps_svc_extension; pure (y0.slice_header_restriction_flag) : Option _) == some 1) : Res Bool) = .val true := by decide +kernel

/-- TestSampleSpsSvcExtension02 (test/h264_sps_svc_extension_parser_unittest.cc:41), 11 expectations. -/
example : ∀ nd : Bool, (do
    let sps_svc_extension ← onBytes nd (parseSpsSvcExt 1) ([255, 255] : List UInt8)
    pure (sps_svc_extension.isSome &&
      (do let y0 ← sps_svc_extension; pure (y0.inter_layer_deblocking_filter_control_present_flag) : Option _) == some 1 &&
      (do let y0 ← sps_svc_extension; pure (y0.extended_spatial_scalability_idc) : Option _) == some 3 &&
      (do let y0 ← sps_svc_extension; pure (y0.chroma_phase_x_plus1_flag) : Option _) == some 1 &&
      (do let y0 ← sps_svc_extension; pure (y0.chroma_phase_y_plus1) : Option _) == some 3 &&
      (do let y0 ← sps_svc_extension; pure (y0.seq_scaled_ref_layer_left_offset) : Option _) == some 0 &&
      (do let y0 ← sps_svc_extension; pure (y0.seq_scaled_ref_layer_top_offset) : Option _) == some 0 &&
      (do let y0 ← sps_svc_extension; pure (y0.seq_scaled_ref_layer_right_offset) : Option _) == some 0 &&
      (do let y0 ← sps_svc_extension; pure (y0.seq_scaled_ref_layer_bottom_offset) : Option _) == some 0 &&
      (do let y0 ← sps_svc_extension; pure (y0.seq_tcoeff_level_prediction_flag) : Option _) == some 1 &&
      (do let y0 ← sps_svc_extension; pure (y0.slice_header_restriction_flag) : Option _) == some 1) : Res Bool) = .val true := by decide +kernel

/-- TestSampleSpsSvcExtension03 (test/h264_sps_svc_extension_parser_unittest.cc:67), 7 expectations. -/
example : ∀ nd : Bool, (do
    let sps_svc_extension ← onBytes nd (parseSpsSvcExt 1) ([129, 32] : List UInt8)
    pure (sps_svc_extension.isSome &&
      (do let y0 ← sps_svc_extension; pure (y0.inter_layer_deblocking_filter_control_present_flag) : Option _) == some 1 &&
      (do let y0 ← sps_svc_extension; pure (y0.extended_spatial_scalability_idc) : Option _) == some 0 &&
      (do let y0 ← sps_svc_extension; pure (y0.chroma_phase_x_plus1_flag) : Option _) == some 0 &&
      (do let y0 ← sps_svc_extension; pure (y0.chroma_phase_y_plus1) : Option _) == some 0 &&
      (do let y0 ← sps_svc_extension; pure (y0.seq_tcoeff_level_prediction_flag) : Option _) == some 0 &&
      (do let y0 ← sps_svc_extension; pure (y0.slice_header_restriction_flag) : Option _) == some 1) : Res Bool) = .val true := by decide +kernel

/-! ### test/h264_subset_sps_parser_unittest.cc -/

/-- TestSample01 (test/h264_subset_sps_parser_unittest.cc:22), 22 expectations. -/
example : ∀ nd : Bool, (do
    let subset_sps ← onBytes nd (parseSubsetSps) ([83, 0, 11, 172, 77, 2, 193, 44, 129, 32] : List UInt8)
    pure (subset_sps.isSome &&
      (do let y0 ← subset_sps; pure (y0.seq_parameter_set_data) : Option _).isSome &&
      (do let y0 ← subset_sps; pure (y0.seq_parameter_set_data.profile_idc) : Option _) == some 83 &&
      (do let y0 ← subset_sps; pure (y0.seq_parameter_set_data.constraint_set0_flag) : Option _) == some 0 &&
      (do let y0 ← subset_sps; pure (y0.seq_parameter_set_data.constraint_set1_flag) : Option _) == some 0 &&
      (do let y0 ← subset_sps; pure (y0.seq_parameter_set_data.constraint_set2_flag) : Option _) == some 0 &&
      (do let y0 ← subset_sps; pure (y0.seq_parameter_set_data.constraint_set3_flag) : Option _) == some 0 &&
      (do let y0 ← subset_sps; pure (y0.seq_parameter_set_data.constraint_set4_flag) : Option _) == some 0 &&
      (do let y0 ← subset_sps; pure (y0.seq_parameter_set_data.constraint_set5_flag) : Option _) == some 0 &&
      (do let y0 ← subset_sps; pure (y0.seq_parameter_set_data.reserved_zero_2bits) : Option _) == some 0 &&
      (do let y0 ← subset_sps; pure (y0.seq_parameter_set_data.level_idc) : Option _) == some 11 &&
      (do let y0 ← subset_sps; pure (y0.seq_parameter_set_data.seq_parameter_set_id) : Option _) == some 0 &&
      (do let y0 ← subset_sps; pure (y0.seq_parameter_set_data.log2_max_frame_num_minus4) : Option _) == some 1 &&
      (do let y0 ← subset_sps; pure (y0.seq_parameter_set_data.pic_order_cnt_type) : Option _) == some 2 &&
      (do let y0 ← subset_sps; pure (y0.seq_parameter_set_data.max_num_ref_frames) : Option _) == some 1 &&
      (do let y0 ← subset_sps; pure (y0.seq_parameter_set_data.gaps_in_frame_num_value_allowed_flag) : Option _) == some 0 &&
      (do let y0 ← subset_sps; pure (y0.seq_parameter_set_data.pic_width_in_mbs_minus1) : Option _) == some 21 &&
      (do let y0 ← subset_sps; pure (y0.seq_parameter_set_data.pic_height_in_map_units_minus1) : Option _) == some 17 &&
      (do let y0 ← subset_sps; pure (y0.seq_parameter_set_data.frame_mbs_only_flag) : Option _) == some 1 &&
      (do let y0 ← subset_sps; pure (y0.seq_parameter_set_data.direct_8x8_inference_flag) : Option _) == some 1 &&
      (do let y0 ← subset_sps; pure (y0.seq_parameter_set_data.frame_cropping_flag) : Option _) == some 0 &&
      (do let y0 ← subset_sps; pure (y0.seq_parameter_set_data.vui_parameters_present_flag) : Option _) == some 0) : Res Bool) = .val true := by decide +kernel

/-! ### test/h264_vui_parameters_parser_unittest.cc -/

/-- TestSampleVuiParameters601 (test/h264_vui_parameters_parser_unittest.cc:21), 23 expectations. -/
example : ∀ nd : Bool, (do
    let vui_parameters ← onBytes nd (parseVui) ([54, 64, 0, 0, 0, 64, 0, 0, 12, 131, 197, 139, 132, 96] : List UInt8)
    pure (vui_parameters.isSome &&
      (do let y0 ← vui_parameters; pure (y0.aspect_ratio_info_present_flag) : Option _) == some 0 &&
      (do let y0 ← vui_parameters; pure (y0.overscan_info_present_flag) : Option _) == some 0 &&
      (do let y0 ← vui_parameters; pure (y0.video_signal_type_present_flag) : Option _) == some 1 &&
      (do let y0 ← vui_parameters; pure (y0.video_format) : Option _) == some 5 &&
      (do let y0 ← vui_parameters; pure (y0.video_full_range_flag) : Option _) == some 1 &&
      (do let y0 ← vui_parameters; pure (y0.colour_description_present_flag) : Option _) == some 0 &&
      (do let y0 ← vui_parameters; pure (y0.chroma_loc_info_present_flag) : Option _) == some 0 &&
      (do let y0 ← vui_parameters; pure (y0.timing_info_present_flag) : Option _) == some 1 &&
      (do let y0 ← vui_parameters; pure (y0.num_units_in_tick) : Option _) == some 1 &&
      (do let y0 ← vui_parameters; pure (y0.time_scale) : Option _) == some 50 &&
      (do let y0 ← vui_parameters; pure (y0.fixed_frame_rate_flag) : Option _) == some 0 &&
      (do let y0 ← vui_parameters; pure (y0.nal_hrd_parameters_present_flag) : Option _) == some 0 &&
      (do let y0 ← vui_parameters; pure (y0.vcl_hrd_parameters_present_flag) : Option _) == some 0 &&
      (do let y0 ← vui_parameters; pure (y0.pic_struct_present_flag) : Option _) == some 0 &&
      (do let y0 ← vui_parameters; pure (y0.bitstream_restriction_flag) : Option _) == some 1 &&
      (do let y0 ← vui_parameters; pure (y0.motion_vectors_over_pic_boundaries_flag) : Option _) == some 1 &&
      (do let y0 ← vui_parameters; pure (y0.max_bytes_per_pic_denom) : Option _) == some 0 &&
      (do let y0 ← vui_parameters; pure (y0.max_bits_per_mb_denom) : Option _) == some 0 &&
      (do let y0 ← vui_parameters; pure (y0.log2_max_mv_length_horizontal) : Option _) == some 10 &&
      (do let y0 ← vui_parameters; pure (y0.log2_max_mv_length_vertical) : Option _) == some 10 &&
      (do let y0 ← vui_parameters; pure (y0.max_num_reorder_frames) : Option _) == some 0 &&
      (do let y0 ← vui_parameters; pure (y0.max_dec_frame_buffering) : Option _) == some 16) : Res Bool) = .val true := by decide +kernel

/-- TestSampleVuiParameters601vui (test/h264_vui_parameters_parser_unittest.cc:59), 26 expectations. -/
example : ∀ nd : Bool, (do
    let vui_parameters ← onBytes nd (parseVui) ([55, 6, 6, 6, 64, 0, 0, 0, 64, 0, 0, 12, 131, 197, 139, 132, 96, 0] : List UInt8)
    pure (vui_parameters.isSome &&
      (do let y0 ← vui_parameters; pure (y0.aspect_ratio_info_present_flag) : Option _) == some 0 &&
      (do let y0 ← vui_parameters; pure (y0.overscan_info_present_flag) : Option _) == some 0 &&
      (do let y0 ← vui_parameters; pure (y0.video_signal_type_present_flag) : Option _) == some 1 &&
      (do let y0 ← vui_parameters; pure (y0.video_format) : Option _) == some 5 &&
      (do let y0 ← vui_parameters; pure (y0.video_full_range_flag) : Option _) == some 1 &&
      (do let y0 ← vui_parameters; pure (y0.colour_description_present_flag) : Option _) == some 1 &&
      (do let y0 ← vui_parameters; pure (y0.colour_primaries) : Option _) == some 6 &&
      (do let y0 ← vui_parameters; pure (y0.transfer_characteristics) : Option _) == some 6 &&
      (do let y0 ← vui_parameters; pure (y0.matrix_coefficients) : Option _) == some 6 &&
      (do let y0 ← vui_parameters; pure (y0.chroma_loc_info_present_flag) : Option _) == some 0 &&
      (do let y0 ← vui_parameters; pure (y0.timing_info_present_flag) : Option _) == some 1 &&
      (do let y0 ← vui_parameters; pure (y0.num_units_in_tick) : Option _) == some 1 &&
      (do let y0 ← vui_parameters; pure (y0.time_scale) : Option _) == some 50 &&
      (do let y0 ← vui_parameters; pure (y0.fixed_frame_rate_flag) : Option _) == some 0 &&
      (do let y0 ← vui_parameters; pure (y0.nal_hrd_parameters_present_flag) : Option _) == some 0 &&
      (do let y0 ← vui_parameters; pure (y0.vcl_hrd_parameters_present_flag) : Option _) == some 0 &&
      (do let y0 ← vui_parameters; pure (y0.pic_struct_present_flag) : Option _) == some 0 &&
      (do let y0 ← vui_parameters; pure (y0.bitstream_restriction_flag) : Option _) == some 1 &&
      (do let y0 ← vui_parameters; pure (y0.motion_vectors_over_pic_boundaries_flag) : Option _) == some 1 &&
      (do let y0 ← vui_parameters; pure (y0.max_bytes_per_pic_denom) : Option _) == some 0 &&
      (do let y0 ← vui_parameters; pure (y0.max_bits_per_mb_denom) : Option _) == some 0 &&
      (do let y0 ← vui_parameters; pure (y0.log2_max_mv_length_horizontal) : Option _) == some 10 &&
      (do let y0 ← vui_parameters; pure (y0.log2_max_mv_length_vertical) : Option _) == some 10 &&
      (do let y0 ← vui_parameters; pure (y0.max_num_reorder_frames) : Option _) == some 0 &&
      (do let y0 ← vui_parameters; pure (y0.max_dec_frame_buffering) : Option _) == some 16) : Res Bool) = .val true := by decide +kernel

/-- TestSampleVuiParameters709 (test/h264_vui_parameters_parser_unittest.cc:101), 26 expectations. -/
example : ∀ nd : Bool, (do
    let vui_parameters ← onBytes nd (parseVui) ([55, 1, 1, 1, 64, 0, 0, 0, 64, 0, 0, 12, 131, 197, 139, 132, 96, 0] : List UInt8)
    pure (vui_parameters.isSome &&
      (do let y0 ← vui_parameters; pure (y0.aspect_ratio_info_present_flag) : Option _) == some 0 &&
      (do let y0 ← vui_parameters; pure (y0.overscan_info_present_flag) : Option _) == some 0 &&
      (do let y0 ← vui_parameters; pure (y0.video_signal_type_present_flag) : Option _) == some 1 &&
      (do let y0 ← vui_parameters; pure (y0.video_format) : Option _) == some 5 &&
      (do let y0 ← vui_parameters; pure (y0.video_full_range_flag) : Option _) == some 1 &&
      (do let y0 ← vui_parameters; pure (y0.colour_description_present_flag) : Option _) == some 1 &&
      (do let y0 ← vui_parameters; pure (y0.colour_primaries) : Option _) == some 1 &&
      (do let y0 ← vui_parameters; pure (y0.transfer_characteristics) : Option _) == some 1 &&
      (do let y0 ← vui_parameters; pure (y0.matrix_coefficients) : Option _) == some 1 &&
      (do let y0 ← vui_parameters; pure (y0.chroma_loc_info_present_flag) : Option _) == some 0 &&
      (do let y0 ← vui_parameters; pure (y0.timing_info_present_flag) : Option _) == some 1 &&
      (do let y0 ← vui_parameters; pure (y0.num_units_in_tick) : Option _) == some 1 &&
      (do let y0 ← vui_parameters; pure (y0.time_scale) : Option _) == some 50 &&
      (do let y0 ← vui_parameters; pure (y0.fixed_frame_rate_flag) : Option _) == some 0 &&
      (do let y0 ← vui_parameters; pure (y0.nal_hrd_parameters_present_flag) : Option _) == some 0 &&
      (do let y0 ← vui_parameters; pure (y0.vcl_hrd_parameters_present_flag) : Option _) == some 0 &&
      (do let y0 ← vui_parameters; pure (y0.pic_struct_present_flag) : Option _) == some 0 &&
      (do let y0 ← vui_parameters; pure (y0.bitstream_restriction_flag) : Option _) == some 1 &&
      (do let y0 ← vui_parameters; pure (y0.motion_vectors_over_pic_boundaries_flag) : Option _) == some 1 &&
      (do let y0 ← vui_parameters; pure (y0.max_bytes_per_pic_denom) : Option _) == some 0 &&
      (do let y0 ← vui_parameters; pure (y0.max_bits_per_mb_denom) : Option _) == some 0 &&
      (do let y0 ← vui_parameters; pure (y0.log2_max_mv_length_horizontal) : Option _) == some 10 &&
      (do let y0 ← vui_parameters; pure (y0.log2_max_mv_length_vertical) : Option _) == some 10 &&
      (do let y0 ← vui_parameters; pure (y0.max_num_reorder_frames) : Option _) == some 0 &&
      (do let y0 ← vui_parameters; pure (y0.max_dec_frame_buffering) : Option _) == some 16) : Res Bool) = .val true := by decide +kernel

/-- TestSampleVuiParameters709vui (test/h264_vui_parameters_parser_unittest.cc:143), 26 expectations. -/
example : ∀ nd : Bool, (do
    let vui_parameters ← onBytes nd (parseVui) ([55, 1, 1, 1, 64, 0, 0, 0, 64, 0, 0, 12, 131, 197, 139, 132, 96, 0] : List UInt8)
    pure (vui_parameters.isSome &&
      (do let y0 ← vui_parameters; pure (y0.aspect_ratio_info_present_flag) : Option _) == some 0 &&
      (do let y0 ← vui_parameters; pure (y0.overscan_info_present_flag) : Option _) == some 0 &&
      (do let y0 ← vui_parameters; pure (y0.video_signal_type_present_flag) : Option _) == some 1 &&
      (do let y0 ← vui_parameters; pure (y0.video_format) : Option _) == some 5 &&
      (do let y0 ← vui_parameters; pure (y0.video_full_range_flag) : Option _) == some 1 &&
      (do let y0 ← vui_parameters; pure (y0.colour_description_present_flag) : Option _) == some 1 &&
      (do let y0 ← vui_parameters; pure (y0.colour_primaries) : Option _) == some 1 &&
      (do let y0 ← vui_parameters; pure (y0.transfer_characteristics) : Option _) == some 1 &&
      (do let y0 ← vui_parameters; pure (y0.matrix_coefficients) : Option _) == some 1 &&
      (do let y0 ← vui_parameters; pure (y0.chroma_loc_info_present_flag) : Option _) == some 0 &&
      (do let y0 ← vui_parameters; pure (y0.timing_info_present_flag) : Option _) == some 1 &&
      (do let y0 ← vui_parameters; pure (y0.num_units_in_tick) : Option _) == some 1 &&
      (do let y0 ← vui_parameters; pure (y0.time_scale) : Option _) == some 50 &&
      (do let y0 ← vui_parameters; pure (y0.fixed_frame_rate_flag) : Option _) == some 0 &&
      (do let y0 ← vui_parameters; pure (y0.nal_hrd_parameters_present_flag) : Option _) == some 0 &&
      (do let y0 ← vui_parameters; pure (y0.vcl_hrd_parameters_present_flag) : Option _) == some 0 &&
      (do let y0 ← vui_parameters; pure (y0.pic_struct_present_flag) : Option _) == some 0 &&
      (do let y0 ← vui_parameters; pure (y0.bitstream_restriction_flag) : Option _) == some 1 &&
      (do let y0 ← vui_parameters; pure (y0.motion_vectors_over_pic_boundaries_flag) : Option _) == some 1 &&
      (do let y0 ← vui_parameters; pure (y0.max_bytes_per_pic_denom) : Option _) == some 0 &&
      (do let y0 ← vui_parameters; pure (y0.max_bits_per_mb_denom) : Option _) == some 0 &&
      (do let y0 ← vui_parameters; pure (y0.log2_max_mv_length_horizontal) : Option _) == some 10 &&
      (do let y0 ← vui_parameters; pure (y0.log2_max_mv_length_vertical) : Option _) == some 10 &&
      (do let y0 ← vui_parameters; pure (y0.max_num_reorder_frames) : Option _) == some 0 &&
      (do let y0 ← vui_parameters; pure (y0.max_dec_frame_buffering) : Option _) == some 16) : Res Bool) = .val true := by decide +kernel

/-- TestSampleVuiParametersSmallMaxDecFrameBuffering (test/h264_vui_parameters_parser_unittest.cc:185), 26 expectations. -/
example : ∀ nd : Bool, (do
    let vui_parameters ← onBytes nd (parseVui) ([55, 5, 6, 5, 64, 57, 204, 102, 206, 230, 178, 128, 35, 104, 80, 154, 128] : List UInt8)
    pure (vui_parameters.isSome &&
      (do let y0 ← vui_parameters; pure (y0.aspect_ratio_info_present_flag) : Option _) == some 0 &&
      (do let y0 ← vui_parameters; pure (y0.overscan_info_present_flag) : Option _) == some 0 &&
      (do let y0 ← vui_parameters; pure (y0.video_signal_type_present_flag) : Option _) == some 1 &&
      (do let y0 ← vui_parameters; pure (y0.video_format) : Option _) == some 5 &&
      (do let y0 ← vui_parameters; pure (y0.video_full_range_flag) : Option _) == some 1 &&
      (do let y0 ← vui_parameters; pure (y0.colour_description_present_flag) : Option _) == some 1 &&
      (do let y0 ← vui_parameters; pure (y0.colour_primaries) : Option _) == some 5 &&
      (do let y0 ← vui_parameters; pure (y0.transfer_characteristics) : Option _) == some 6 &&
      (do let y0 ← vui_parameters; pure (y0.matrix_coefficients) : Option _) == some 5 &&
      (do let y0 ← vui_parameters; pure (y0.chroma_loc_info_present_flag) : Option _) == some 0 &&
      (do let y0 ← vui_parameters; pure (y0.timing_info_present_flag) : Option _) == some 1 &&
      (do let y0 ← vui_parameters; pure (y0.num_units_in_tick) : Option _) == some 15151515 &&
      (do let y0 ← vui_parameters; pure (y0.time_scale) : Option _) == some 1000000000 &&
      (do let y0 ← vui_parameters; pure (y0.fixed_frame_rate_flag) : Option _) == some 1 &&
      (do let y0 ← vui_parameters; pure (y0.nal_hrd_parameters_present_flag) : Option _) == some 0 &&
      (do let y0 ← vui_parameters; pure (y0.vcl_hrd_parameters_present_flag) : Option _) == some 0 &&
      (do let y0 ← vui_parameters; pure (y0.pic_struct_present_flag) : Option _) == some 0 &&
      (do let y0 ← vui_parameters; pure (y0.bitstream_restriction_flag) : Option _) == some 1 &&
      (do let y0 ← vui_parameters; pure (y0.motion_vectors_over_pic_boundaries_flag) : Option _) == some 1 &&
      (do let y0 ← vui_parameters; pure (y0.max_bytes_per_pic_denom) : Option _) == some 2 &&
      (do let y0 ← vui_parameters; pure (y0.max_bits_per_mb_denom) : Option _) == some 1 &&
      (do let y0 ← vui_parameters; pure (y0.log2_max_mv_length_horizontal) : Option _) == some 9 &&
      (do let y0 ← vui_parameters; pure (y0.log2_max_mv_length_vertical) : Option _) == some 8 &&
      (do let y0 ← vui_parameters; pure (y0.max_num_reorder_frames) : Option _) == some 0 &&
      (do let y0 ← vui_parameters; pure (y0.max_dec_frame_buffering) : Option _) == some 1) : Res Bool) = .val true := by decide +kernel

/-- TestZeroNumUnitsInTick (test/h264_vui_parameters_parser_unittest.cc:231), 1 expectations. -/
example : ∀ nd : Bool, (do
    let vui_parameters ← onBytes nd (parseVui) ([8, 0, 0, 0, 0, 0, 7, 83, 0, 0] : List UInt8)
    pure (vui_parameters.isNone) : Res Bool) = .val true := by decide +kernel

/-- TestZeroTimeScale (test/h264_vui_parameters_parser_unittest.cc:242), 1 expectations. -/
example : ∀ nd : Bool, (do
    let vui_parameters ← onBytes nd (parseVui) ([8, 0, 0, 31, 72, 0, 0, 0, 0, 0] : List UInt8)
    pure (vui_parameters.isNone) : Res Bool) = .val true := by decide +kernel

/-- TestValidTimingInfo (test/h264_vui_parameters_parser_unittest.cc:253), 4 expectations. -/
example : ∀ nd : Bool, (do
    let vui_parameters ← onBytes nd (parseVui) ([8, 0, 0, 31, 72, 0, 7, 83, 0, 0] : List UInt8)
    pure (vui_parameters.isSome &&
      (do let y0 ← vui_parameters; pure (y0.timing_info_present_flag) : Option _) == some 1 &&
      (do let y0 ← vui_parameters; pure (y0.num_units_in_tick) : Option _) == some 1001 &&
      (do let y0 ← vui_parameters; pure (y0.time_scale) : Option _) == some 60000) : Res Bool) = .val true := by decide +kernel

end H264

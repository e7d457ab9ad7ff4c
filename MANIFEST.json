{
 "claims": [
  {
   "property": "C01",
   "status": "proved",
   "theorems": [
    "H264.Props.C01_peekBits_exact",
    "H264.Props.C01_readBits_exact",
    "H264.Props.C01_readUInt_exact"
   ],
   "note": ""
  },
  {
   "property": "C02",
   "status": "proved",
   "theorems": [
    "H264.Props.C02_failure_keeps_position"
   ],
   "note": ""
  },
  {
   "property": "C03",
   "status": "proved",
   "theorems": [
    "H264.Props.C03_reader_stays_inside"
   ],
   "note": "ReadNonSymmetric is called within its documented precondition (1 <= num_values < 2^31); the boundary cases are C09."
  },
  {
   "property": "C04",
   "status": "proved",
   "theorems": [
    "H264.Props.C04_readUE_exact",
    "H264.Props.C04_readUE_fails_otherwise"
   ],
   "note": ""
  },
  {
   "property": "C05",
   "status": "partial",
   "theorems": [
    "H264.Props.C05_failed_golomb_restores_partial",
    "H264.Props.C05_ndebug_not_restored",
    "H264.Props.C05_ndebug_position"
   ],
   "note": "True in builds with assertions; false under NDEBUG (witness C05_ndebug_not_restored), where the position ends after the zero prefix."
  },
  {
   "property": "C06",
   "status": "proved",
   "theorems": [
    "H264.Props.C06_readSE_exact",
    "H264.Props.C06_readSE_total"
   ],
   "note": ""
  },
  {
   "property": "C07",
   "status": "partial",
   "theorems": [
    "H264.Props.C07_writeBits_exact_partial",
    "H264.Props.C07_writeBits_no_room",
    "H264.Props.C07_writeBits_zero_is_ub",
    "H264.Props.C07_writeBits_wide_is_ub",
    "H264.Props.C07_fixed_width"
   ],
   "note": "Full for 1<=n<=64. n=0 and n>64 are undefined behaviour in the code (shift), proved as such."
  },
  {
   "property": "C08",
   "status": "proved",
   "theorems": [
    "H264.Props.C08_ue_write_read",
    "H264.Props.C08_se_write_read",
    "H264.Props.C08_refused",
    "H264.Props.C08_no_room"
   ],
   "note": ""
  },
  {
   "property": "C09",
   "status": "partial",
   "theorems": [
    "H264.Props.C09_nonSymmetric_write_read_partial",
    "H264.Props.C09_one_value_cannot_be_read",
    "H264.Props.C09_one_value_cannot_be_written",
    "H264.Props.C09_max_values_is_ub"
   ],
   "note": "Holds for 2<=num_values<2^31; false at num_values=1 and 2^31 (negations proved)."
  },
  {
   "property": "C10",
   "status": "proved",
   "theorems": [
    "H264.Props.C10_message_round_trip"
   ],
   "note": ""
  },
  {
   "property": "C11",
   "status": "proved",
   "theorems": [
    "H264.Props.C11_unescape_escape",
    "H264.Props.C11_unescape_escapeNal",
    "H264.Props.C11_escape_no_start_code",
    "H264.Props.C11_escape_injective"
   ],
   "note": "escape is the 7.3.1/7.4.1 emulation prevention of Spec/Bytes; C11_unescape_escapeNal also covers the 0x03 that the standard appends after a final zero byte (recovered exactly when the RBSP does not end in an odd number of zeros, which no conforming RBSP does)."
  },
  {
   "property": "C12",
   "status": "proved",
   "theorems": [
    "H264.Props.C12_unescape_exact",
    "H264.Props.C12_not_longer",
    "H264.Props.C12_identity",
    "H264.Props.C12_outside"
   ],
   "note": "withoutEmulation (Spec/Bytes) drops exactly the 0x03 bytes that follow two zero bytes, position by position; hypothesis: buffers of at most 2^63-1 bytes (what a C++ object can hold)."
  },
  {
   "property": "C13",
   "status": "proved",
   "theorems": [
    "H264.Props.C13_find_exact",
    "H264.Props.C13_reported_iff"
   ],
   "note": "The start code in the last three bytes (nothing after it) is not reported, as the statement says."
  },
  {
   "property": "C14",
   "status": "proved",
   "theorems": [
    "H264.Props.C14_ranges"
   ],
   "note": ""
  },
  {
   "property": "C15",
   "status": "proved",
   "theorems": [
    "H264.Props.C15_mux_demux"
   ],
   "note": ""
  },
  {
   "property": "C16",
   "status": "partial",
   "theorems": [
    "H264.Props.C16_explicit_partial",
    "H264.Props.C16_explicit_any_size_partial",
    "H264.Props.C16_roundtrip_partial",
    "H264.Props.C16_size_wraps"
   ],
   "note": "False for NAL units of 2^32-4 bytes: 4 + nal_unit_size wraps in 32 bits and the scan never ends (C16_size_wraps). Proved for units shorter than that and for all data shorter than 4 GiB."
  },
  {
   "property": "C17",
   "status": "partial",
   "theorems": [
    "H264.Props.C17_in_order_partial",
    "H264.Props.C17_in_order_upto7_partial",
    "H264.Props.C17_no_prefix_partial",
    "H264.Props.C17_framed_partial",
    "H264.Props.C17_length_wrong",
    "H264.Props.C17_eight_byte_prefix",
    "H264.Props.C17_nine_byte_prefix"
   ],
   "note": "Exact for every size of the size fields for which what follows the last NAL unit can be read as a size (SizeFits; always so up to 7 bytes, and for a stream of NAL units with their sizes whatever the size of the fields: C17_framed_partial); with 8 bytes the program returns only then. False parts, with witnesses: the stored length is the size of the size field (C17_length_wrong); an 8-byte size wraps and the allocation of the copy throws (C17_eight_byte_prefix); of more than 8 bytes only the last 8 count (C17_nine_byte_prefix)."
  },
  {
   "property": "C18",
   "status": "proved",
   "theorems": [
    "H264.Props.C18_in_order",
    "H264.Props.C18_fresh",
    "H264.Props.C18_annexB"
   ],
   "note": "iff: ParseBitstream returns exactly the in-order parse of the NAL units C13 finds; C18_annexB for muxed streams; C18_fresh for the overload without state."
  },
  {
   "property": "C19",
   "status": "partial",
   "theorems": [
    "H264.Props.C19_checksum_exact",
    "H264.Props.C19_checksum_fresh",
    "H264.Props.C19_checksum_partial",
    "H264.Props.C19_sum_overflows",
    "H264.Props.C19_position_unchanged",
    "H264.Props.C19_byte_change",
    "H264.Props.C19_bit_flip"
   ],
   "note": "Value for every length (sum kept in 64 bits), independence from the reader position, restoration of the position, detection of any single byte or bit change at every length. That value is the one's-complement sum up to 16 GiB (C19_checksum_partial); beyond, it is false: C19_sum_overflows is a witness (BitBuffer itself accepts at most 4 GiB when assertions are on, so this needs a release build)."
  },
  {
   "property": "C20",
   "status": "partial",
   "theorems": [
    "H264.Props.C20_more_rbsp_data_exact",
    "H264.Props.C20_more_rbsp_data_partial",
    "H264.Props.C20_zero_bytes_wrong"
   ],
   "note": "Exact behaviour proved; agrees with the standard when the RBSP ends with its trailing bits. False with zero bytes after them: C20_zero_bytes_wrong."
  },
  {
   "property": "C21",
   "status": "proved",
   "theorems": [
    "H264.Props.C21_trailing_bits_exact",
    "H264.Props.C21_trailing_bits_safe"
   ],
   "note": ""
  },
  {
   "property": "C22",
   "status": "proved",
   "theorems": [
    "H264.Props.C22_nalHeader_exact",
    "H264.Props.C22_nalHeader_size",
    "H264.Props.C22_getNalUnitType",
    "H264.Props.C22_agree"
   ],
   "note": "exact for the reader overload; GetNalUnitType exact, never undefined (buffers under 4 GiB in builds with assertions), and in agreement with ParseNalUnitHeader(data, length)"
  },
  {
   "property": "C23",
   "status": "proved",
   "theorems": [
    "H264.Props.C23_unsupported_refused_and_counted",
    "H264.Props.C23_other_headers_not_counted"
   ],
   "note": "both directions, counter without its 32-bit wrap"
  },
  {
   "property": "C24",
   "status": "proved",
   "theorems": [
    "H264.Props.C24_hrd_exact",
    "H264.Props.C24_hrd_counts",
    "H264.Props.C24_hrd_safe"
   ],
   "note": "exact decoding, list lengths, no undefined behaviour"
  },
  {
   "property": "C25",
   "status": "proved",
   "theorems": [
    "H264.Props.C25_vui_exact",
    "H264.Props.C25_vui_safe"
   ],
   "note": "exact decoding, no undefined behaviour"
  },
  {
   "property": "C26",
   "status": "partial",
   "theorems": [
    "H264.Props.C26_sps_complete_partial",
    "H264.Props.C26_sps_sound_partial",
    "H264.Props.C26_sps_exact_without_lists",
    "H264.Props.C26_sps_safe",
    "H264.Props.C26_lists_lost",
    "H264.Props.C26_sps_exact",
    "H264.Props.C26_well_formed_read"
   ],
   "note": "What is returned is characterised exactly for every input (C26_sps_exact): head and tail invert the syntax, and the scaling lists are read as ListsRead says, well formed or not. The claim as stated is false in two ways: only the last 4x4 and 8x8 lists are kept (C26_lists_lost), and an SPS with a malformed list is returned (C29_malformed_list_accepted)."
  },
  {
   "property": "C27",
   "status": "proved",
   "theorems": [
    "H264.Props.C27_sps_in_range"
   ],
   "note": ""
  },
  {
   "property": "C28",
   "status": "proved",
   "theorems": [
    "H264.Props.C28_resolution"
   ],
   "note": ""
  },
  {
   "property": "C29",
   "status": "partial",
   "theorems": [
    "H264.Props.C29_scaling_list_complete",
    "H264.Props.C29_scaling_list_sound",
    "H264.Props.C29_scaling_list_entries",
    "H264.Props.C29_malformed_list_accepted",
    "H264.Props.C29_scaling_list_exact",
    "H264.Props.C29_well_formed_iff"
   ],
   "note": "scaling_list itself is exact on every input; its result is ignored by the callers, so a malformed list is accepted: C29_malformed_list_accepted. C26_sps_exact, C30_pps_exact and C43_subset_exact say exactly what is returned then."
  },
  {
   "property": "C30",
   "status": "partial",
   "theorems": [
    "H264.Props.C30_pps_complete_partial",
    "H264.Props.C30_pps_sound_partial",
    "H264.Props.C30_pps_exact_without_lists",
    "H264.Props.C30_pps_in_range",
    "H264.Props.C30_pps_safe",
    "H264.Props.C30_chroma_444_wrong",
    "H264.Props.C30_pps_exact"
   ],
   "note": "What is returned is characterised exactly for every input (C30_pps_exact); complete and sound for every PPS whose scaling lists are well formed; ranges hold for every returned PPS. Partial because the claim is false: only the last 4x4/8x8 scaling list is kept, malformed lists are accepted, and ParseNalUnit always passes chroma_format_idc 1 (C30_chroma_444_wrong)."
  },
  {
   "property": "C31",
   "status": "proved",
   "theorems": [
    "H264.Props.C31_refPicListMod_exact",
    "H264.Props.C31_refPicListMod_safe",
    "H264.Props.C31_refPicListMod_vectors"
   ],
   "note": "iff with the 7.3.3.1 encoding; vector shapes; no undefined behaviour and termination."
  },
  {
   "property": "C32",
   "status": "proved",
   "theorems": [
    "H264.Props.C32_decRefPicMarking_exact",
    "H264.Props.C32_decRefPicMarking_safe",
    "H264.Props.C32_decRefPicMarking_vectors"
   ],
   "note": "iff with the 7.3.3.3 encoding; vector shapes; no undefined behaviour and termination."
  },
  {
   "property": "C33",
   "status": "proved",
   "theorems": [
    "H264.Props.C33_predWeightTable_exact",
    "H264.Props.C33_predWeightTable_safe",
    "H264.Props.C33_predWeightTable_lengths"
   ],
   "note": "iff with the 7.3.3.2 encoding; vector lengths; no undefined behaviour."
  },
  {
   "property": "C34",
   "status": "proved",
   "theorems": [
    "H264.Props.C34_sliceHeader_exact",
    "H264.Props.C34_sliceHeader_safe",
    "H264.Props.C34_missing_parameter_set",
    "H264.Props.C34_ignores_slice_data",
    "H264.Props.C34_mvc_refused",
    "H264.Props.C34_change_cycle_bits",
    "H264.Props.C34_mode_independent"
   ],
   "note": "Exact iff relative to the stored SPS and PPS (hypothesis Store.InRange holds of every reachable store, C36). slice_group_change_cycle width is computed by the code in floating point; modelled by its exact value (DESIGN.md)."
  },
  {
   "property": "C35",
   "status": "proved",
   "theorems": [
    "H264.Props.C35_nal_unit",
    "H264.Props.C35_atomic",
    "H264.Props.C35_sequence",
    "H264.Props.C35_bitstream",
    "H264.Props.C35_length_prefixed"
   ],
   "note": "For every id the latest parsed parameter set with that id, for one NAL unit, a sequence and a bitstream; a NAL unit without parsed parameter set leaves the store exactly as it was."
  },
  {
   "property": "C36",
   "status": "proved",
   "theorems": [
    "H264.Props.C36_reachable_valid"
   ],
   "note": "Invariant over every history of calls of the NAL unit, payload, bitstream and RTP entry points."
  },
  {
   "property": "C37",
   "status": "partial",
   "theorems": [
    "H264.Props.C37_nal_unit_partial",
    "H264.Props.C37_huge_nal_unit",
    "H264.Props.C37_bitstream_partial",
    "H264.Props.C37_bitstreamNALULength_partial",
    "H264.Props.C37_long_sizes",
    "H264.Props.C37_readers",
    "H264.Props.C37_packets_partial"
   ],
   "note": "Every entry point returns from every reachable state on every input. Missing, because false: with assertions, a NAL unit of 2^32 bytes or more aborts (C37_huge_nal_unit), and an 8-byte length prefix terminates (C17_eight_byte_prefix); C37_long_sizes says exactly when."
  },
  {
   "property": "C38",
   "status": "proved",
   "theorems": [
    "H264.Props.C38_parsed_length",
    "H264.Props.C38_bitstream"
   ],
   "note": ""
  },
  {
   "property": "C39",
   "status": "proved",
   "theorems": [
    "H264.Props.C39_terminates"
   ],
   "note": "The loop bounds of the model are never reached, from any reachable state."
  },
  {
   "property": "C40",
   "status": "proved",
   "theorems": [
    "H264.Props.C40_single",
    "H264.Props.C40_single_conv",
    "H264.Props.C40_unknown"
   ],
   "note": "Same header, payload, store and null results as ParseNalUnit for types up to 23, in both directions; other types return the header alone."
  },
  {
   "property": "C41",
   "status": "partial",
   "theorems": [
    "H264.Props.C41_stapa_partial",
    "H264.Props.C41_stapa_direct_partial",
    "H264.Props.C41_size_checked",
    "H264.Props.C41_slice_lost",
    "H264.Props.C41_delimiter_lost",
    "H264.Props.C41_pps_misread",
    "H264.Props.C41_emulation_lost",
    "H264.Props.C41_size_ignored"
   ],
   "note": "Sizes, headers, payloads and store are exact for packets without emulation prevention bytes whose units are read to their end: SPS, PPS with extension, subset SPS without extension-2 data, end of sequence/stream, prefix NAL units with nal_ref_idc 0, and as last unit also PPS without extension and subset SPS with extension-2 data. The rest is false of the code: slices, delimiters, PPS before another unit, and emulation prevention (witnesses); the size is checked against the packet but not used to delimit the unit."
  },
  {
   "property": "C42",
   "status": "partial",
   "theorems": [
    "H264.Props.C42_start_partial",
    "H264.Props.C42_later",
    "H264.Props.C42_prefix_lost",
    "H264.Props.C42_scalable_lost"
   ],
   "note": "Start fragments of every type except 0, 14, 20, 21 parse like the NAL unit; later fragments carry no payload and leave the state unchanged. False of the code for 14 and 20: the header extension is taken for payload (C42_prefix_lost, C42_scalable_lost, for every fragment)."
  },
  {
   "property": "C43",
   "status": "partial",
   "theorems": [
    "H264.Props.C43_spsSvcExt_exact",
    "H264.Props.C43_spsSvcExt_safe",
    "H264.Props.C43_subset_complete_partial",
    "H264.Props.C43_subset_sound_partial",
    "H264.Props.C43_subset_safe",
    "H264.Props.C43_subset_in_range",
    "H264.Props.C43_svc_vui_misread",
    "H264.Props.C43_mvc_misread",
    "H264.Props.C43_subset_exact"
   ],
   "note": "What is returned is characterised exactly for every input and every profile (C43_subset_exact); the SVC extension is exact. The claim is false beyond the scalable profiles without VUI extension and the profiles without extension: the library reads nothing of the SVC VUI, MVC, MVCD and 3D extension syntax (C43_svc_vui_misread, C43_mvc_misread), and malformed scaling lists are accepted (C26)."
  },
  {
   "property": "C44",
   "status": "proved",
   "theorems": [
    "H264.Props.C44_spsExt_exact",
    "H264.Props.C44_spsExt_safe",
    "H264.Props.C44_mode_independent"
   ],
   "note": ""
  },
  {
   "property": "C45",
   "status": "partial",
   "theorems": [
    "H264.Props.C45_nal_unit_partial",
    "H264.Props.C45_stream_partial",
    "H264.Props.C45_length_stream_partial",
    "H264.Props.C45_rtp_single_partial",
    "H264.Props.C45_rtp_fua_partial",
    "H264.Props.C45_rtp_stapa_partial",
    "H264.Props.C45_readers",
    "H264.Props.C45_scaling_list",
    "H264.Props.C45_parsed_length_differs",
    "H264.Props.C45_sps_differs",
    "H264.Props.C45_stapa_differs"
   ],
   "note": "The full statement is false: C45_parsed_length_differs, C45_sps_differs and C45_stapa_differs are inputs on which the two builds differ. Proved: both builds return the same (up to parsed_length) for every NAL unit, stream, RTP single NAL unit packet and FU-A packet unless a parameter set in it has a scaling list with a delta_scale that cannot be read (C45_scaling_list: these are exactly the lists after which the two builds go on at different places), and for every STAP-A packet whose units are all parsed completely and hold no scaling matrix; every reader whose code never ignores a failed read agrees exactly."
  },
  {
   "property": "C46",
   "status": "partial",
   "theorems": [
    "H264.Props.C46_nal_unit",
    "H264.Props.C46_units",
    "H264.Props.C46_units_length",
    "H264.Props.C46_fresh",
    "H264.Props.C46_fresh_length",
    "H264.Props.C46_stateful",
    "H264.Props.C46_stateful_length",
    "H264.Props.C46_stateful_witness",
    "H264.Props.C46_packets",
    "H264.Props.C46_payload"
   ],
   "note": "Holds for the functions without parser state (both framings), for each NAL unit dumped with its parsing options, for payloads and for RTP packets. False for the overloads that take a state: C46_stateful gives the exact condition and C46_stateful_witness a stream whose dump dereferences null."
  },
  {
   "property": "C47",
   "status": "partial",
   "theorems": [
    "H264.Props.C47_slice",
    "H264.Props.C47_reserved",
    "H264.Props.C47_unspecified_partial",
    "H264.Props.C47_zero",
    "H264.Props.C47_exclusive",
    "H264.Props.C47_range",
    "H264.Props.C47_names",
    "H264.Props.C47_unknown",
    "H264.Props.C47_table"
   ],
   "note": "False for type 0 (C47_zero): IsNalUnitTypeUnspecified(0) is false. Everything else proved for all values."
  },
  {
   "property": "C48",
   "status": "partial",
   "theorems": [
    "H264.Props.C48_scalHeader_exact_partial",
    "H264.Props.C48_scalHeader_standard_partial",
    "H264.Props.C48_defaults_ignored",
    "H264.Props.C48_missing_parameter_set",
    "H264.Props.C48_scalHeader_safe",
    "H264.Props.C48_mode_independent",
    "H264.Props.C48_layer_extension",
    "H264.Props.C48_other_view",
    "H264.Props.C48_type_20"
   ],
   "note": "Exact characterisation, safety and mode independence are proved for the library's grammar; partial because that grammar takes the reference counts of P/B slices without override as 0 instead of the PPS defaults (C48_defaults_ignored proves the deviation). C48_scalHeader_standard_partial shows agreement with the standard in all other cases."
  },
  {
   "property": "C49",
   "status": "proved",
   "theorems": [
    "H264.Props.C49_printable"
   ],
   "note": ""
  },
  {
   "property": "C50",
   "status": "proved",
   "theorems": [
    "H264.Props.C50_payload_type",
    "H264.Props.C50_isPayloadParsed"
   ],
   "note": ""
  },
  {
   "property": "C51",
   "status": "proved",
   "theorems": [
    "H264.Props.C51_nal_unit",
    "H264.Props.C51_stream",
    "H264.Props.C51_length_stream",
    "H264.Props.C51_every_unit"
   ],
   "note": "Field values are those the library supports (the Ok predicates of the specification); the syntax elements the library does not parse are the subject of C30-C34, C43, C48, C52. Nothing is counted as unimplemented."
  },
  {
   "property": "C52",
   "status": "partial",
   "theorems": [
    "H264.Props.C52_prefix_complete_partial",
    "H264.Props.C52_prefix_sound_partial",
    "H264.Props.C52_marking_refused",
    "H264.Props.C52_reference_idc_zero",
    "H264.Props.C52_data_missed",
    "H264.Props.C52_prefix_safe"
   ],
   "note": "Complete and sound for nal_ref_idc > 0. Missing: dec_ref_base_pic_marking is refused (C52_marking_refused) and the extension flag is not read for nal_ref_idc = 0 (C52_reference_idc_zero, C52_data_missed)."
  },
  {
   "property": "C53",
   "status": "proved",
   "theorems": [
    "H264.Props.C46_nal_unit",
    "H264.Props.C46_units",
    "H264.Props.C46_units_length",
    "H264.Props.C46_fresh",
    "H264.Props.C46_fresh_length",
    "H264.Props.C46_packets",
    "H264.Props.C46_payload",
    "H264.Props.C53_one_line",
    "H264.Props.C53_nested"
   ],
   "note": "Layout (LaidOut: matching braces, one line at level -1, indentation by open braces) of every dump; the bitstream theorems are about whatever can be dumped (UnitsDump, given by C46_fresh and C46_stateful). Levels are -1 or not negative. For a bitstream dumped at a level above 0 only the layout of each NAL unit is stated: the code starts each NAL unit at column 0."
  },
  {
   "property": "C54",
   "status": "partial",
   "theorems": [
    "H264.Props.C54_profile_partial",
    "H264.Props.C54_unspecified",
    "H264.Props.C54_constrained_high",
    "H264.Props.C54_names"
   ],
   "note": "False for profile_idc 100 with constraint_set5_flag 1 (C54_constrained_high); proved for every other SPS."
  },
  {
   "property": "C55",
   "status": "proved",
   "theorems": [
    "H264.Props.C55_overloads",
    "H264.Props.C55_exact",
    "H264.Props.C55_slice",
    "H264.Props.C55_safe"
   ],
   "note": "Exactness in terms of the syntax encoders for nine of the overloads; the others are equal to the reader overload, whose exactness is C26, C30, C34, C43, C44, C48 and C52."
  },
  {
   "property": "C56",
   "status": "proved",
   "theorems": [
    "H264.Props.C56_at_most_once",
    "H264.Props.C56_counted_iff",
    "H264.Props.C56_sequence",
    "H264.Props.C56_bitstream",
    "H264.Props.C56_bitstream_complete",
    "H264.Props.C56_length",
    "H264.Props.C56_layer_counted",
    "H264.Props.C56_layer_not_counted"
   ],
   "note": "Exact for every NAL unit: C56_counted_iff; the syntax that is counted is stated in Spec/Counter.lean. C56_at_most_once says what is returned then. The two layer theorems are a pair of units, one counted and one not."
  },
  {
   "property": "C57",
   "status": "partial",
   "theorems": [
    "H264.Props.C57_exit_partial",
    "H264.Props.C57_two",
    "H264.Props.C57_coded",
    "H264.Props.C57_length_partial",
    "H264.Props.C57_length_dropped",
    "H264.Props.C57_orphan"
   ],
   "note": "Exact in terms of the parsed result, for Annex B streams and for streams with size fields of up to 7 bytes. Fails for enhancement layer slices without header and, with size fields, for NAL units that are dropped (witnesses)."
  },
  {
   "property": "C58",
   "status": "partial",
   "theorems": [
    "H264.Props.C58_annexB_partial",
    "H264.Props.C58_contents_faithful",
    "H264.Props.C58_length_partial",
    "H264.Props.C58_length_contents_wrong",
    "H264.Props.C58_contents_offset",
    "H264.Props.C58_table_length"
   ],
   "note": "Exact for Annex B streams. With size fields the contents have the wrong length (witness)."
  },
  {
   "property": "C59",
   "status": "partial",
   "theorems": [
    "H264.Props.C59_table_partial",
    "H264.Props.C59_split",
    "H264.Props.C59_rate_overflow",
    "H264.Props.C59_length_partial",
    "H264.Props.C59_length_wrong",
    "H264.Props.C59_no_sizes"
   ],
   "note": "For Annex B streams below 2 GiB and bit rates that fit into 64 bits; overflow otherwise (C59_rate_overflow). With size fields the table is the same except that the length shown is the size of the size field (C59_length_partial, C59_length_wrong); with size fields of no bytes there is no row for the frame (C59_no_sizes)."
  },
  {
   "property": "C60",
   "status": "partial",
   "theorems": [
    "H264.Props.C60_nal_unit_partial",
    "H264.Props.C60_bitstream_partial",
    "H264.Props.C60_bitstream_length_partial",
    "H264.Props.C60_bitstream_state_partial",
    "H264.Props.C60_packets_partial",
    "H264.Props.C60_equal_dumps",
    "H264.Props.C60_cpb_size_scale_hidden",
    "H264.Props.C60_prefix_flag_hidden",
    "H264.Props.C60_negative_offset"
   ],
   "note": "Exact text and reading back for all structures; the claim that every member is shown with its value is false for the members listed in C60_cpb_size_scale_hidden, C60_prefix_flag_hidden and C60_negative_offset; the dump may ask for the checksum only if the parser was asked for it"
  },
  {
   "property": "C61",
   "status": "proved",
   "theorems": [
    "H264.Props.C61_rounded",
    "H264.Props.C61_error",
    "H264.Props.C61_exact",
    "H264.Props.C61_whole",
    "H264.Props.C61_monotone",
    "H264.Props.C61_nearest",
    "H264.Props.C61_absent",
    "H264.Props.C61_not_nearest"
   ],
   "note": "All parts; C61_not_nearest shows that the bound on num_units_in_tick in C61_nearest is needed."
  },
  {
   "property": "C62",
   "status": "proved",
   "theorems": [
    "H264.Props.C62_cycle_len",
    "H264.Props.C62_id_len",
    "H264.Props.C62_cycle_bits"
   ],
   "note": "All of it; the quality of std::log2 is a hypothesis (UsableLog2), met by the logarithm itself (usable_logb)."
  },
  {
   "property": "C63",
   "status": "proved",
   "theorems": [
    "H264.Props.C63_options",
    "H264.Props.C63_stops",
    "H264.Props.C63_number",
    "H264.Props.C63_commute",
    "H264.Props.C63_stdin",
    "H264.Props.C63_input",
    "H264.Props.C63_run",
    "H264.Props.C63_status",
    "H264.Props.C63_returns",
    "H264.Props.C63_returns_512M",
    "H264.Props.C63_defaults",
    "H264.Props.C63_rate_nonneg",
    "H264.Props.C63_avcc_not_read",
    "H264.Props.C63_documented_default_refused",
    "H264.Props.C63_empty_number"
   ],
   "note": "For all option sequences and all file contents: last option wins, number grammar, stopping options, which inputs are read and with which bytes (standard input whole, whatever its length: C63_stdin, C63_input), exit status 255 exactly when refused, destination of the output, and return for Annex B input up to 512 MiB whatever the options (C63_returns gives the condition used: below 2 GiB, a bit rate within 64 bits, and size fields, if any, of at most 7 bytes; beyond it C59_rate_overflow shows the overflow)."
  },
  {
   "property": "C64",
   "status": "proved",
   "theorems": [
    "H264.Props.C64_nal_unit",
    "H264.Props.C64_stream",
    "H264.Props.C64_length",
    "H264.Props.C64_rtp"
   ],
   "note": "Counts loads of bytes outside the bit reader and PeekBits calls; allocation and copying are not counted."
  },
  {
   "property": "C65",
   "status": "proved",
   "theorems": [
    "H264.Props.C29_scaling_list_exact",
    "H264.Props.C29_well_formed_iff",
    "H264.Props.C26_sps_exact",
    "H264.Props.C30_pps_exact",
    "H264.Props.C43_subset_exact"
   ],
   "note": "Exact (iff) for every input, without any assumption on the scaling lists or the profile. ListsRead and ListRead (Spec) say what is kept of the lists, well formed or not."
  },
  {
   "property": "C66",
   "status": "proved",
   "theorems": [
    "H264.Props.C66_results",
    "H264.Props.C66_counter",
    "H264.Props.C66_terminates",
    "H264.Props.C66_alone",
    "H264.Props.C66_completes",
    "H264.Props.C66_deterministic"
   ],
   "note": "any number of threads, any interleaving; C66_completes shows that a complete execution exists, the example counts three units in two threads"
  },
  {
   "property": "C67",
   "status": "proved",
   "theorems": [
    "H264.Props.C67_index",
    "H264.Props.C67_two_pieces",
    "H264.Props.C67_pieces",
    "H264.Props.C67_length_prefixed"
   ],
   "note": "Parsing an Annex B stream is the same as parsing its pieces one after the other with the same state, for any number of pieces cut before start codes; the index and the length-prefixed form likewise. Beside the theorems: examples where the conditions on the cut fail and the results differ."
  },
  {
   "property": "C68",
   "status": "proved",
   "theorems": [
    "H264.Props.C68_nal_unit",
    "H264.Props.C68_bitstream",
    "H264.Props.C68_self_contained",
    "H264.Props.C68_length_prefixed",
    "H264.Props.C68_rtp",
    "H264.Props.C68_rtp_session"
   ],
   "note": "A stream whose slices are returned with their headers is parsed the same by every parser state that holds more; a self-contained stream is parsed by a parser with any history as by a new one; also for single NAL units, length-prefixed streams, RTP packets and sessions."
  },
  {
   "property": "C69",
   "status": "partial",
   "theorems": [
    "H264.Props.C69_returned_partial",
    "H264.Props.C69_refused_partial",
    "H264.Props.C69_stored_partial",
    "H264.Props.C69_session_partial",
    "H264.Props.C69_stapa_not_atomic"
   ],
   "note": "Full statement: last-writer-wins, and a refused packet changes nothing. Proved for all packets and sessions except refused STAP-A packets, for which it is false (C69_stapa_not_atomic): the parameter sets before the NAL unit that fails stay stored."
  },
  {
   "property": "C70",
   "status": "proved",
   "theorems": [
    "H264.Props.C70_start_codes",
    "H264.Props.C70_sizes",
    "H264.Props.C70_packets"
   ],
   "note": "Equivalences (if and only if) between parsing the same NAL units with start codes of any lengths, with size fields of any length, and as single NAL unit packets."
  },
  {
   "property": "C71",
   "status": "proved",
   "theorems": [
    "H264.Props.C71_stream",
    "H264.Props.C71_packets",
    "H264.Props.C71_length"
   ],
   "note": "ParseBitstream on Annex B streams and ParseRtp sessions; the result of each NAL unit is fixed before the loss pattern is chosen"
  },
  {
   "property": "C72",
   "status": "proved",
   "theorems": [
    "H264.Props.C72_state_free",
    "H264.Props.C72_again",
    "H264.Props.C72_once",
    "H264.Props.C72_length"
   ],
   "note": "state independence, adding and leaving out a repetition"
  },
  {
   "property": "C73",
   "status": "proved",
   "theorems": [
    "H264.Props.C73_nal_unit",
    "H264.Props.C73_stream",
    "H264.Props.C73_length",
    "H264.Props.C73_rtp"
   ],
   "note": "elements of all vectors of what is returned"
  },
  {
   "property": "C74",
   "status": "proved",
   "theorems": [
    "H264.Props.C74_parsed"
   ],
   "note": ""
  },
  {
   "property": "C75",
   "status": "proved",
   "theorems": [
    "H264.Props.C75_bounded",
    "H264.Props.C75_total"
   ],
   "note": ""
  },
  {
   "property": "C76",
   "status": "proved",
   "theorems": [
    "H264.Props.C76_pointers",
    "H264.Props.C76_freed"
   ],
   "note": "Model/Heap.lean keeps shared_ptr counts; steps are creation, parsing of payloads, getters, copies and destruction"
  },
  {
   "property": "C77",
   "status": "proved",
   "theorems": [
    "H264.Props.C77_values",
    "H264.Props.C77_results_last",
    "H264.Props.C77_shared"
   ],
   "note": "C77_values is a simulation against a model with values only; C77_shared states the aliasing (DESIGN section 4, item 30)"
  },
  {
   "property": "C78",
   "status": "proved",
   "theorems": [
    "H264.Props.C78_longer",
    "H264.Props.C78_exactly",
    "H264.Props.C78_fragment",
    "H264.Props.C78_pps_differs",
    "H264.Props.C78_scalable_longer",
    "H264.Props.C78_scalable_exactly"
   ],
   "note": "Slice headers need exactly parsed_length unescaped bytes; C78_pps_differs shows the last sentence."
  },
  {
   "property": "C79",
   "status": "proved",
   "theorems": [
    "H264.Props.C79_nal_unit",
    "H264.Props.C79_stream",
    "H264.Props.C79_length_stream",
    "H264.Props.C79_fresh"
   ],
   "note": "For calls whose data is shorter than 2^61 bytes."
  },
  {
   "property": "C80",
   "status": "proved",
   "theorems": [
    "H264.Props.C80_reachable",
    "H264.Props.C80_units",
    "H264.Props.C80_slices",
    "H264.Props.C80_streams",
    "H264.Props.C80_readers",
    "H264.Props.C80_depth_needed",
    "H264.Props.C80_rate_needed",
    "H264.Props.C80_raw",
    "H264.Props.C80_null_pointers",
    "H264.Props.C80_null_pointers_scalable"
   ],
   "note": "for readers, data overloads, packets and whole streams; the converse for each of the two conditions on a family of states; null pointers exactly"
  },
  {
   "property": "C81",
   "status": "proved",
   "theorems": [
    "H264.Props.C81_targets",
    "H264.Props.C81_scalable_target_blind"
   ],
   "note": "all 25 targets"
  },
  {
   "property": "C82",
   "status": "partial",
   "theorems": [
    "H264.Props.C82_run",
    "H264.Props.C82_split_partial",
    "H264.Props.C82_files_parse",
    "H264.Props.C82_resolution_partial",
    "H264.Props.C82_names",
    "H264.Props.C82_missed",
    "H264.Props.C82_needless",
    "H264.Props.C82_not_alone"
   ],
   "note": "Proved for every input file (C82_run, C82_split_partial, C82_files_parse, C82_names): the script ends, the files concatenate to the input, are cut between NAL units, and are separated exactly where the size it compares changes. C82_resolution_partial: that size is the resolution if no SPS has sar_width. Missing, because false: with an explicit sample aspect ratio the wrong numbers are compared (C82_missed, C82_needless)."
  },
  {
   "property": "C83",
   "status": "partial",
   "theorems": [
    "H264.Props.C83_outcome",
    "H264.Props.C83_table",
    "H264.Props.C83_references",
    "H264.Props.C83_window_partial",
    "H264.Props.C83_endless",
    "H264.Props.C83_no_sps",
    "H264.Props.C83_adaptive_not_entered",
    "H264.Props.C83_operation_1_wrapped",
    "H264.Props.C83_operation_2",
    "H264.Props.C83_operation_3_index",
    "H264.Props.C83_order_wrapped",
    "H264.Props.C83_slice_type_5",
    "H264.Props.C83_other_pps",
    "H264.Props.C83_text",
    "H264.Props.C83_text_same"
   ],
   "note": "Proved for every input file: when the script fails, raises, loops for ever or writes a table (C83_outcome), every row of a table (C83_table, C83_references), and, where no picture has marking operations or long-term flags, that the sliding window holds the last reference pictures (C83_window_partial). The text is a table of 11 columns (C83_text) and two tables with the same text have the same rows (C83_text_same). Missing, because false: the script does not always end and does not follow clause 8.2.5 in the cases of the other theorems."
  },
  {
   "property": "C84",
   "status": "partial",
   "theorems": [
    "H264.Props.C84_total",
    "H264.Props.C84_counts",
    "H264.Props.C84_headers",
    "H264.Props.C84_sps",
    "H264.Props.C84_level_partial",
    "H264.Props.C84_status",
    "H264.Props.C84_silent",
    "H264.Props.C84_level_scalable",
    "H264.Props.C84_orphan",
    "H264.Props.C84_messages"
   ],
   "note": "All but the level in full. The level is proved for every SPS that does not state level 1b in a profile the script does not know; C84_level_scalable is a stream for which the script shows 0.9 instead of 1b. stderr is an arbitrary argument; a tool that cannot be run or takes too long, and CSV quoting, are not modelled."
  },
  {
   "property": "C85",
   "status": "proved",
   "theorems": [
    "H264.Props.C85_annexB",
    "H264.Props.C85_slices",
    "H264.Props.C85_consistent",
    "H264.Props.C85_length",
    "H264.Props.C85_framed",
    "H264.Props.C85_start_code",
    "H264.Props.C85_pps",
    "H264.Props.C85_sps",
    "H264.Props.C85_scalable"
   ],
   "note": "Both framings, every cut. C85_start_code and C85_pps are witnesses for what a cut can do (finding 37)."
  },
  {
   "property": "C86",
   "status": "proved",
   "theorems": [
    "H264.Props.C86_stream",
    "H264.Props.C86_packets",
    "H264.Props.C86_sei",
    "H264.Props.C86_length"
   ],
   "note": "C86_sei shows that the condition on the damaged NAL units after the damage is needed."
  },
  {
   "property": "C87",
   "status": "proved",
   "theorems": [
    "H264.Props.C87_stream",
    "H264.Props.C87_packets",
    "H264.Props.C87_pps",
    "H264.Props.C87_length"
   ],
   "note": "NAL units of Annex B streams and RTP packets; witness that the condition is needed"
  },
  {
   "property": "C88",
   "status": "partial",
   "theorems": [
    "H264.Props.C88_seeds_partial",
    "H264.Props.C88_buffer",
    "H264.Props.C88_code",
    "H264.Props.C88_total",
    "H264.Props.C88_comment",
    "H264.Props.C88_upper_case",
    "H264.Props.C88_other",
    "H264.Props.C88_names",
    "H264.Props.C88_names_other"
   ],
   "note": "false of the code for arrays that are not written as the script expects: witness from a unit test of the repository; proved for arrays as expected; the code part is proved in full"
  },
  {
   "property": "C89",
   "status": "proved",
   "theorems": [
    "H264.Props.C89_text",
    "H264.Props.C89_rows",
    "H264.Props.C89_total",
    "H264.Props.C89_not_run",
    "H264.Props.C89_names",
    "H264.Props.C89_tally"
   ],
   "note": "Proved for every list of paths and every file system, with POSIX paths and the default dialect of Python's csv module as models; the reader in the statement of C89_text is a separate specification. C89_total needs files shorter than 4 GiB, as the property says."
  },
  {
   "property": "C90",
   "status": "partial",
   "theorems": [
    "H264.Props.C90_files_partial",
    "H264.Props.C90_ends",
    "H264.Props.C90_overwritten",
    "H264.Props.C90_stale",
    "H264.Props.C90_lines"
   ],
   "note": "C90_files_partial says what every path of the file system holds after a run on a test called ..._unittest.cc; C90_ends says which runs end without an exception. Missing, because false: seeds of former versions are not removed (C90_stale, for all tests), a test without unittest in its name can be overwritten (C90_overwritten, for all such tests), standard input is never accepted (C90_ends)."
  },
  {
   "property": "C91",
   "status": "partial",
   "theorems": [
    "H264.Props.C91_longer",
    "H264.Props.C91_longer_lists_partial",
    "H264.Props.C91_exactly",
    "H264.Props.C91_exactly_lists_partial",
    "H264.Props.C91_lists_differ",
    "H264.Props.C91_fragment"
   ],
   "note": "Proved for SPSs without scaling matrix and for SPSs with well-formed scaling lists; false when a scaling list is malformed (C91_lists_differ)."
  }
 ]
}
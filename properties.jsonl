{"id": "C01", "title": "Fixed-width bit reads are exact", "statement": "BitBuffer::PeekBits/ReadBits(n) succeeds exactly when 1<=n<=32 (64 for the 64-bit overload) and n bits remain; the value returned is the next n bits of the buffer read most-significant-bit first; ReadBits advances by exactly n bits, PeekBits by none. ReadUInt8/16/32 are the n=8/16/32 cases.", "quantifier": "every byte buffer, every reachable read position, every width", "why_tests_cant": "the bit-assembly code has separate paths for sub-byte, whole-byte and trailing partial reads at 8 alignments; correctness must hold for every buffer content, offset and width", "anchors": ["src/rtc_common.cc:BitBuffer::PeekBits", "src/rtc_common.cc:BitBuffer::ReadBits", "src/rtc_common.cc:LowestBits", "src/rtc_common.cc:HighestBits"]}
{"id": "C02", "title": "A failed fixed-width operation does not move the read position", "statement": "When ReadBits, PeekBits, ConsumeBits, ConsumeBytes or Seek returns false the read position is exactly what it was before the call.", "quantifier": "every buffer, position and argument for which the call fails", "why_tests_cant": "callers retry or ignore failures; needs all failing arguments, including widths near SIZE_MAX", "anchors": ["src/rtc_common.cc:BitBuffer::ReadBits", "src/rtc_common.cc:BitBuffer::ConsumeBits", "src/rtc_common.cc:BitBuffer::ConsumeBytes", "src/rtc_common.cc:BitBuffer::Seek"]}
{"id": "C03", "title": "The bit reader never leaves its buffer", "statement": "After any sequence of BitBuffer calls with any arguments the read position is within the buffer, RemainingBitCount() equals the true number of unread bits (no unsigned wrap), and no call has read a byte outside [data, data+length).", "quantifier": "every buffer, every finite history of calls with arbitrary arguments", "why_tests_cant": "memory safety over unbounded call histories and arbitrary size_t arguments", "anchors": ["src/rtc_common.cc:BitBuffer"]}
{"id": "C04", "title": "ue(v) decoding is exact", "statement": "ReadExponentialGolomb returns v and consumes k bits if and only if the next k bits are exactly the Exp-Golomb codeword of v (clause 9.1) and v <= 2^32-2; every other bit string makes it fail.", "quantifier": "every buffer and position", "why_tests_cant": "32 codeword lengths times all values times all truncations", "anchors": ["src/rtc_common.cc:BitBuffer::ReadExponentialGolomb"]}
{"id": "C05", "title": "A failed ue(v)/se(v) read restores the read position", "statement": "When ReadExponentialGolomb or ReadSignedExponentialGolomb returns false, the read position is the one before the call, in every build configuration.", "quantifier": "every buffer, position and build mode (assertions on / NDEBUG)", "why_tests_cant": "the restoring Seek is inside an assert(); tests run in one build mode only", "anchors": ["src/rtc_common.cc:BitBuffer::ReadExponentialGolomb", "src/rtc_common.cc:RTC_CHECK"]}
{"id": "C06", "title": "se(v) decoding is exact and never overflows", "statement": "ReadSignedExponentialGolomb returns the standard's signed mapping of the codeword (clause 9.1.1); the result is in [-(2^31-1), 2^31-1] and no signed arithmetic overflows; every value in that range is produced by its codeword.", "quantifier": "every buffer and position", "why_tests_cant": "overflow corner values at the end of a 32-bit range, all codewords", "anchors": ["src/rtc_common.cc:BitBuffer::ReadSignedExponentialGolomb"]}
{"id": "C07", "title": "WriteBits writes exactly the requested bits and nothing else", "statement": "BitBufferWriter::WriteBits(val,n) with 1<=n<=64 succeeds iff n bits remain; on success the next n bits of the buffer become the n low bits of val, every other bit is unchanged and the position advances by n; on failure nothing changes. No byte outside the buffer is touched. WriteUInt8, WriteUInt16 and WriteUInt32 write their argument in 8, 16 and 32 bits, and ReadUInt8, ReadUInt16 and ReadUInt32 read it back from the same place.", "quantifier": "every buffer, position, value and width", "why_tests_cant": "partial first/last byte masking at every alignment and width", "anchors": ["src/rtc_common.cc:BitBufferWriter::WriteBits", "src/rtc_common.cc:WritePartialByte"]}
{"id": "C08", "title": "Exp-Golomb write/read round trip", "statement": "Writing v with WriteExponentialGolomb (v<=2^32-2) or WriteSignedExponentialGolomb (v!=INT32_MIN) and reading back from the same position gives v and consumes exactly what was written; UINT32_MAX and INT32_MIN are refused without touching the buffer.", "quantifier": "every value, buffer and position with enough room", "why_tests_cant": "2^32 values times 8 alignments", "anchors": ["src/rtc_common.cc:BitBufferWriter::WriteExponentialGolomb", "src/rtc_common.cc:BitBufferWriter::WriteSignedExponentialGolomb"]}
{"id": "C09", "title": "Non-symmetric (truncated binary) write/read round trip", "statement": "For every num_values in [1,2^31] and val<num_values, WriteNonSymmetric writes SizeNonSymmetricBits bits and ReadNonSymmetric reads val back, consuming exactly those bits.", "quantifier": "every num_values accepted by the assertions, every val, every buffer position", "why_tests_cant": "all 2^62 pairs; boundaries at powers of two", "anchors": ["src/rtc_common.cc:BitBuffer::ReadNonSymmetric", "src/rtc_common.cc:BitBufferWriter::WriteNonSymmetric", "src/rtc_common.cc:BitBufferWriter::SizeNonSymmetricBits"]}
{"id": "C10", "title": "A written message reads back, whatever its field sequence", "statement": "Writing any sequence of u(n)/ue(v)/se(v) fields into a buffer with room and reading the same field types from the start returns the same values in order.", "quantifier": "every field sequence of any length, every initial buffer content", "why_tests_cant": "unbounded histories of mixed writes at all alignments", "anchors": ["src/rtc_common.cc:BitBufferWriter", "src/rtc_common.cc:BitBuffer"]}
{"id": "C11", "title": "UnescapeRbsp inverts emulation prevention", "statement": "For every RBSP byte string, UnescapeRbsp applied to its emulation-prevented form (clause 7.4.1) returns the original bytes.", "quantifier": "every byte string", "why_tests_cant": "unbounded inputs; runs of zeros of all lengths", "anchors": ["src/h264_common.cc:UnescapeRbsp"]}
{"id": "C12", "title": "UnescapeRbsp only removes emulation prevention bytes", "statement": "UnescapeRbsp reads only inside its input, its output is the input with some 0x03 bytes that follow two zero bytes removed (hence not longer), and it is the identity on input containing no 00 00 03.", "quantifier": "every byte string", "why_tests_cant": "unbounded inputs", "anchors": ["src/h264_common.cc:UnescapeRbsp"]}
{"id": "C13", "title": "Annex B splitting finds exactly the start codes", "statement": "FindNaluIndices reports one entry for every occurrence of 00 00 01 that is followed by at least one byte, and no other; the skip-ahead optimisation never misses or invents one.", "quantifier": "every byte string of every length", "why_tests_cant": "the 3-byte skip must be proven safe for all alignments of all patterns", "anchors": ["src/h264_bitstream_parser.cc:H264BitstreamParser::FindNaluIndices"]}
{"id": "C14", "title": "NAL unit ranges are in bounds, ordered and disjoint", "statement": "Every index reported by FindNaluIndices satisfies start_offset < payload_start_offset, payload_start_offset + payload_size <= length (no unsigned wrap in payload_size), entries are in increasing order, payload i ends exactly where start code i+1 begins, and the last ends at length.", "quantifier": "every byte string", "why_tests_cant": "the patched payload_size is an unsigned subtraction that must never wrap", "anchors": ["src/h264_bitstream_parser.cc:H264BitstreamParser::FindNaluIndices"]}
{"id": "C15", "title": "Annex B mux/demux round trip", "statement": "Concatenating any list of NAL units (non-empty, free of 00 00 00/01 patterns, not ending in a zero byte) each preceded by a 3- or 4-byte start code, FindNaluIndices recovers exactly those NAL units in order.", "quantifier": "every list of NAL units, every choice of start code lengths", "why_tests_cant": "unbounded lists and contents", "anchors": ["src/h264_bitstream_parser.cc:H264BitstreamParser::FindNaluIndices"]}
{"id": "C16", "title": "Length-prefixed (mp4) framing round trip", "statement": "For any list of NAL units shorter than 2^32 bytes, FindNaluIndicesExplicitFraming on their concatenation with 4-byte big-endian length prefixes returns exactly those units; on any input the reported ranges are in bounds, contiguous from offset 0, and reporting stops at the first prefix that does not fit.", "quantifier": "every list of NAL units; every byte string", "why_tests_cant": "unbounded lists; truncation at every point; size_t wrap", "anchors": ["src/h264_bitstream_parser.cc:H264BitstreamParser::FindNaluIndicesExplicitFraming"]}
{"id": "C17", "title": "ParseBitstreamNALULength splits safely and reports offset and length truthfully", "statement": "For every input and every nalu_length_bytes, ParseBitstreamNALULength touches only bytes of the input, and each returned NAL unit's offset/length are the position and size of the bytes it was parsed from.", "quantifier": "every byte string and every size_t nalu_length_bytes", "why_tests_cant": "size_t wrap in i+nalu_length needs 8-byte length fields near 2^64", "anchors": ["src/h264_bitstream_parser.cc:H264BitstreamParser::ParseBitstreamNALULength", "src/h264_bitstream_parser.cc:read_nalu_length"]}
{"id": "C18", "title": "ParseBitstream is the in-order fold of ParseNalUnit", "statement": "ParseBitstream returns, in stream order, the result of ParseNalUnit on each NAL unit range with the parameter-set state left by its predecessors; units that do not parse are skipped and change nothing else; offset/length equal the range.", "quantifier": "every byte string, initial state and options", "why_tests_cant": "histories of any length; a failing unit in any position", "anchors": ["src/h264_bitstream_parser.cc:H264BitstreamParser::ParseBitstream", "src/h264_nal_unit_parser.cc:H264NalUnitParser::ParseNalUnit"]}
{"id": "C19", "title": "The NAL unit checksum is the one's-complement sum and does not disturb parsing", "statement": "GetNaluChecksum leaves the read position unchanged, equals the complement of the 32-bit one's-complement sum of the big-endian words (zero padded), and flipping any single bit of the NAL unit changes it.", "quantifier": "every NAL unit content and length", "why_tests_cant": "carry folding over unbounded sums; all bit positions", "anchors": ["src/h264_common.cc:NaluChecksum::GetNaluChecksum"]}
{"id": "C20", "title": "more_rbsp_data agrees with the standard", "statement": "more_rbsp_data() is true iff there is data before the rbsp_trailing_bits(), i.e. before the last 1 bit of the RBSP, and never moves the read position.", "quantifier": "every RBSP and position", "why_tests_cant": "must hold for all tails, including zero bytes after the trailing bits", "anchors": ["src/h264_common.cc:more_rbsp_data"]}
{"id": "C21", "title": "rbsp_trailing_bits accepts exactly 1 0...0 up to alignment", "statement": "rbsp_trailing_bits() returns true iff the next bits are a one followed by zero bits up to the next byte boundary, and then stops exactly at that boundary.", "quantifier": "every buffer and position", "why_tests_cant": "all alignments and contents", "anchors": ["src/h264_common.cc:rbsp_trailing_bits", "src/h264_common.cc:byte_aligned"]}
{"id": "C22", "title": "NAL unit header parsing is exact", "statement": "ParseNalUnitHeader returns a header iff the next bits are the encoding of that header (forbidden bit, nal_ref_idc, nal_unit_type, and for types 14/20 with svc_extension_flag the 3-byte SVC extension), consuming 1 or 4 bytes; GetNalUnitType returns that nal_unit_type, and agrees with ParseNalUnitHeader(data, length) although it does not remove emulation prevention bytes.", "quantifier": "every buffer and position", "why_tests_cant": "all headers, all truncations", "anchors": ["src/h264_nal_unit_header_parser.cc", "src/h264_nal_unit_header_svc_extension_parser.cc"]}
{"id": "C23", "title": "Unsupported structures are refused and counted", "statement": "A header announcing an MVC or 3D-AVC extension is refused and the unimplemented counter grows by exactly one; parsing any header of another kind leaves the counter unchanged.", "quantifier": "every header bit string, every counter value", "why_tests_cant": "all headers", "anchors": ["src/h264_nal_unit_header_parser.cc", "src/h264_common.cc:report_unimplemented"]}
{"id": "C24", "title": "HRD parameters: parse inverts the syntax and enforces ranges", "statement": "ParseHrdParameters returns a state iff the next bits are the encoding (Annex E.1.2) of that state and its fields are in range; it has exactly cpb_cnt_minus1+1 <= 32 entries in each list.", "quantifier": "every buffer and position; every HRD value", "why_tests_cant": "all values and lengths", "anchors": ["src/h264_hrd_parameters_parser.cc"]}
{"id": "C25", "title": "VUI parameters: parse inverts the syntax and enforces ranges", "statement": "ParseVuiParameters returns a state iff the next bits are the Annex E.1.1 encoding of that state and its fields are in range; absent fields have their default.", "quantifier": "every buffer and position; every VUI value", "why_tests_cant": "2^10 presence-flag combinations times all values", "anchors": ["src/h264_vui_parameters_parser.cc"]}
{"id": "C26", "title": "SPS: parse inverts the 7.3.2.1.1 syntax", "statement": "For every sequence parameter set value with fields in range, ParseSps on its encoding returns exactly that value; conversely if ParseSps returns a value the RBSP starts with the encoding of that value.", "quantifier": "every SPS value; every byte string", "why_tests_cant": "all optional branches and values", "anchors": ["src/h264_sps_parser.cc:H264SpsDataParser::ParseSpsData", "src/h264_sps_parser.cc:H264SpsParser::ParseSps"]}
{"id": "C27", "title": "A returned SPS is always in range", "statement": "Whatever the input, every SPS returned has seq_parameter_set_id<=31, chroma_format_idc<=3, bit depths<=14, log2_max_frame_num_minus4<=12, pic_order_cnt_type<=2, at most 255 offset_for_ref_frame entries matching the count, max_num_ref_frames<=16, dimensions <= 1056 macroblocks and a cropping rectangle smaller than the picture.", "quantifier": "every byte string", "why_tests_cant": "safety over all malformed inputs", "anchors": ["src/h264_sps_parser.cc:H264SpsDataParser::ParseSpsData"]}
{"id": "C28", "title": "Reported resolution is positive, correct and overflow-free", "statement": "For every SPS the parser returns, getResolution() succeeds, performs no signed overflow, and yields the standard's cropped width and height, both positive.", "quantifier": "every byte string that parses as an SPS", "why_tests_cant": "all dimension, cropping and chroma-format combinations", "anchors": ["src/h264_sps_parser.cc:H264SpsDataParser::SpsDataState::getResolution", "src/h264_sps_parser.cc:getCropUnitX"]}
{"id": "C29", "title": "Scaling lists follow clause 7.3.2.1.1.1 and a malformed one is refused", "statement": "scaling_list() produces the list the standard's algorithm defines from the delta_scale values, every entry in 1..255, without signed overflow, and a parameter set containing a malformed scaling list is not returned as if it had parsed.", "quantifier": "every bit string and list size", "why_tests_cant": "data-dependent early termination of the list; all delta sequences", "anchors": ["src/h264_sps_parser.cc:H264SpsDataParser::SpsDataState::scaling_list", "src/h264_pps_parser.cc:H264PpsParser::PpsState::scaling_list"]}
{"id": "C30", "title": "PPS: parse inverts the 7.3.2.2 syntax and enforces ranges", "statement": "For every PPS value in range, ParsePps on its encoding returns exactly that value; every returned PPS has ids, slice group and reference-index fields in range and vectors of the right length.", "quantifier": "every PPS value; every byte string", "why_tests_cant": "seven slice-group map types, optional tail, all values", "anchors": ["src/h264_pps_parser.cc:H264PpsParser::ParsePps"]}
{"id": "C31", "title": "ref_pic_list_modification: parse inverts the syntax", "statement": "ParseRefPicListModification returns a state iff the next bits are its 7.3.3.1 encoding; the operation list ends at the first idc 3 and every idc is <=3.", "quantifier": "every bit string and slice type; lists of any length", "why_tests_cant": "unbounded operation lists", "anchors": ["src/h264_ref_pic_list_modification_parser.cc"]}
{"id": "C32", "title": "dec_ref_pic_marking: parse inverts the syntax", "statement": "ParseDecRefPicMarking returns a state iff the next bits are its 7.3.3.3 encoding; the mmco list ends at the first 0 and every mmco is <=6.", "quantifier": "every bit string; lists of any length; both IdrPicFlag values", "why_tests_cant": "unbounded operation lists", "anchors": ["src/h264_dec_ref_pic_marking_parser.cc"]}
{"id": "C33", "title": "pred_weight_table: parse inverts the syntax", "statement": "ParsePredWeightTable returns a state iff the next bits are its 7.3.3.2 encoding; list lengths equal num_ref_idx_active and chroma entries exist iff ChromaArrayType != 0.", "quantifier": "every bit string, slice type, ChromaArrayType and reference counts", "why_tests_cant": "all presence-flag patterns of any length", "anchors": ["src/h264_pred_weight_table_parser.cc"]}
{"id": "C34", "title": "Slice headers parse exactly, relative to the active parameter sets", "statement": "With the referenced PPS and SPS present, ParseSliceHeader returns a header iff the next bits are the 7.3.3 encoding of that header under those parameter sets; if either is missing it returns null. The result does not depend on the slice data that follows.", "quantifier": "every bit string, parameter-set state, nal_ref_idc and nal_unit_type", "why_tests_cant": "dozens of conditionals driven by earlier NAL units", "anchors": ["src/h264_slice_header_parser.cc:H264SliceHeaderParser::ParseSliceHeader"]}
{"id": "C35", "title": "Parameter-set store is last-writer-wins and failure-atomic", "statement": "After any sequence of NAL units, looking up an SPS/PPS/subset-SPS id gives the most recent successfully parsed parameter set of that kind with that id; NAL units of other types, and parameter sets that fail to parse, leave the store unchanged.", "quantifier": "every sequence of NAL units, every id", "why_tests_cant": "histories of any length and order", "anchors": ["src/h264_nal_unit_payload_parser.cc:H264NalUnitPayloadParser::ParseNalUnitPayload", "src/h264_bitstream_parser_state.cc"]}
{"id": "C36", "title": "Stored parameter sets are keyed by their own id and in range, always", "statement": "In every state reachable by parsing any inputs, each stored SPS/PPS/subset SPS carries the id it is stored under and all fields later used as bit widths or loop bounds are in range.", "quantifier": "every reachable parser state", "why_tests_cant": "invariant over all histories", "anchors": ["src/h264_bitstream_parser_state.cc", "src/h264_nal_unit_payload_parser.cc"]}
{"id": "C37", "title": "No undefined behaviour on any input", "statement": "Parsing any byte string with any options, starting from any reachable state, performs no out-of-bounds access, null dereference, oversized shift or signed overflow and fails no assertion.", "quantifier": "every byte string, reachable state, option set and build mode", "why_tests_cant": "fuzzing samples; this is all inputs and all histories", "anchors": ["src/h264_nal_unit_parser.cc", "src/h264_bitstream_parser.cc", "src/rtc_common.cc"]}
{"id": "C38", "title": "parsed_length never exceeds the NAL unit", "statement": "Every returned NAL unit has 1 <= parsed_length <= number of unescaped bytes <= length.", "quantifier": "every byte string and state", "why_tests_cant": "all inputs", "anchors": ["src/h264_nal_unit_parser.cc:H264NalUnitParser::ParseNalUnit", "src/h264_common.cc:get_current_offset"]}
{"id": "C39", "title": "Every parse terminates with work bounded by the input", "statement": "Every data-driven loop (ue(v) prefix, mmco, list modification, more_rbsp_data, STAP-A, checksum, start-code scan) makes progress on each iteration, so every parse terminates.", "quantifier": "every byte string", "why_tests_cant": "termination for all inputs", "anchors": ["src/h264_common.cc", "src/h264_dec_ref_pic_marking_parser.cc", "src/h264_rtp_stapa_parser.cc"]}
{"id": "C40", "title": "RTP single NAL unit packets parse like the bare NAL unit", "statement": "For a packet whose NAL type is <=23, ParseRtp gives the same header, payload and state update as ParseNalUnit on the same bytes.", "quantifier": "every packet and state", "why_tests_cant": "all contents and states", "anchors": ["src/h264_rtp_parser.cc", "src/h264_rtp_single_parser.cc"]}
{"id": "C41", "title": "STAP-A aggregation packets parse into their NAL units", "statement": "For a STAP-A packet built from a list of NAL units (16-bit size before each), ParseRtpStapA returns exactly those sizes, headers and payloads.", "quantifier": "every list of NAL units", "why_tests_cant": "unbounded aggregation of all NAL types", "anchors": ["src/h264_rtp_stapa_parser.cc"]}
{"id": "C42", "title": "FU-A start fragments parse like the fragmented NAL unit", "statement": "For a NAL unit sent as FU-A, the first fragment yields the same payload as ParseNalUnit would on the same leading bytes; later fragments carry no payload and never change the state.", "quantifier": "every NAL unit, split point and state", "why_tests_cant": "all NAL types and contents", "anchors": ["src/h264_rtp_fua_parser.cc"]}
{"id": "C43", "title": "Subset SPS and SVC extension parse exactly", "statement": "ParseSubsetSps / ParseSpsSvcExtension return a state iff the next bits are its encoding (F.7.3.2.1.4), for each profile branch the library implements.", "quantifier": "every bit string; every value", "why_tests_cant": "all branches and values", "anchors": ["src/h264_subset_sps_parser.cc", "src/h264_sps_svc_extension_parser.cc"]}
{"id": "C44", "title": "SPS extension parses exactly", "statement": "ParseSpsExtension returns a state iff the next bits are its 7.3.2.1.2 encoding with fields in range.", "quantifier": "every bit string; every value", "why_tests_cant": "variable-width alpha fields over all depths", "anchors": ["src/h264_sps_extension_parser.cc"]}
{"id": "C45", "title": "Parsing does not depend on the build mode", "statement": "For the same input and state, a build with assertions and an NDEBUG build return the same result.", "quantifier": "every input, state, both build modes", "why_tests_cant": "tests run one build mode; differential claim over all inputs", "anchors": ["src/rtc_common.cc:RTC_CHECK", "src/h264_sps_parser.cc:scaling_list"]}
{"id": "C46", "title": "Dumping a parsed bitstream never dereferences null", "statement": "fdump() on whatever ParseBitstream returned, with whatever options it was parsed with, dereferences no null pointer.", "quantifier": "every input, state and option set", "why_tests_cant": "all combinations of missing payloads and options", "anchors": ["src/h264_bitstream_parser.cc:BitstreamState::fdump", "src/h264_nal_unit_parser.cc:NalUnitState::fdump"]}
{"id": "C47", "title": "NAL unit type classification matches Table 7-1", "statement": "IsSliceSegment, IsNalUnitTypeReserved and IsNalUnitTypeUnspecified classify every type value as Table 7-1 does, and are mutually exclusive. NalUnitTypeToString gives different texts for the 32 types, and \"unknown\" exactly for other values. The texts are the names of Table 7-1.", "quantifier": "every uint32 type value", "why_tests_cant": "all 2^32 values", "anchors": ["src/h264_common.cc:IsSliceSegment", "src/h264_common.cc:IsNalUnitTypeReserved", "src/h264_common.cc:IsNalUnitTypeUnspecified", "src/h264_common.cc:NalUnitTypeToString"]}
{"id": "C48", "title": "Slice header in scalable extension parses within its parameter sets", "statement": "ParseSliceHeaderInScalableExtension returns null unless the PPS, the subset SPS with SVC extension and the SVC NAL header extension are present; every returned header has its fields in range and consumed exactly its encoding. ParseSliceLayerExtensionRbsp returns the slice header that the flags of the NAL unit header call for; nothing is returned for a slice of another view, and every NAL unit of type 20 that is returned in a stream has svc_extension_flag 1 and a payload.", "quantifier": "every bit string and state", "why_tests_cant": "dozens of conditionals driven by earlier NAL units", "anchors": ["src/h264_slice_header_in_scalable_extension_parser.cc", "src/h264_slice_layer_extension_rbsp_parser.cc"]}
{"id": "C49", "title": "Printed checksum is eight lower-case hex digits", "statement": "NaluChecksum::GetPrintableChecksum prints a NAL unit checksum as exactly eight lower-case hexadecimal digits, most significant first, and stays inside its buffer.", "quantifier": "every 32-bit checksum value", "why_tests_cant": "2^32 values", "anchors": ["src/h264_common.cc:NaluChecksum::fdump", "src/h264_common.cc:NaluChecksum::GetPrintableChecksum"]}
{"id": "C50", "title": "A payload is only filled in for its NAL unit type", "statement": "In every NAL unit ParseNalUnit returns, the sps, pps, slice layer, prefix NAL unit, subset SPS and slice layer extension pointers are non-null only for nal_unit_type 7, 8, 1 or 5, 14, 15 and 20 respectively. IsPayloadParsed, asked with the type of the unit, is false exactly when the type is one of these and the payload is empty.", "quantifier": "every byte string, every parser state, both build modes", "why_tests_cant": "must hold for every header and payload, and for every earlier history that filled the parser state", "anchors": ["src/h264_nal_unit_payload_parser.cc:ParseNalUnitPayload", "src/h264_nal_unit_parser.cc:ParseNalUnit", "src/h264_nal_unit_payload_parser.cc:IsPayloadParsed"]}
{"id": "C51", "title": "A coded stream parses into exactly what was coded", "statement": "For every sequence of NAL units whose payloads are written with the syntax tables of the standard (SPS, PPS, subset SPS, slices of any type, scalable slices, prefix NAL units, and units of other types with any bytes), packed into bytes, escaped and put behind start codes or length fields, the bitstream parser returns one NAL unit per coded unit, in order, each with the coded header and the coded values, where every slice is read with the parameter sets most recently coded before it.", "quantifier": "every sequence of coded NAL units, of any length, with any field values the library supports, from any parser state, both build modes", "why_tests_cant": "unbounded sequences of interdependent NAL units over all field values; the parse of each depends on the history before it", "anchors": ["src/h264_bitstream_parser.cc:ParseBitstream", "src/h264_nal_unit_parser.cc:ParseNalUnit", "src/h264_nal_unit_payload_parser.cc:ParseNalUnitPayload"]}
{"id": "C52", "title": "Prefix NAL units parse exactly", "statement": "ParsePrefixNalUnitRbsp returns the fields of prefix_nal_unit_svc() as written by the G.7.3.2.12.1 syntax, and nothing else is accepted.", "quantifier": "every bit string, every combination of nal_ref_idc, use_ref_base_pic_flag and idr_flag", "why_tests_cant": "extension data of any length and every flag combination", "anchors": ["src/h264_prefix_nal_unit_parser.cc:ParsePrefixNalUnitSvc", "src/h264_prefix_nal_unit_parser.cc:ParsePrefixNalUnitRbsp"]}
{"id": "C53", "title": "Dumps are well laid out", "statement": "The dump of whatever the parsers return has matching braces, none closed before it is opened; at level -1 the dump of a NAL unit or packet is a single line and that of a bitstream has exactly one line per NAL unit; at level 0 and above each line is indented by two spaces for each level, the level being that of the dump plus the braces open there.", "quantifier": "every input, parser state, option set and indentation level, for NAL units, bitstreams with start codes or sizes, payloads and RTP packets", "why_tests_cant": "all combinations of optional structures, vectors of every length and field values", "anchors": ["src/h264_common.cc:fdump_indent_level", "src/h264_nal_unit_parser.cc:NalUnitState::fdump", "src/h264_bitstream_parser.cc:BitstreamState::fdump", "src/h264_rtp_parser.cc:RtpState::fdump"]}
{"id": "C54", "title": "The reported profile is the one the SPS indicates", "statement": "GetProfileType returns a profile of Annex A whose profile_idc and constraint flag requirements the SPS meets, and no profile with more requirements that are met; it returns UNSPECIFIED iff no profile has that profile_idc. profileTypeToString names different profiles differently.", "quantifier": "every profile_idc and every combination of constraint flags", "why_tests_cant": "all flag combinations of every profile", "anchors": ["src/h264_sps_parser.cc:GetProfileType", "src/h264_common.cc:profileTypeToString"]}
{"id": "C55", "title": "Parsing (data, length) is parsing the bytes without emulation prevention", "statement": "Every Parse function with a (data, length) overload returns, for that overload, what the BitBuffer overload returns on a fresh reader over the same bytes without their emulation prevention bytes and with the same further arguments: a structure iff it is in range and its encoding is a prefix of those bytes. None shows undefined behaviour.", "quantifier": "every byte string shorter than 4 GiB (2^61 bytes in NDEBUG builds), every argument, every reachable parser state, both build modes", "why_tests_cant": "must hold for all inputs of nineteen functions", "anchors": ["src/h264_common.cc:UnescapeRbsp", "src/h264_pps_parser.cc:ParsePps", "src/h264_vui_parameters_parser.cc:ParseVuiParameters", "src/h264_pred_weight_table_parser.cc:ParsePredWeightTable", "src/h264_slice_header_parser.cc:ParseSliceHeader"]}
{"id": "C56", "title": "Unimplemented syntax is counted exactly once", "statement": "While NAL units are parsed the counter of unimplemented syntax goes up by at most one per NAL unit, exactly when a NAL unit holds syntax the library says it does not implement (a type 14 or 20 NAL unit that is not SVC, dec_ref_base_pic_marking in a prefix NAL unit or in a scalable slice header), and then the NAL unit is returned without that part or not at all. A stream that is returned completely counts nothing, and no stream below 4 GiB wraps the counter.", "quantifier": "every byte string, parser state, options, both build modes; every Annex B stream", "why_tests_cant": "must hold for every NAL unit, not for samples of each type", "anchors": ["src/h264_nal_unit_header_parser.cc:ParseNalUnitHeader", "src/h264_prefix_nal_unit_parser.cc", "src/h264_slice_header_in_scalable_extension_parser.cc", "src/h264_common.cc"]}
{"id": "C57", "title": "The exit status of the tool tells whether everything was parsed", "statement": "The tool exits with status 0 iff every NAL unit of the input was parsed, with 2 iff unimplemented syntax was met, and with 1 iff otherwise a NAL unit is missing or has no payload although its type is supported. Streams made by an encoder from supported syntax give 0.", "quantifier": "every input file below 4 GiB, every combination of options", "why_tests_cant": "scripts rely on it for files nobody has tested", "anchors": ["tools/h264nal.cc:main"]}
{"id": "C58", "title": "The tool shows every NAL unit, with its own bytes", "statement": "The tool writes for each parsed NAL unit, in order, its dump, the bytes of exactly this NAL unit in hexadecimal if contents are asked for, and a line break; whoever asks for the contents gets the offsets and lengths too, as if they had asked for them; the bytes can be read back from the text; it always terminates normally.", "quantifier": "every input file below 4 GiB, every combination of options", "why_tests_cant": "the byte ranges depend on the offsets of every NAL unit of the input", "anchors": ["tools/h264nal.cc:main"]}
{"id": "C59", "title": "The table of lengths is right", "statement": "With the length mode the tool writes one line per NAL unit with its number, frame number, type, length and first macroblock, and after each frame a line with the type of its last slice and the bit rate 8 * bytes of its slices * frames per second. A frame begins at the first slice and at each later slice with first_mb_in_slice 0; this determines the frames.", "quantifier": "every input file, every frame rate", "why_tests_cant": "depends on the whole sequence of NAL units; arithmetic must not overflow", "anchors": ["tools/h264nal.cc:main"]}
{"id": "C60", "title": "The dump shows the values and can be read back", "statement": "The dump of what was parsed consists exactly of the members that are present, in order, each with its name and its value, arrays in braces, structures nested; a simple reader recovers names, nesting and values from the text, at every indentation level. (False for a few members: cpb_size_scale and additional_prefix_nal_unit_extension_flag are not shown, and some negative values are shown modulo 2^32.)", "quantifier": "every input, every parser state, every indentation level, every combination of options", "why_tests_cant": "the text depends on every member, every presence condition and every list length", "anchors": ["src/h264_nal_unit_parser.cc:fdump", "src/h264_sps_parser.cc:fdump", "src/h264_slice_header_parser.cc:fdump", "src/h264_bitstream_parser.cc:fdump", "src/h264_rtp_parser.cc:fdump", "include/h264_common.h:fdump_indent_level"]}
{"id": "C61", "title": "The frame rate is the rounded quotient of the timing fields", "statement": "For VUI parameters returned by the parser (alone or within an SPS) with timing information, getFramerate returns a finite positive number: time_scale / (2 * num_units_in_tick) rounded to double and then to float. Its relative error is at most 2^-24 + 2^-52; a rate that a float can hold, such as a whole number below 2^24, is returned exactly; a higher rate is never returned as a lower number; and when num_units_in_tick is at most 2^28 the result is the float nearest to the rate (false beyond that, because of the double rounding). Without timing information the result is not a number.", "quantifier": "every input of the parser, all 2^64 values of the two timing fields", "why_tests_cant": "rounding depends on all 64 bits of the two fields; the case in which rounding twice goes wrong is one in many millions", "anchors": ["src/h264_vui_parameters_parser.cc:getFramerate", "src/h264_vui_parameters_parser.cc:ParseVuiParameters", "include/h264_vui_parameters_parser.h:kNumUnitsInTickMin"]}
{"id": "C62", "title": "Bit lengths computed in floating point are those of the standard", "statement": "The number of bits read for slice_group_change_cycle is Ceil(Log2(PicSizeInMapUnits / SliceGroupChangeRate + 1)) with exact division, and the number of bits read for slice_group_id is Ceil(Log2(num_slice_groups_minus1 + 1)), although both are computed with double division, std::log2 and std::ceil: rounding never makes the length one too large or too small, whatever standard library is used, provided its log2 is exact on powers of two and accurate to 2^-40.", "quantifier": "every SPS and PPS a parser state can hold (picture sizes up to 1056 x 1056 map units, all change rates below 2^32), every log2 of that quality", "why_tests_cant": "an off-by-one needs one particular picture size and change rate out of 2^52, and depends on the library", "anchors": ["src/h264_slice_header_parser.cc:getSliceGroupChangeCycleLen", "src/h264_slice_header_in_scalable_extension_parser.cc:getSliceGroupChangeCycleLen", "src/h264_pps_parser.cc:getSliceGroupIdLen"]}
{"id": "C63", "title": "The command line: last option wins, refusal is exit status 255", "statement": "On the command line of the tool the last option for a setting wins, so options for different settings can be given in any order; the first option that asks for help or the version, is unknown or has a bad number ends the run, with exit status 0 for the version and 255 otherwise. A number is accepted iff it consists of blanks, an optional sign and decimal digits, and is between 0 and 2^31-1 (or is empty, which means 0). The exit status is 0, 1, 2 or 255, and it is 255 exactly if the run was ended by an option, there is no input, the input cannot be read (or is an empty file) or the output cannot be opened. Otherwise the output of the run is written to the output file, or to standard output if there is none or it is called '-', and to nothing else. The tool returns for every Annex B stream of up to 512 MiB, whatever the options. (The usage text says more than is true: -1 is refused as a number, there is no default input, an avcC file is not read.)", "quantifier": "every sequence of options and arguments, every content of files and standard input, both builds", "why_tests_cant": "options can be repeated and combined in any order and number; numbers are arbitrary texts", "anchors": ["tools/h264nal.cc:parse_args", "tools/h264nal.cc:main", "tools/h264nal.cc:usage", "src/h264_utils.cc:ReadFile"]}
{"id": "C64", "title": "Parsing looks at the data a linear number of times", "statement": "Parsing a NAL unit, an Annex B stream, a length-prefixed stream or an RTP packet looks at the data a number of times that is at most a constant times the number of bytes given: at most 61 per byte plus 419 for a NAL unit, 144 per byte for an Annex B stream, 241 per byte plus 419 for a length-prefixed stream, and 245 per byte plus 466 for an RTP packet. A look is a load of a byte by the scan for start codes, the removal of emulation prevention bytes or the reader of length prefixes, or a call of the bit reader's PeekBits, which loads at most nine bytes. No input makes the parsers quadratic: not a run of zeros where a Golomb code is expected (which is scanned again when it is not consumed), not many short NAL units in a stream or packet, not syntax that announces many elements.", "quantifier": "every byte array (below 2^61 bytes), every parser state, every option, every size of the length prefix, both builds", "why_tests_cant": "the worst case is over all inputs of all lengths; tests measure a few", "anchors": ["src/rtc_common.cc:PeekBits", "src/rtc_common.cc:ReadExponentialGolomb", "src/h264_common.cc:UnescapeRbsp", "src/h264_bitstream_parser.cc:ParseBitstream", "src/h264_bitstream_parser.cc:ParseBitstreamNALULength", "src/h264_nal_unit_parser.cc:ParseNalUnit", "src/h264_rtp_stapa_parser.cc:ParseRtpStapA"]}
{"id": "C65", "title": "What is accepted as a parameter set is exactly characterised", "statement": "For every byte string, ParseSps, ParsePps and ParseSubsetSps return a given structure iff the RBSP starts with (a) the coded elements before the scaling lists, (b) scaling lists of which each is read up to its end or up to the first delta_scale that is out of range or not a signed Exp-Golomb code, the entries read so far replacing those of the last list of the same size, and (c) the coded elements after them. A delta_scale that cannot be read consumes nothing with assertions enabled and the zero bits up to the next one bit without. In a subset SPS, of the extensions only the SVC extension is read, and of the MVC and MVCD profiles just the flags the library names. So nothing outside this set is ever returned, and everything in it is.", "quantifier": "every byte string and every structure, both builds, every chroma_format_idc passed to ParsePps", "why_tests_cant": "an iff over all byte strings; malformed lists can stop at any entry of any list", "anchors": ["src/h264_sps_parser.cc:ParseSps", "src/h264_sps_parser.cc:scaling_list", "src/h264_pps_parser.cc:ParsePps", "src/h264_subset_sps_parser.cc:ParseSubsetSps"]}
{"id": "C66", "title": "Threads do not disturb each other", "statement": "Any number of threads may call ParseBitstream, ParseBitstreamNALULength, ParseNalUnit, ParseRtp, get_unimplemented_count and reset_unimplemented_count at the same time, each thread with its own BitstreamParserState. In whatever order their steps are taken, every parser call returns what it would have returned in a program with one thread, nothing is undefined, and all threads finish after a number of steps that does not depend on the order. If no thread resets the counter of unimplemented syntax, no count is lost: in the end it has grown by the sum of what the threads have counted, and every value read is the initial value, plus what the reading thread has counted so far, plus a number of counts by others that never decreases (modulo 2^32). A thread that is alone reads exactly what was counted since the last reset.", "quantifier": "every number of threads, every list of calls and every reachable parser state of each (data below 4 GiB, size fields up to 7 bytes), every interleaving of the steps, every initial counter value, both builds", "why_tests_cant": "the interleavings of the threads are chosen by the scheduler, and a lost count or a call that depends on another thread would show only under rare schedules", "anchors": ["src/h264_common.cc:report_unimplemented", "src/h264_common.cc:get_unimplemented_count", "src/h264_common.cc:reset_unimplemented_count", "src/h264_bitstream_parser.cc:ParseBitstream", "src/h264_nal_unit_parser.cc:ParseNalUnit", "src/h264_rtp_parser.cc:ParseRtp"]}
{"id": "C67", "title": "A stream can be parsed in pieces", "statement": "A stream that arrives in pieces can be parsed piece by piece with the same BitstreamParserState. If every piece of an Annex B stream after the first begins with a start code that has something after it, and no piece ends with a start code (nor with a zero byte, if the next begins with a start code of three bytes), then ParseBitstream of the whole stream returns the NAL units that it returns for the pieces one after the other, with the same headers, payloads, lengths and checksums, and with the offsets counted from the beginning of the stream; the final parser state and the unimplemented count are the same too. FindNaluIndices of two pieces is its result for the first followed by that for the second, moved. Likewise for ParseBitstreamNALULength when the first piece consists of whole NAL units with their sizes, whatever the second is.", "quantifier": "every number of pieces of every content and size (below 2^61 bytes together) that is cut before start codes, every size field of 1 to 7 bytes, every parser state, all parsing options, both builds", "why_tests_cant": "the positions of the cuts and the contents on both sides are unbounded; a start code found across a cut or a parameter set forgotten between the pieces would show only for particular bytes at a cut", "anchors": ["src/h264_bitstream_parser.cc:ParseBitstream", "src/h264_bitstream_parser.cc:FindNaluIndices", "src/h264_bitstream_parser.cc:ParseBitstreamNALULength", "include/h264_bitstream_parser_state.h:BitstreamParserState"]}
{"id": "C68", "title": "Parameter sets from elsewhere do not change a self-contained stream", "statement": "If all slices of a stream were returned with their slice headers, then the stream is parsed just the same by a parser state that holds more parameter sets under other ids: the same NAL units, headers, payloads, lengths and checksums, the same count of unimplemented syntax, and the final state holds everything that the other holds. In particular a stream that carries the parameter sets of its slices is parsed by a parser with any history just as by a new one. The same holds for single NAL units, length-prefixed streams, RTP packets of all kinds and sequences of RTP packets.", "quantifier": "every stream, NAL unit, packet and packet sequence (each below 2^61 bytes), every pair of parser states of which one holds whatever the other holds, all parsing options, both builds", "why_tests_cant": "the history of a parser is unbounded, and a stale parameter set that leaks into a later stream shows only for particular pairs of histories and streams", "anchors": ["src/h264_bitstream_parser.cc:ParseBitstream", "src/h264_bitstream_parser.cc:ParseBitstreamNALULength", "src/h264_nal_unit_payload_parser.cc:ParseNalUnitPayload", "src/h264_slice_header_parser.cc:ParseSliceHeader", "src/h264_slice_header_in_scalable_extension_parser.cc:ParseSliceHeaderInScalableExtension", "src/h264_rtp_parser.cc:ParseRtp", "include/h264_bitstream_parser_state.h:BitstreamParserState"]}
{"id": "C69", "title": "RTP packets: the parser state is last-writer-wins, and a refused packet does not change it", "statement": "After any sequence of RTP packets parsed with ParseRtp and the same BitstreamParserState, looking up an SPS, PPS or subset SPS id gives the parameter set of that kind and id that was returned last, in a single NAL unit packet, a STAP-A packet or a first FU-A fragment; a packet for which ParseRtp returns null leaves the state unchanged.", "quantifier": "every sequence of packets (each below 2^61 bytes), every parser state, every id, both builds", "why_tests_cant": "histories of any length and order; packets that fail at any place after any number of aggregated NAL units", "anchors": ["src/h264_rtp_parser.cc:ParseRtp", "src/h264_rtp_stapa_parser.cc:ParseRtpStapA", "src/h264_rtp_single_parser.cc:ParseRtpSingle", "src/h264_rtp_fua_parser.cc:ParseRtpFuA", "src/h264_nal_unit_payload_parser.cc:ParseNalUnitPayload"]}
{"id": "C70", "title": "What is parsed does not depend on the container", "statement": "The same NAL units give the same results in every container: an Annex B stream with start codes of any lengths parsed with ParseBitstream, a stream with size fields of any length parsed with ParseBitstreamNALULength, and single NAL unit packets parsed one by one with ParseRtp. In all of them the same NAL units are returned and left out, with the same headers and payloads (for streams also the same parsed lengths and checksums), and the parser state and the count of unimplemented syntax are the same in the end.", "quantifier": "every list of NAL units that Annex B can carry (not empty, without start code, last byte not zero; for packets of type at most 23, for size fields short enough), every choice of start codes, every length of the size fields, every parser state, all parsing options, both builds", "why_tests_cant": "lists of any length of NAL units of any content in all combinations of containers", "anchors": ["src/h264_bitstream_parser.cc:ParseBitstream", "src/h264_bitstream_parser.cc:ParseBitstreamNALULength", "src/h264_nal_unit_parser.cc:ParseNalUnit", "src/h264_rtp_parser.cc:ParseRtp", "src/h264_rtp_single_parser.cc:ParseRtpSingle"]}
{"id": "C71", "title": "Losing NAL units or packets without parameter sets disturbs nothing else", "statement": "If some NAL units of a stream that are not parameter sets (SPS, PPS, subset SPS) are lost, every other NAL unit gives exactly the same result (returned with the same header, payload, parsed length and checksum, or left out), and the parser state in the end is the same. The same holds for lost RTP packets that were returned without a parameter set in them, or refused and not STAP-A.", "quantifier": "every list of NAL units that Annex B can carry, every session of RTP packets (single, STAP-A, FU-A), every selection of lost ones, every parser state and count, all parsing options, both builds", "why_tests_cant": "all patterns of loss in streams and sessions of any length", "anchors": ["src/h264_bitstream_parser.cc:ParseBitstream", "src/h264_nal_unit_parser.cc:ParseNalUnit", "src/h264_nal_unit_payload_parser.cc:ParseNalUnitPayload", "src/h264_rtp_parser.cc:ParseRtp"]}
{"id": "C72", "title": "Parameter sets can be repeated", "statement": "What is returned for a parameter set NAL unit does not depend on what was parsed before. Sending it again, when no NAL unit of its type came since, adds the same result once more and changes no other result and not the parser state in the end; leaving the repetition out is as harmless.", "quantifier": "every SPS, PPS and subset SPS NAL unit, valid or not, at every two places in every stream that Annex B can carry, every parser state and count, all parsing options, both builds", "why_tests_cant": "repetitions of any parameter set at any places in streams of any length", "anchors": ["src/h264_bitstream_parser.cc:ParseBitstream", "src/h264_nal_unit_parser.cc:ParseNalUnit", "src/h264_nal_unit_payload_parser.cc:ParseNalUnitPayload"]}
{"id": "C73", "title": "A small input cannot make a large result", "statement": "The vectors of the object a parser returns have, all together, at most a fixed number of elements for each byte of input: 8 per byte and 78 more for a NAL unit, 27 per byte for an Annex B stream, 44 per byte and 79 more for a length-prefixed stream, 32 per byte and 86 more for an RTP packet.", "quantifier": "every input (of less than 2^61 bytes), every parser state and count, all parsing options, every size of the length prefix, both builds", "why_tests_cant": "amplification has to be excluded for every input, including hostile ones, and every stored parameter set", "anchors": ["src/h264_sps_parser.cc", "src/h264_pps_parser.cc", "src/h264_slice_header_parser.cc", "src/h264_rtp_stapa_parser.cc:ParseRtpStapA", "src/h264_bitstream_parser.cc:ParseBitstream"]}
{"id": "C74", "title": "Every stored parameter set was parsed", "statement": "In every parser state that calls of the library can produce, each SPS, PPS and subset SPS is one that the corresponding parser returned for some bytes, unchanged, under its own id: nothing is invented, merged or altered after parsing.", "quantifier": "every history of calls of the functions that take a parser state, on any inputs, with any options, in both builds", "why_tests_cant": "invariant over all histories", "anchors": ["src/h264_bitstream_parser_state.cc", "src/h264_nal_unit_payload_parser.cc:ParseNalUnitPayload", "src/h264_rtp_parser.cc"]}
{"id": "C75", "title": "The parser state stays bounded whatever is parsed", "statement": "A parser state never holds more than 32 SPS, 256 PPS and 32 subset SPS, the vectors of an SPS or subset SPS never have more than 545 elements, those of a PPS never more than 139362, and all of them together less than 36 million, however long the program parses.", "quantifier": "every history of calls of the functions that take a parser state, on any inputs, with any options, in both builds", "why_tests_cant": "an upper bound over histories of any length", "anchors": ["src/h264_bitstream_parser_state.cc", "src/h264_sps_parser.cc", "src/h264_pps_parser.cc", "src/h264_hrd_parameters_parser.cc"]}
{"id": "C76", "title": "Shared parameter sets are never dangling and never leak", "statement": "However a program creates and destroys parser states, parses payloads with them, asks them for parameter sets with GetSps, GetPps and GetSubsetSps, copies the pointers that it was given, and destroys results, no parameter set that was freed is accessed, the use_count of each parameter set is the number of pointers to it, and each one is freed exactly when the last pointer to it is gone; once all states and results are destroyed, none is left.", "quantifier": "every sequence of such steps, of any length, with any number of states, any payloads and both builds", "why_tests_cant": "the order in which states and results are created, overwritten and destroyed is arbitrary; a test or a leak checker sees one order", "anchors": ["include/h264_bitstream_parser_state.h", "src/h264_bitstream_parser_state.cc", "include/h264_nal_unit_payload_parser.h", "src/h264_nal_unit_payload_parser.cc"]}
{"id": "C77", "title": "Parameter sets behave as values, although they are shared", "statement": "What a program sees through the pointers in parser states and results is what it would see if every parameter set were copied when it is stored and when it is returned: in particular a result is unchanged by whatever is parsed later and by the destruction of the parser state. The returned parameter set is however the stored object itself, not a copy, so that a program that writes to it changes what the parser state holds.", "quantifier": "every sequence of steps as in C76 that does not write to parameter sets", "why_tests_cant": "an equivalence of two models of memory over all histories", "anchors": ["include/h264_bitstream_parser_state.h", "src/h264_bitstream_parser_state.cc", "src/h264_nal_unit_payload_parser.cc"]}
{"id": "C78", "title": "A slice header can be read from the beginning of a NAL unit", "statement": "If ParseNalUnit finds a slice header in the first bytes of a NAL unit of type 1 or 5, it finds the same slice header in every longer part of that NAL unit, with the same header, payload and parsed_length, and neither call changes the parser state or the counter of unimplemented syntax. The slice header of a NAL unit is found in its first m bytes exactly when these contain parsed_length bytes besides emulation prevention bytes; otherwise no slice header is returned, never a wrong one. The same holds for the headers of scalable slices in NAL units of type 20. Hence the first RTP fragment (FU-A) of a slice gives the payload of the reassembled NAL unit exactly when the slice header ends in it. Parameter sets do not have this property: the beginning of a PPS can be accepted as a different PPS.", "quantifier": "every NAL unit, every two of its beginnings, every valid parser state, every split into fragments, both build modes", "why_tests_cant": "ranges over all truncation points of all slices with all parameter sets, including truncation inside an emulation prevention sequence", "anchors": ["src/h264_nal_unit_parser.cc:ParseNalUnit", "src/h264_slice_header_parser.cc:ParseSliceHeader", "src/h264_common.cc:UnescapeRbsp", "src/h264_rtp_fua_parser.cc"]}
{"id": "C79", "title": "Parsing options change nothing but the checksum", "statement": "Two calls of ParseNalUnit, ParseBitstream or ParseBitstreamNALULength on the same data and parser state with different ParsingOptions return the same NAL units up to their checksum, and leave the same parser state and counter. A checksum is present exactly when add_checksum was set; with the same add_checksum the results are equal. The calls without parser state also return the options they were given.", "quantifier": "every byte string, every parser state, every two sets of options, every length field size, both build modes", "why_tests_cant": "a relation between two runs on every input", "anchors": ["include/h264_common.h:ParsingOptions", "src/h264_nal_unit_parser.cc:ParseNalUnit", "src/h264_bitstream_parser.cc:ParseBitstream", "src/h264_bitstream_parser.cc:ParseBitstreamNALULength"]}
{"id": "C80", "title": "Parameter sets supplied by the program", "statement": "The maps of the parser state are public. If every SPS in a state has a bit_depth_luma_minus8 for which 51 + 6 * bit_depth_luma_minus8 fits an int, and every PPS a slice_group_change_rate_minus1 other than UINT32_MAX, then every parsing function returns without undefined behaviour and leaves such a state, whatever else the stored parameter sets contain, under whatever ids they are stored, and whoever stored them. Every state that parsing produces is of this kind. Outside these two conditions there are slices whose parsing is undefined, for every such value. A null pointer in a map (or in an SPS in it) is dereferenced exactly by the slices that name it.", "quantifier": "every parser state that satisfies the two conditions, every input, both build modes; every 32-bit value outside them", "why_tests_cant": "a test fills the state with a few parameter sets", "anchors": ["include/h264_bitstream_parser_state.h:H264BitstreamParserState", "src/h264_slice_header_parser.cc:ParseSliceHeader", "src/h264_slice_header_in_scalable_extension_parser.cc:ParseSliceHeaderInScalableExtension"]}
{"id": "C81", "title": "Fuzz targets never fail", "statement": "Each of the 25 fuzz targets in the directory fuzz returns 0 on every input: there is no input, of any size, on which one of them crashes, reads out of bounds, overflows or fails to end. The target for slice headers in scalable extension gets a null result on every input, because its parser state has no subset SPS.", "quantifier": "every fuzz target, every byte string, both build modes", "why_tests_cant": "a fuzzer runs a target on finitely many inputs", "anchors": ["fuzz/h264_bitstream_parser_fuzzer.cc:LLVMFuzzerTestOneInput", "fuzz/h264_slice_header_parser_fuzzer.cc:LLVMFuzzerTestOneInput", "fuzz/h264_slice_header_in_scalable_extension_parser_fuzzer.cc:LLVMFuzzerTestOneInput", "fuzz/h264_common__unescape_rbsp_fuzzer.cc:LLVMFuzzerTestOneInput"]}
{"id": "C82", "title": "Splitting a stream where the resolution changes", "statement": "tools/h264nal-split.py ends regularly for every input file, and writes nothing if the tool reports a failure. If it writes files, they are at least two, put together in order they are the input byte for byte, they have different names, none the name of the input, and cuts are only between NAL units, before the whole start code, so that parsing the files one after the other gives the NAL units of the input. Each file but the first begins with an SPS for which another size was read than for the SPSs of the file before, and within a file the size never changes. The size is the resolution if no SPS has an explicit sample aspect ratio; otherwise the sample aspect ratio is read instead, so that changes are missed or reported where there is none.", "quantifier": "every input file shorter than 2^32 bytes, both build modes of the tool; every path", "why_tests_cant": "a test splits a few streams; what is read depends on everything that the text of the tool may contain", "anchors": ["tools/h264nal-split.py:parse_nal_units", "tools/h264nal-split.py:find_start_code_offset", "tools/h264nal-split.py:find_split_points", "tools/h264nal-split.py:split_file", "tools/h264nal.cc:main"]}
{"id": "C83", "title": "Table of reference pictures", "statement": "tools/h264nal-dpb_parse.py shows, for every stream the tool reads without failure and that has an SPS, one row for each slice with first_mb_in_slice = 0, in stream order. The row numbers the picture in the stream and in its group, which begins at an IDR picture, gives its type, frame_num and nal_ref_idc, what is held before it, what it refers to (a beginning of a rearrangement of what is held, never longer than the number of active references, in the order by frame_num and long-term index as modified by the slice), the marking operations in words, and what is held after it. Without marking operations and long-term pictures, what is held are the last max_num_ref_frames reference pictures since the last IDR picture. What is written is a line with the names of the columns and a line of 11 cells for each row, from which all the row says can be read back. The script ends for every stream, with a table that follows clause 8.2.5 of the standard.", "quantifier": "every input file shorter than 2^32 bytes, both build modes of the tool", "why_tests_cant": "what is held depends on the whole history of the stream, and what the script reads depends on everything that the text of the tool may contain", "anchors": ["tools/h264nal-dpb_parse.py:parse_frames", "tools/h264nal-dpb_parse.py:simulate_dpb", "tools/h264nal-dpb_parse.py:apply_rplm", "tools/h264nal.cc:main"]}
{"id": "C84", "title": "Summary of a stream", "statement": "tools/h264nal-conformance.py gives one row for every file. The row states how many NAL units the library returns, how many of them should hold a slice header (types 1, 5 and 20) and how many slice headers the library returns. Its resolutions, profiles and levels are those of the SPSs and subset SPSs of the stream, each once, in the order in which they first occur. slice_header_status is 0 exactly if each such NAL unit has its slice header. h264nal_status is 0 if the exit status of the tool is 0 and it wrote nothing to stderr, and never if the exit status is another one. If the exit status is 0, only NAL units of type 20 can lack their slice header. Otherwise h264nal_status names the exit status if it is not 0, and then each message of stderr once, in the order of first occurrence and with the number of its occurrences.", "quantifier": "every input file shorter than 2^32 bytes, every text on stderr, both build modes of the tool", "why_tests_cant": "the script searches the text of the tool with regular expressions; that it counts nothing twice and misses nothing depends on every text that any NAL unit may cause", "anchors": ["tools/h264nal-conformance.py:analyze_file", "tools/h264nal-conformance.py:parse_sps_lines", "tools/h264nal-conformance.py:format_level", "tools/h264nal-conformance.py:summarize_errors", "tools/h264nal-conformance.py:get_slice_header_status", "tools/h264nal.cc:main"]}
{"id": "C85", "title": "A stream that is cut off", "statement": "If an Annex B stream is cut off after any byte, ParseBitstream returns for the part that is there the same NAL units as for the whole stream, up to the last one: only a NAL unit that has fewer than five bytes after it in that part can be missing or another one, and only one NAL unit, which ends at the cut, can be another one. If the cut is not within a start code, every slice header of a slice (types 1 and 5) returned for the part is returned for the whole stream at the same offset, with the same fields; so are every slice header of a scalable slice (type 20) and every SPS without scaling matrix; wherever the cut is, two slice headers returned at the same offset are the same. ParseBitstreamNALULength returns for a part a beginning of what it returns for the whole; if the stream is cut within a NAL unit or its size, it returns exactly what it returns for the NAL units before it, and leaves the same parser state.", "quantifier": "every byte string and every position at which it is cut, every parser state (for slice headers: every state that calls of the library can produce), all parsing options, sizes of 1 to 7 bytes, both builds", "why_tests_cant": "ranges over all positions of the cut (crash points of the writer) in all streams, including cuts within start codes, sizes and emulation prevention sequences", "anchors": ["src/h264_bitstream_parser.cc:ParseBitstream", "src/h264_bitstream_parser.cc:FindNaluIndices", "src/h264_bitstream_parser.cc:ParseBitstreamNALULength", "src/h264_nal_unit_parser.cc:ParseNalUnit"]}
{"id": "C86", "title": "Damage does not spread", "statement": "If bytes of an Annex B stream are damaged, but FindNaluIndices still finds the same NAL units, and every damaged NAL unit is no parameter set (SPS, PPS, subset SPS), neither before nor after the damage, then ParseBitstream returns for every other NAL unit exactly the same as without the damage, or leaves it out as without the damage, and the parser state in the end is the same. The same holds for ParseBitstreamNALULength if no size is damaged, and for damaged RTP packets in which no parameter set is found before or after the damage and which are not refused STAP-A packets.", "quantifier": "every stream and every damage of any number of its bytes, every session of RTP packets (single, STAP-A, FU-A) and every damage of any of them, every parser state and count, all parsing options, both builds", "why_tests_cant": "all patterns of damage in streams and sessions of any length", "anchors": ["src/h264_bitstream_parser.cc:ParseBitstream", "src/h264_bitstream_parser.cc:FindNaluIndices", "src/h264_nal_unit_parser.cc:ParseNalUnit", "src/h264_nal_unit_payload_parser.cc:ParseNalUnitPayload", "src/h264_rtp_parser.cc:ParseRtp"]}
{"id": "C87", "title": "Units without parameter sets can come in any order", "statement": "If consecutive NAL units of an Annex B stream, none of them an SPS, PPS or subset SPS, come in another order, ParseBitstream returns for each of them the same as before (length, checksum, header, payload), or leaves it out as before, and the results of the NAL units before and after them and the parser state in the end are the same. The same holds for consecutive RTP packets in which no parameter set is found and which are no refused STAP-A packets. It does not hold across a parameter set: a slice that comes before its PPS has no slice header.", "quantifier": "every stream and session of RTP packets, every permutation of any of their consecutive units without parameter sets, every parser state and count, all parsing options, both builds", "why_tests_cant": "all permutations of units of streams of any length", "anchors": ["src/h264_bitstream_parser.cc:ParseBitstream", "src/h264_nal_unit_parser.cc:ParseNalUnit", "src/h264_nal_unit_payload_parser.cc:ParseNalUnitPayload", "src/h264_rtp_parser.cc:ParseRtp"]}
{"id": "C88", "title": "Fuzzers and seeds are what the unit tests say", "statement": "The script that makes fuzzers out of unit tests (fuzz/converter.py) writes one seed for each array that is marked in the unit test, in order, with exactly the bytes of the array; its code is that of the marked blocks in order, each once (up to whitespace), with the fuzzer input wherever a block passes an array and its size, whatever its name and however the line is wrapped; it fails for no file. For seeds this holds only for arrays in lower-case literals of two digits that end in a line }; without indentation or with the mark of the code: the second array in the unit test of the SPS parser does not, and its seed gets two more bytes out of comments (320x240, 320x232).", "quantifier": "all unit test files: any number of marked arrays and blocks, any bytes, any layout of the lines", "why_tests_cant": "all files; the script has no tests", "anchors": ["fuzz/converter.py:parse_input", "fuzz/converter.py:DATA_REGEXP", "test/h264_sps_parser_unittest.cc:TestSampleSPS2012"]}
{"id": "C89", "title": "The table that summarises a list of streams can be read back", "statement": "tools/h264nal-conformance.py writes, for every list of paths, a CSV file with the names of the columns and one row for each path that is not a directory, in the order of the paths. Each row is that of the file alone, whatever the other files are. A CSV reader gets back the ten values of every row, whatever the names of the files and the messages of the tool contain (commas, quotes, line breaks). The names are that of the file and of the directory it is in, for absolute and relative paths. A run that takes too long or cannot be started leaves a row that says so and does not end the script; if no file has 4 GiB or more there is a table. The last line says that there are no issues exactly if no row says otherwise.", "quantifier": "all lists of paths, all file names, present directories, file contents, messages of the tool and ends of its runs", "why_tests_cant": "any file names and any text of the tool; the script has no tests", "anchors": ["tools/h264nal-conformance.py:main", "tools/h264nal-conformance.py:write_csv", "tools/h264nal-conformance.py:analyze_file", "tools/h264nal-conformance.py:run_h264nal"]}
{"id": "C90", "title": "The script for fuzzers keeps the unit test and leaves exactly its seeds", "statement": "fuzz/converter.py, run on a unit test, leaves the unit test as it is, writes a fuzzer with its code, and leaves in the directory of seeds of the test exactly the seeds of the test, each in a file of its own. It works for standard input too, as its options say. This holds for tests called ..._unittest.cc, except that seeds of former versions of the test stay; for a test without unittest in its name the fuzzer may be written over the test; with standard input the script raises an exception.", "quantifier": "all unit test files, names, directories and former contents of the file system", "why_tests_cant": "all names and histories of files; the script has no tests", "anchors": ["fuzz/converter.py:do_something", "fuzz/converter.py:read_input", "fuzz/converter.py:main"]}
{"id": "C91", "title": "An SPS can be read from the beginning of a NAL unit", "statement": "If ParseNalUnit finds an SPS in the first bytes of a NAL unit, it finds the same SPS in every longer part of that NAL unit, with the same header and payload and the same new parser state. The SPS is found in the first m bytes exactly when these contain, besides emulation prevention bytes, the header and all bits of the fields of the SPS (the trailing bits are not needed); otherwise no SPS is returned, never a wrong one. Hence the first RTP fragment (FU-A) of an SPS without scaling matrix gives and stores the SPS of the reassembled NAL unit if all fields are in it, and otherwise changes nothing. This holds for SPSs without scaling matrix and for SPSs with well-formed scaling lists; with a malformed list the beginning can be accepted as a different SPS.", "quantifier": "every NAL unit, every two of its beginnings, every parser state, both build modes", "why_tests_cant": "ranges over all truncation points of all SPSs, including truncation inside an emulation prevention sequence", "anchors": ["src/h264_nal_unit_parser.cc:ParseNalUnit", "src/h264_sps_parser.cc:ParseSps", "src/h264_sps_parser.cc:scaling_list", "src/rtc_common.cc:ReadExponentialGolomb"]}

import Verif.Model.Rtp

/-
Model of the NAL unit type functions of h264_common.cc, of `GetNalUnitType`, and of the `(data, length)` overloads of the parsers
that return a structure and do not touch the parser state.  (The other overloads: `Model/Nal.lean`, `Model/Rtp.lean`.)
-/

namespace H264

/-! ### NAL unit types -/

/-- `NalUnitTypeToString` (src/h264_common.cc:22-95), with the enumerators of include/h264_common.h:25-58. -/
def nalUnitTypeToString (nal_unit_type : Nat) : String :=
  match nal_unit_type with
  | 0 => "unspecified"
  | 1 => "coded_slice_of_non_idr_picture"
  | 2 => "coded_slice_data_partition_a"
  | 3 => "coded_slice_data_partition_b"
  | 4 => "coded_slice_data_partition_c"
  | 5 => "coded_slice_of_idr_picture"
  | 6 => "sei"
  | 7 => "sps"
  | 8 => "pps"
  | 9 => "aud"
  | 10 => "eoseq"
  | 11 => "eostream"
  | 12 => "filler_data"
  | 13 => "sps_extension"
  | 14 => "prefix"
  | 15 => "subset_sps"
  | 16 => "rsv16"
  | 17 => "rsv17"
  | 18 => "rsv18"
  | 19 => "coded_slice_of_auxiliary_coded_picture"
  | 20 => "coded_slice_extension"
  | 21 => "rsv21"
  | 22 => "rsv22"
  | 23 => "rsv23"
  | 24 => "unspec24"
  | 25 => "unspec25"
  | 26 => "unspec26"
  | 27 => "unspec27"
  | 28 => "unspec28"
  | 29 => "unspec29"
  | 30 => "unspec30"
  | 31 => "unspec31"
  | _ => "unknown"

/-- `IsSliceSegment` (src/h264_common.cc:97-110). -/
def isSliceSegment (nal_unit_type : Nat) : Bool :=
  match nal_unit_type with
  | 1 | 2 | 3 | 4 | 5 | 19 | 20 => true
  | _ => false

/-- `IsNalUnitTypeReserved` (src/h264_common.cc:112-126). -/
def isNalUnitTypeReserved (nal_unit_type : Nat) : Bool :=
  match nal_unit_type with
  | 16 | 17 | 18 | 21 | 22 | 23 => true
  | _ => false

/-- `IsNalUnitTypeUnspecified` (src/h264_common.cc:128-144). -/
def isNalUnitTypeUnspecified (nal_unit_type : Nat) : Bool :=
  match nal_unit_type with
  | 24 | 25 | 26 | 27 | 28 | 29 | 30 | 31 => true
  | _ => false

/-- `GetNalUnitType` (src/h264_nal_unit_header_parser.cc:32-42) on the array `bytes`: `none` when it returns false, otherwise the
value given to `naluType`.  The bytes are read as they are, without `UnescapeRbsp`. -/
def getNalUnitType (nd : Bool) (bytes : List UInt8) (cnt : Nat) : Res (Option Nat × Nat) := do
  let b ← Buf.new nd bytes
  let (h, s) ← (run nd parseNalHeader ⟨b, cnt⟩).res
  match h with
  | none => pure (none, s.cnt)
  | some h => pure (some h.nal_unit_type, s.cnt)

/-! ### The `(data, length)` overloads -/

/-- The text shared by the overloads below: `UnescapeRbsp`, a `BitBuffer` on the result, and the `BitBuffer*` overload `p`
(e.g. src/h264_pps_parser.cc:24-29). -/
def progData {α : Type} (nd : Bool) (p : Prog α) (data : List UInt8) (off length cnt : Nat) : Res (Option α × Nat) := do
  let bytes ← unescapeRbsp data off length
  let b ← Buf.new nd bytes
  let (x, s) ← (run nd p ⟨b, cnt⟩).res
  pure (x, s.cnt)

section
variable (nd : Bool) (data : List UInt8) (off length : Nat)

/-- `ParseNalUnitHeader(data, length)` (src/h264_nal_unit_header_parser.cc:23-30). -/
def parseNalHeaderData (cnt : Nat) : Res (Option NalHeader × Nat) := progData nd parseNalHeader data off length cnt

/-- `ParseNalUnitHeaderSvcExtension(data, length)` (src/h264_nal_unit_header_svc_extension_parser.cc:23-31). -/
def parseSvcHeaderExtData (cnt : Nat) : Res (Option SvcHeaderExt × Nat) := progData nd parseSvcHeaderExt data off length cnt

/-- `ParseHrdParameters(data, length)` (src/h264_hrd_parameters_parser.cc:22-29). -/
def parseHrdData (cnt : Nat) : Res (Option Hrd × Nat) := progData nd parseHrd data off length cnt

/-- `ParseVuiParameters(data, length)` (src/h264_vui_parameters_parser.cc:22-29). -/
def parseVuiData (cnt : Nat) : Res (Option Vui × Nat) := progData nd parseVui data off length cnt

/-- `ParseSpsData(data, length)` (src/h264_sps_parser.cc:25-30). -/
def parseSpsDataData (cnt : Nat) : Res (Option SpsData × Nat) := progData nd parseSpsData data off length cnt

/-- `ParseSps(data, length)` (src/h264_sps_parser.cc:709-714). -/
def parseSpsRbspData (cnt : Nat) : Res (Option SpsData × Nat) := progData nd parseSps data off length cnt

/-- `ParseSpsExtension(data, length)` (src/h264_sps_extension_parser.cc:29-36). -/
def parseSpsExtensionData (cnt : Nat) : Res (Option SpsExt × Nat) := progData nd parseSpsExt data off length cnt

/-- `ParseSpsSvcExtension(data, length, ChromaArrayType)` (src/h264_sps_svc_extension_parser.cc:22-28). -/
def parseSpsSvcExtData (ChromaArrayType cnt : Nat) : Res (Option SpsSvcExt × Nat) :=
  progData nd (parseSpsSvcExt ChromaArrayType) data off length cnt

/-- `ParseSubsetSps(data, length)` (src/h264_subset_sps_parser.cc:29-36). -/
def parseSubsetSpsData (cnt : Nat) : Res (Option SubsetSps × Nat) := progData nd parseSubsetSps data off length cnt

/-- `ParsePps(data, length, chroma_format_idc)` (src/h264_pps_parser.cc:24-29). -/
def parsePpsData (chroma_format_idc cnt : Nat) : Res (Option Pps × Nat) :=
  progData nd (parsePps chroma_format_idc) data off length cnt

/-- `ParseRefPicListModification(data, length, slice_type)` (src/h264_ref_pic_list_modification_parser.cc:23-30). -/
def parseRefPicListModData (slice_type cnt : Nat) : Res (Option RefPicListMod × Nat) :=
  progData nd (parseRefPicListMod slice_type) data off length cnt

/-- `ParsePredWeightTable(data, length, chroma_array_type, slice_type, num_ref_idx_l0_active_minus1,
num_ref_idx_l1_active_minus1)` (src/h264_pred_weight_table_parser.cc:23-33). -/
def parsePredWeightTableData (chroma_array_type slice_type num_ref_idx_l0_active_minus1 num_ref_idx_l1_active_minus1 cnt : Nat) :
    Res (Option PredWeightTable × Nat) :=
  progData nd (parsePredWeightTable chroma_array_type slice_type num_ref_idx_l0_active_minus1 num_ref_idx_l1_active_minus1)
    data off length cnt

/-- `ParseDecRefPicMarking(data, length, IdrPicFlag)` (src/h264_dec_ref_pic_marking_parser.cc:22-29). -/
def parseDecRefPicMarkingData (IdrPicFlag cnt : Nat) : Res (Option DecRefPicMarking × Nat) :=
  progData nd (parseDecRefPicMarking IdrPicFlag) data off length cnt

/-- `ParsePrefixNalUnitSvc(data, length, nal_ref_idc, use_ref_base_pic_flag, idr_flag)`
(src/h264_prefix_nal_unit_parser.cc:25-33). -/
def parsePrefixSvcData (nal_ref_idc use_ref_base_pic_flag idr_flag cnt : Nat) : Res (Option PrefixSvc × Nat) :=
  progData nd (parsePrefixSvc nal_ref_idc use_ref_base_pic_flag idr_flag) data off length cnt

/-- `ParsePrefixNalUnitRbsp(data, length, svc_extension_flag, nal_ref_idc, use_ref_base_pic_flag, idr_flag)`
(src/h264_prefix_nal_unit_parser.cc:100-109). -/
def parsePrefixRbspData (svc_extension_flag nal_ref_idc use_ref_base_pic_flag idr_flag cnt : Nat) : Res (Option PrefixRbsp × Nat) :=
  progData nd (parsePrefixRbsp svc_extension_flag nal_ref_idc use_ref_base_pic_flag idr_flag) data off length cnt

/-- `ParseSliceHeader(data, length, nal_ref_idc, nal_unit_type, bitstream_parser_state)` (src/h264_slice_header_parser.cc:30-40). -/
def parseSliceHeaderData (nal_ref_idc nal_unit_type : Nat) (σ : Store) (cnt : Nat) : Res (Option SliceHeader × Nat) :=
  progData nd (parseSliceHeader σ nal_ref_idc nal_unit_type) data off length cnt

/-- `ParseSliceLayerWithoutPartitioningRbsp(data, length, nal_ref_idc, nal_unit_type, bitstream_parser_state)`
(src/h264_slice_layer_without_partitioning_rbsp_parser.cc:27-38). -/
def parseSliceLayerData (nal_ref_idc nal_unit_type : Nat) (σ : Store) (cnt : Nat) : Res (Option SliceLayer × Nat) :=
  progData nd (parseSliceLayer σ nal_ref_idc nal_unit_type) data off length cnt

/-- `ParseSliceHeaderInScalableExtension(data, length, nal_unit_header, bitstream_parser_state)`
(src/h264_slice_header_in_scalable_extension_parser.cc:33-44). -/
def parseScalHeaderData (h : NalHeader) (σ : Store) (cnt : Nat) : Res (Option ScalHeader × Nat) :=
  progData nd (parseScalHeader σ h) data off length cnt

/-- `ParseSliceLayerExtensionRbsp(data, length, nal_unit_header, bitstream_parser_state)`
(src/h264_slice_layer_extension_rbsp_parser.cc:27-37). -/
def parseSliceLayerExtData (h : NalHeader) (σ : Store) (cnt : Nat) : Res (Option SliceLayerExt × Nat) :=
  progData nd (parseSliceLayerExt σ h) data off length cnt

end

end H264

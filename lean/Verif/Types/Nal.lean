import Verif.Types.Store
import Verif.Types.Scalable
import Verif.Model.Checksum

/-
State structures of the NAL unit level parsers.
-/

namespace H264

/-- `SliceLayerWithoutPartitioningRbspState` (include/h264_slice_layer_without_partitioning_rbsp_parser.h:24-57). -/
structure SliceLayer where
  nal_ref_idc : Nat := 0
  nal_unit_type : Nat := 0
  slice_header : Option SliceHeader := none
  deriving DecidableEq, Repr

/-- `SliceLayerExtensionRbspState` (include/h264_slice_layer_extension_rbsp_parser.h:26-60). -/
structure SliceLayerExt where
  svc_extension_flag : Nat := 0
  avc_3d_extension_flag : Nat := 0
  nal_ref_idc : Nat := 0
  nal_unit_type : Nat := 0
  slice_header_in_scalable_extension : Option ScalHeader := none
  slice_header : Option SliceHeader := none
  deriving DecidableEq, Repr

/-- `PrefixNalUnitSvcState` (include/h264_prefix_nal_unit_parser.h:24-47). -/
structure PrefixSvc where
  nal_ref_idc : Nat := 0
  use_ref_base_pic_flag : Nat := 0
  idr_flag : Nat := 0
  store_ref_base_pic_flag : Nat := 0
  additional_prefix_nal_unit_extension_flag : Nat := 0
  additional_prefix_nal_unit_extension_data_flag : Nat := 0
  deriving DecidableEq, Repr

/-- `PrefixNalUnitRbspState` (include/h264_prefix_nal_unit_parser.h:63-85). -/
structure PrefixRbsp where
  svc_extension_flag : Nat := 0
  nal_ref_idc : Nat := 0
  use_ref_base_pic_flag : Nat := 0
  idr_flag : Nat := 0
  prefix_nal_unit_svc : Option PrefixSvc := none
  deriving DecidableEq, Repr

/-- `NalUnitPayloadState` (include/h264_nal_unit_payload_parser.h:29-63): one pointer for each kind of payload. -/
structure Payload where
  sps : Option SpsData := none
  pps : Option Pps := none
  slice_layer_without_partitioning_rbsp : Option SliceLayer := none
  prefix_nal_unit : Option PrefixRbsp := none
  subset_sps : Option SubsetSps := none
  slice_layer_extension_rbsp : Option SliceLayerExt := none
  deriving DecidableEq, Repr

/-- `ParsingOptions` (include/h264_common.h:155-171). -/
structure ParsingOptions where
  add_offset : Bool := true
  add_length : Bool := true
  add_parsed_length : Bool := true
  add_checksum : Bool := true
  add_resolution : Bool := true
  deriving DecidableEq, Repr

/-- `NalUnitState` (include/h264_nal_unit_parser.h:24-51).  `nal_unit_header` and `nal_unit_payload` are never null in a
state that is returned (src/h264_nal_unit_parser.cc:70-83). -/
structure NalUnit where
  offset : Nat := 0
  length : Nat := 0
  parsed_length : Nat := 0
  checksum : Option NaluChecksum := none
  nal_unit_header : NalHeader
  nal_unit_payload : Payload
  deriving DecidableEq, Repr

/-- `BitstreamState` (include/h264_bitstream_parser.h:25-51). -/
structure Bitstream where
  parsing_options : ParsingOptions := {}
  nal_units : List NalUnit := []
  deriving DecidableEq, Repr

end H264

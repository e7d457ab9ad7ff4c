import Verif.Model.Rtp

/-
How much is stored in what the parsers return (C73), and in the parser state (C74): the number of elements of all the vectors in it.
Everything else a returned object consists of has a fixed size.
-/

namespace H264.Spec

/-- What a pointer points to, if anything. -/
def pointee {α : Type} (f : α → Nat) : Option α → Nat
  | some x => f x
  | none => 0

/-- The vectors of `HrdParametersState` (include/h264_hrd_parameters_parser.h:44-46). -/
def hrdEntries (h : Hrd) : Nat := h.bit_rate_value_minus1.length + h.cpb_size_value_minus1.length + h.cbr_flag.length

/-- The vectors of the two `HrdParametersState` of a `VuiParametersState`. -/
def vuiEntries (v : Vui) : Nat := pointee hrdEntries v.nal_hrd_parameters + pointee hrdEntries v.vcl_hrd_parameters

/-- The vectors filled by scaling lists (include/h264_sps_parser.h:94-99, include/h264_pps_parser.h:93-98); UseDefaultScalingMatrix8x8Flag
is always empty. -/
def scalEntries (s : Scal) : Nat :=
  s.scaling_list_present_flag.length + s.ScalingList4x4.length + s.UseDefaultScalingMatrix4x4Flag.length + s.ScalingList8x8.length

/-- The vectors of `SpsDataState`. -/
def spsEntries (s : SpsData) : Nat := scalEntries s.toScal + s.offset_for_ref_frame.length + pointee vuiEntries s.vui_parameters

/-- The vectors of `PpsState`. -/
def ppsEntries (p : Pps) : Nat :=
  p.run_length_minus1.length + p.top_left.length + p.bottom_right.length + p.slice_group_id.length + scalEntries p.toScal

/-- The vectors of `SubsetSpsState`. -/
def subsetEntries (s : SubsetSps) : Nat := spsEntries s.seq_parameter_set_data

/-- The vectors of `RefPicListModificationState`. -/
def modEntries (m : RefPicListMod) : Nat :=
  m.modification_of_pic_nums_idc.length + m.abs_diff_pic_num_minus1.length + m.long_term_pic_num.length

/-- The vectors of `DecRefPicMarkingState`. -/
def markingEntries (m : DecRefPicMarking) : Nat :=
  m.memory_management_control_operation.length + m.difference_of_pic_nums_minus1.length + m.long_term_pic_num.length +
  m.long_term_frame_idx.length + m.max_long_term_frame_idx_plus1.length

/-- The vectors of one list of `PredWeightTableState`; the chroma weights and offsets are vectors of vectors. -/
def weightEntries (chroma_array_type : Nat) (l : List Weight) : Nat :=
  (lumaFlags l).length + (lumaWeights l).length + (lumaOffsets l).length + (chromaFlags chroma_array_type l).length +
  (chromaWeights l).flatten.length + (chromaOffsets l).flatten.length

/-- The vectors of `PredWeightTableState`. -/
def tableEntries (t : PredWeightTable) : Nat := weightEntries t.chroma_array_type t.l0 + weightEntries t.chroma_array_type t.l1

/-- The vectors of `SliceHeaderState` and of what it points to. -/
def sliceEntries (h : SliceHeader) : Nat :=
  h.delta_pic_order_cnt.length + pointee modEntries h.ref_pic_list_modification + pointee tableEntries h.pred_weight_table +
  pointee markingEntries h.dec_ref_pic_marking

/-- The vectors of `SliceHeaderInScalableExtensionState` and of what it points to. -/
def scalableEntries (h : ScalHeader) : Nat :=
  h.pic.delta_pic_order_cnt.length + pointee modEntries h.ref.ref_pic_list_modification +
  pointee tableEntries h.ref.pred_weight_table + pointee markingEntries h.ref.dec_ref_pic_marking

/-- The vectors of what a `NalUnitPayloadState` points to. -/
def payloadEntries (p : Payload) : Nat :=
  pointee spsEntries p.sps + pointee ppsEntries p.pps +
  pointee (fun l => pointee sliceEntries l.slice_header) p.slice_layer_without_partitioning_rbsp +
  pointee subsetEntries p.subset_sps +
  pointee (fun l => pointee scalableEntries l.slice_header_in_scalable_extension + pointee sliceEntries l.slice_header)
    p.slice_layer_extension_rbsp

/-- The vectors of a `BitstreamState`: the vector of NAL units, and the vectors of each of them. -/
def bitstreamEntries (b : Bitstream) : Nat :=
  b.nal_units.length + (b.nal_units.map fun n => payloadEntries n.nal_unit_payload).sum

/-- The vectors of an `RtpState`: those of the single NAL unit or of the fragment; for a STAP-A, the vectors of sizes, headers and payloads
(include/h264_rtp_stapa_parser.h:40-46), and the vectors of each payload. -/
def rtpEntries (r : Rtp) : Nat :=
  pointee (fun x => payloadEntries x.nal_unit_payload) r.rtp_single +
  pointee (fun x => 3 * x.nal_units.length + (x.nal_units.map fun u => payloadEntries u.2.2).sum) r.rtp_stapa +
  pointee (fun x => pointee payloadEntries x.nal_unit_payload) r.rtp_fua

end H264.Spec

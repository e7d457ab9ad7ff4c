import Verif.Model.Common

/-
Model of the parser state as its type allows it, null pointers included, and of the functions that look into it.  The parser itself
never stores a null pointer (C36), but the three maps of `H264BitstreamParserState` are public, and a program can fill them.
-/

namespace H264
open Prog

/-- `H264BitstreamParserState` (include/h264_bitstream_parser_state.h:20-47) with the pointers in it.  Outermost: whether the map has
the key.  Then: whether the `shared_ptr` is null.  For an SPS and a subset SPS, innermost: whether `sps_data`
(include/h264_sps_parser.h:170) or `seq_parameter_set_data` (include/h264_subset_sps_parser.h:39-40) is null.  Of a subset SPS
only the members that slice headers use are kept. -/
structure RawStore where
  sps : Nat → Option (Option (Option SpsData)) := fun _ => none
  pps : Nat → Option (Option Pps) := fun _ => none
  subset_sps : Nat → Option (Option (Option SpsData × Option SpsSvcExt)) := fun _ => none

/-- `ParseSliceHeader(BitBuffer*, ...)` (src/h264_slice_header_parser.cc:42-503) with null pointers in the state: they are dereferenced
at lines 117 (`pps->`), 127 (`sps->`) and 130 (`sps_data->`). -/
def parseSliceHeaderRaw (ρ : RawStore) (nal_ref_idc nal_unit_type : Nat) : Prog SliceHeader := do
  let x ← parseSliceStart
  match ρ.pps x.2.2 with
  | none => null
  | some none => .bad .nullDeref
  | some (some p) =>
    match ρ.sps p.seq_parameter_set_id with
    | none => null
    | some none => .bad .nullDeref
    | some (some none) => .bad .nullDeref
    | some (some (some s)) => parseSliceBody nal_ref_idc nal_unit_type s p x

/-- `ParseSliceHeaderInScalableExtension(BitBuffer*, ...)` (src/h264_slice_header_in_scalable_extension_parser.cc:46-648) with null
pointers in the state: they are dereferenced at lines 129 (`pps->`), 141 (`subset_sps->`) and 150 (`sps_data->`, after the test of
seq_parameter_set_svc_extension at 143). -/
def parseScalHeaderRaw (ρ : RawStore) (h : NalHeader) : Prog ScalHeader := do
  let x ← parseSliceStart
  match ρ.pps x.2.2 with
  | none => null
  | some none => .bad .nullDeref
  | some (some p) =>
    match ρ.subset_sps p.seq_parameter_set_id with
    | none => null
    | some none => .bad .nullDeref
    | some (some (_, none)) => null
    | some (some (none, some _)) => .bad .nullDeref
    | some (some (some s, some e)) => do
      let cp ← opt (s.separate_colour_plane_flag = 1) 0 (u 2)
      let fn ← u (add32 s.log2_max_frame_num_minus4 4)
      let fp ← parseFieldPic s.frame_mbs_only_flag
      match h.svc_extension with
      | none => null
      | some n => parseScalBody h.nal_ref_idc h.nal_unit_type s p e n x cp fn fp

/-- A parser state without null pointers, with the pointers in it. -/
def Store.raw (σ : Store) : RawStore where
  sps k := (σ.sps k).map fun s => some (some s)
  pps k := (σ.pps k).map some
  subset_sps k := (σ.subset_sps k).map fun s => some (some s.seq_parameter_set_data, s.seq_parameter_set_svc_extension)

end H264

import Verif.Model.Slice
import Verif.Model.Sps
import Verif.Loop

/-
Model of the SPS SVC extension, subset SPS and SPS extension parsers.
-/

namespace H264
open Prog

/-- src/h264_sps_svc_extension_parser.cc:91-108: the four offsets. -/
def parseFourSe : Prog (Int × Int × Int × Int) := do
  let l ← se
  let t ← se
  let r ← se
  let b ← se
  pure (l, t, r, b)

/-- src/h264_sps_svc_extension_parser.cc:72-83: chroma phases of the reference layer (also
src/h264_slice_header_in_scalable_extension_parser.cc:534-549). -/
def parseRefChroma (cat : Nat) : Prog (Nat × Nat) := opt (cat > 0) (0, 0) do
  let x ← u 1
  let y ← u 2
  pure (x, y)

/-- `ParseSpsSvcExtension(BitBuffer*, ChromaArrayType)` (src/h264_sps_svc_extension_parser.cc:30-131). -/
def parseSpsSvcExt (ChromaArrayType : Nat) : Prog SpsSvcExt := do
  let inter_layer_deblocking_filter_control_present_flag ← u 1
  let extended_spatial_scalability_idc ← u 2
  let chroma_phase_x_plus1_flag ← opt (ChromaArrayType = 1 ∨ ChromaArrayType = 2) 0 (u 1)
  let chroma_phase_y_plus1 ← opt (ChromaArrayType = 1) 0 (u 2)
  let r ← opt (extended_spatial_scalability_idc = 1) ((0, 0), (0, 0, 0, 0)) do
    let c ← parseRefChroma ChromaArrayType
    let o ← parseFourSe
    pure (c, o)
  let seq_tcoeff_level_prediction_flag ← u 1
  let adaptive_tcoeff_level_prediction_flag ← opt (seq_tcoeff_level_prediction_flag = 1) 0 (u 1)
  let slice_header_restriction_flag ← u 1
  pure {
    ChromaArrayType
    inter_layer_deblocking_filter_control_present_flag, extended_spatial_scalability_idc
    chroma_phase_x_plus1_flag, chroma_phase_y_plus1
    seq_ref_layer_chroma_phase_x_plus1_flag := r.1.1
    seq_ref_layer_chroma_phase_y_plus1 := r.1.2
    seq_scaled_ref_layer_left_offset := r.2.1
    seq_scaled_ref_layer_top_offset := r.2.2.1
    seq_scaled_ref_layer_right_offset := r.2.2.2.1
    seq_scaled_ref_layer_bottom_offset := r.2.2.2.2
    seq_tcoeff_level_prediction_flag, adaptive_tcoeff_level_prediction_flag, slice_header_restriction_flag }

/-- src/h264_subset_sps_parser.cc:52-110: the part that depends on profile_idc, as
(svc extension, svc_vui flag, bit_equal_to_one, mvc_vui flag).  The extensions of Annexes H, I and J, and the VUI
extensions, are skipped by the code without reading anything. -/
def parseSubsetExt (profile_idc cat : Nat) : Prog (Option SpsSvcExt × Nat × Nat × Nat) :=
  if profile_idc = 83 ∨ profile_idc = 86 then do
    let e ← parseSpsSvcExt cat
    let f ← u 1
    pure (some e, f, 0, 0)
  else if profile_idc = 118 ∨ profile_idc = 128 ∨ profile_idc = 134 then do
    let b ← u 1
    let f ← u 1
    pure (none, 0, b, f)
  else if profile_idc = 138 ∨ profile_idc = 135 then do
    let b ← u 1
    pure (none, 0, b, 0)
  else if profile_idc = 139 then do
    let b ← u 1
    pure (none, 0, b, 0)
  else pure (none, 0, 0, 0)

/-- src/h264_subset_sps_parser.cc:118-124: one iteration of the loop, `none` when `more_rbsp_data` is false. -/
def parseExt2Step : Prog (Option Nat) := do
  let more ← moreRbspData
  if more = true then do
    let v ← u 1
    pure (some v)
  else pure none

/-- src/h264_subset_sps_parser.cc:113-125: the flag and the last data flag read. -/
def parseExt2 : Prog (Nat × Nat) := do
  let f ← u 1
  let l ← opt (f = 1) [] parseExt2Step.loop
  pure (f, l.getLastD 0)

/-- `ParseSubsetSps(BitBuffer*)` (src/h264_subset_sps_parser.cc:38-130).  The result of `rbsp_trailing_bits` is
ignored. -/
def parseSubsetSps : Prog SubsetSps := do
  let d ← parseSpsData
  let e ← parseSubsetExt d.profile_idc (getChromaArrayType d)
  let x ← parseExt2
  let _ ← rbspTrailingBits.attempt
  pure { seq_parameter_set_data := d, seq_parameter_set_svc_extension := e.1, svc_vui_parameters_present_flag := e.2.1,
         bit_equal_to_one := e.2.2.1, mvc_vui_parameters_present_flag := e.2.2.2,
         additional_extension2_flag := x.1, additional_extension2_data_flag := x.2 }

/-- src/h264_sps_extension_parser.cc:67-111: (bit_depth_aux_minus8, alpha_incr_flag, alpha_opaque_value,
alpha_transparent_value). -/
def parseAlpha (aux_format_idc : Nat) : Prog (Nat × Nat × Nat × Nat) := opt (aux_format_idc ≠ 0) (0, 0, 0, 0) do
  let d ← ueIn 0 4
  let f ← u 1
  let o ← u (d + 9)
  let t ← u (d + 9)
  pure (d, f, o, t)

/-- The part of `ParseSpsExtension` (src/h264_sps_extension_parser.cc:39-117) before the trailing bits. -/
def parseSpsExtData : Prog SpsExt := do
  let seq_parameter_set_id ← ueIn 0 31
  let aux_format_idc ← ue
  let a ← parseAlpha aux_format_idc
  let additional_extension_flag ← u 1
  pure { seq_parameter_set_id, aux_format_idc, bit_depth_aux_minus8 := a.1, alpha_incr_flag := a.2.1,
         alpha_opaque_value := a.2.2.1, alpha_transparent_value := a.2.2.2, additional_extension_flag }

/-- `ParseSpsExtension(BitBuffer*)` (src/h264_sps_extension_parser.cc:39-121).  The result of `rbsp_trailing_bits` is
ignored. -/
def parseSpsExt : Prog SpsExt := do
  let e ← parseSpsExtData
  let _ ← rbspTrailingBits.attempt
  pure e

end H264

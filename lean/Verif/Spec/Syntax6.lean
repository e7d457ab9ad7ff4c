import Verif.Spec.Syntax5

/-
Specification: seq_parameter_set_svc_extension() (G.7.3.2.1.4), subset_seq_parameter_set_rbsp() (7.3.2.1.3) and
seq_parameter_set_extension_rbsp() (7.3.2.1.2).
-/

namespace H264

/-- seq_parameter_set_svc_extension(). -/
def encSpsSvcExt (e : SpsSvcExt) : List Bool :=
  encU 1 e.inter_layer_deblocking_filter_control_present_flag ++ encU 2 e.extended_spatial_scalability_idc ++
  encIf (e.ChromaArrayType = 1 ∨ e.ChromaArrayType = 2) (encU 1 e.chroma_phase_x_plus1_flag) ++
  encIf (e.ChromaArrayType = 1) (encU 2 e.chroma_phase_y_plus1) ++
  encIf (e.extended_spatial_scalability_idc = 1)
    (encIf (e.ChromaArrayType > 0)
      (encU 1 e.seq_ref_layer_chroma_phase_x_plus1_flag ++ encU 2 e.seq_ref_layer_chroma_phase_y_plus1) ++
     encSE e.seq_scaled_ref_layer_left_offset ++ encSE e.seq_scaled_ref_layer_top_offset ++
     encSE e.seq_scaled_ref_layer_right_offset ++ encSE e.seq_scaled_ref_layer_bottom_offset) ++
  encU 1 e.seq_tcoeff_level_prediction_flag ++
  encIf (e.seq_tcoeff_level_prediction_flag = 1) (encU 1 e.adaptive_tcoeff_level_prediction_flag) ++
  encU 1 e.slice_header_restriction_flag

/-- Ranges, and 0 for what is not coded. -/
structure SpsSvcExt.Ok (cat : Nat) (e : SpsSvcExt) : Prop where
  cat : e.ChromaArrayType = cat
  deblocking : e.inter_layer_deblocking_filter_control_present_flag < 2
  ess : e.extended_spatial_scalability_idc < 4
  phase_x : if e.ChromaArrayType = 1 ∨ e.ChromaArrayType = 2 then e.chroma_phase_x_plus1_flag < 2
    else e.chroma_phase_x_plus1_flag = 0
  phase_y : if e.ChromaArrayType = 1 then e.chroma_phase_y_plus1 < 4 else e.chroma_phase_y_plus1 = 0
  ref_phase : if e.extended_spatial_scalability_idc = 1 ∧ e.ChromaArrayType > 0
    then e.seq_ref_layer_chroma_phase_x_plus1_flag < 2 ∧ e.seq_ref_layer_chroma_phase_y_plus1 < 4
    else e.seq_ref_layer_chroma_phase_x_plus1_flag = 0 ∧ e.seq_ref_layer_chroma_phase_y_plus1 = 0
  offsets : if e.extended_spatial_scalability_idc = 1
    then seRange e.seq_scaled_ref_layer_left_offset ∧ seRange e.seq_scaled_ref_layer_top_offset ∧
      seRange e.seq_scaled_ref_layer_right_offset ∧ seRange e.seq_scaled_ref_layer_bottom_offset
    else e.seq_scaled_ref_layer_left_offset = 0 ∧ e.seq_scaled_ref_layer_top_offset = 0 ∧
      e.seq_scaled_ref_layer_right_offset = 0 ∧ e.seq_scaled_ref_layer_bottom_offset = 0
  tcoeff : e.seq_tcoeff_level_prediction_flag < 2
  adaptive : if e.seq_tcoeff_level_prediction_flag = 1 then e.adaptive_tcoeff_level_prediction_flag < 2
    else e.adaptive_tcoeff_level_prediction_flag = 0
  restriction : e.slice_header_restriction_flag < 2

/-- subset_seq_parameter_set_rbsp() up to the trailing bits.  The parts of it the library does not know are kept as bit
strings. -/
structure SubsetSyn where
  sps : SpsSyn
  svc : SpsSvcExt := {}
  svc_vui_parameters_present_flag : Nat := 0
  /-- svc_vui_parameters_extension() -/
  svc_vui : List Bool := []
  bit_equal_to_one : Nat := 0
  /-- seq_parameter_set_mvc_extension(), or the extensions of Annexes I and J. -/
  mvc : List Bool := []
  mvc_vui_parameters_present_flag : Nat := 0
  /-- mvc_vui_parameters_extension() -/
  mvc_vui : List Bool := []
  additional_extension2_flag : Nat := 0
  /-- additional_extension2_data_flag, in order -/
  data : List Nat := []

/-- Scalable profiles. -/
def svcProfile (p : Nat) : Prop := p = 83 ∨ p = 86
/-- Multiview profiles. -/
def mvcProfile (p : Nat) : Prop := p = 118 ∨ p = 128 ∨ p = 134
/-- 3D and depth profiles. -/
def mvcdProfile (p : Nat) : Prop := p = 138 ∨ p = 135 ∨ p = 139
instance (p : Nat) : Decidable (svcProfile p) := inferInstanceAs (Decidable (_ ∨ _))
instance (p : Nat) : Decidable (mvcProfile p) := inferInstanceAs (Decidable (_ ∨ _))
instance (p : Nat) : Decidable (mvcdProfile p) := inferInstanceAs (Decidable (_ ∨ _))

/-- The part that depends on profile_idc. -/
def encSubsetExt (x : SubsetSyn) : List Bool :=
  encIf (svcProfile x.sps.head.profile_idc)
    (encSpsSvcExt x.svc ++ encU 1 x.svc_vui_parameters_present_flag ++
     encIf (x.svc_vui_parameters_present_flag = 1) x.svc_vui) ++
  encIf (mvcProfile x.sps.head.profile_idc)
    (encU 1 x.bit_equal_to_one ++ x.mvc ++ encU 1 x.mvc_vui_parameters_present_flag ++
     encIf (x.mvc_vui_parameters_present_flag = 1) x.mvc_vui) ++
  encIf (mvcdProfile x.sps.head.profile_idc) (encU 1 x.bit_equal_to_one ++ x.mvc)

/-- subset_seq_parameter_set_rbsp() up to the trailing bits. -/
def encSubset (x : SubsetSyn) : List Bool :=
  encSps x.sps ++ encSubsetExt x ++ encU 1 x.additional_extension2_flag ++ x.data.flatMap (encU 1)

/-- Well-formed, in a profile the library knows: scalable without VUI extension, or no extension at all. -/
structure SubsetSyn.Ok (x : SubsetSyn) : Prop where
  sps : x.sps.Ok
  known : ¬ mvcProfile x.sps.head.profile_idc ∧ ¬ mvcdProfile x.sps.head.profile_idc
  svc : svcProfile x.sps.head.profile_idc →
    x.svc.Ok (chromaArrayType x.sps.head) ∧ x.svc_vui_parameters_present_flag = 0
  ext2 : x.additional_extension2_flag < 2
  data : if x.additional_extension2_flag = 1 then ∀ v ∈ x.data, v < 2 else x.data = []

/-- What a parser is to return. -/
def SubsetSyn.state (x : SubsetSyn) : SubsetSps :=
  { seq_parameter_set_data := x.sps.state
    seq_parameter_set_svc_extension := if svcProfile x.sps.head.profile_idc then some x.svc else none
    additional_extension2_flag := x.additional_extension2_flag
    additional_extension2_data_flag := x.data.getLastD 0 }

/-- seq_parameter_set_extension_rbsp() up to the trailing bits. -/
def encSpsExt (e : SpsExt) : List Bool :=
  encUE e.seq_parameter_set_id ++ encUE e.aux_format_idc ++
  encIf (e.aux_format_idc ≠ 0)
    (encUE e.bit_depth_aux_minus8 ++ encU 1 e.alpha_incr_flag ++ encU (e.bit_depth_aux_minus8 + 9) e.alpha_opaque_value ++
     encU (e.bit_depth_aux_minus8 + 9) e.alpha_transparent_value) ++
  encU 1 e.additional_extension_flag

/-- Ranges, and 0 for what is not coded.  aux_format_idc, which the standard restricts to 0..3, is only bounded by its
coding. -/
structure SpsExt.Ok (e : SpsExt) : Prop where
  seq_parameter_set_id : e.seq_parameter_set_id ≤ 31
  aux_format_idc : ueRange e.aux_format_idc
  alpha : if e.aux_format_idc ≠ 0
    then e.bit_depth_aux_minus8 ≤ 4 ∧ e.alpha_incr_flag < 2 ∧ e.alpha_opaque_value < 2 ^ (e.bit_depth_aux_minus8 + 9) ∧
      e.alpha_transparent_value < 2 ^ (e.bit_depth_aux_minus8 + 9)
    else e.bit_depth_aux_minus8 = 0 ∧ e.alpha_incr_flag = 0 ∧ e.alpha_opaque_value = 0 ∧ e.alpha_transparent_value = 0
  additional_extension_flag : e.additional_extension_flag < 2

/-- A stored subset SPS in range. -/
structure SubsetSps.InRange (s : SubsetSps) : Prop where
  sps : s.seq_parameter_set_data.InRange
  svc : if svcProfile s.seq_parameter_set_data.profile_idc
    then ∃ e, s.seq_parameter_set_svc_extension = some e ∧ e.Ok (chromaArrayType s.seq_parameter_set_data.toSpsHead)
    else s.seq_parameter_set_svc_extension = none

/-- A store in which everything is in range and under its own id. -/
structure Store.Valid (σ : Store) : Prop where
  sps : ∀ k s, σ.sps k = some s → s.InRange ∧ s.seq_parameter_set_id = k
  pps : ∀ k p, σ.pps k = some p → p.InRange ∧ p.pic_parameter_set_id = k
  subset_sps : ∀ k s, σ.subset_sps k = some s → s.InRange ∧ s.seq_parameter_set_data.seq_parameter_set_id = k

theorem Store.Valid.inRange {σ : Store} (h : σ.Valid) : σ.InRange :=
  ⟨fun k s e => (h.sps k s e).1, fun k p e => (h.pps k p e).1⟩

end H264

import Verif.Spec.Syntax4
import Verif.Types.Store

/-
Specification: slice_header() (7.3.3) relative to an SPS `s` and a PPS `p`.  `slice_type % 5` is 0 for P, 1 for B, 2 for
I, 3 for SP and 4 for SI.
-/

namespace H264

/-- Ceil( Log2( PicSizeInMapUnits ÷ SliceGroupChangeRate + 1 ) ), equation 7-21; see `C34_change_cycle_bits`. -/
def changeCycleBits (P R : Nat) : Nat := Nat.log2 ((P + R - 1) / R) + 1

/-- The change cycle width for these parameter sets. -/
def cycleBits (s : SpsData) (p : Pps) : Nat :=
  changeCycleBits ((s.pic_width_in_mbs_minus1 + 1) * (s.pic_height_in_map_units_minus1 + 1))
    (p.slice_group_change_rate_minus1 + 1)

/-- slice_group_change_cycle is present. -/
def changeCyclePresent (p : Pps) : Prop :=
  p.num_slice_groups_minus1 > 0 ∧ 3 ≤ p.slice_group_map_type ∧ p.slice_group_map_type ≤ 5
instance (p : Pps) : Decidable (changeCyclePresent p) := inferInstanceAs (Decidable (_ ∧ _))

/-- pred_weight_table() is present. -/
def weightsPresent (p : Pps) (slice_type : Nat) : Prop :=
  (p.weighted_pred_flag = 1 ∧ (slice_type % 5 = 0 ∨ slice_type % 5 = 3)) ∨
  (p.weighted_bipred_idc = 1 ∧ slice_type % 5 = 1)
instance (p : Pps) (t : Nat) : Decidable (weightsPresent p t) := inferInstanceAs (Decidable (_ ∨ _))

/-- slice_header(). -/
def encSliceHeader (s : SpsData) (p : Pps) (h : SliceHeader) : List Bool :=
  encUE h.first_mb_in_slice ++ encUE h.slice_type ++ encUE h.pic_parameter_set_id ++
  encIf (s.separate_colour_plane_flag = 1) (encU 2 h.colour_plane_id) ++
  encU (s.log2_max_frame_num_minus4 + 4) h.frame_num ++
  encIf (s.frame_mbs_only_flag = 0) (encU 1 h.field_pic_flag ++ encIf (h.field_pic_flag = 1) (encU 1 h.bottom_field_flag)) ++
  encIf (h.nal_unit_type = 5) (encUE h.idr_pic_id) ++
  encIf (s.pic_order_cnt_type = 0)
    (encU (s.log2_max_pic_order_cnt_lsb_minus4 + 4) h.pic_order_cnt_lsb ++
     encIf (p.bottom_field_pic_order_in_frame_present_flag = 1 ∧ h.field_pic_flag = 0)
       (encSE h.delta_pic_order_cnt_bottom)) ++
  encIf (s.pic_order_cnt_type = 1 ∧ s.delta_pic_order_always_zero_flag = 0) (h.delta_pic_order_cnt.flatMap encSE) ++
  encIf (p.redundant_pic_cnt_present_flag = 1) (encUE h.redundant_pic_cnt) ++
  encIf (h.slice_type % 5 = 1) (encU 1 h.direct_spatial_mv_pred_flag) ++
  encIf (h.slice_type % 5 = 0 ∨ h.slice_type % 5 = 3 ∨ h.slice_type % 5 = 1)
    (encU 1 h.num_ref_idx_active_override_flag ++
     encIf (h.num_ref_idx_active_override_flag = 1)
       (encUE h.num_ref_idx_l0_active_minus1 ++ encIf (h.slice_type % 5 = 1) (encUE h.num_ref_idx_l1_active_minus1))) ++
  encOpt encRefPicListMod h.ref_pic_list_modification ++
  encIf (weightsPresent p h.slice_type) (encOpt encPredWeightTable h.pred_weight_table) ++
  encIf (h.nal_ref_idc ≠ 0) (encOpt encDecRefPicMarking h.dec_ref_pic_marking) ++
  encIf (p.entropy_coding_mode_flag = 1 ∧ h.slice_type % 5 ≠ 2 ∧ h.slice_type % 5 ≠ 4) (encUE h.cabac_init_idc) ++
  encSE h.slice_qp_delta ++
  encIf (h.slice_type % 5 = 3 ∨ h.slice_type % 5 = 4)
    (encIf (h.slice_type % 5 = 3) (encU 1 h.sp_for_switch_flag) ++ encSE h.slice_qs_delta) ++
  encIf (p.deblocking_filter_control_present_flag = 1)
    (encUE h.disable_deblocking_filter_idc ++
     encIf (h.disable_deblocking_filter_idc ≠ 1)
       (encSE h.slice_alpha_c0_offset_div2 ++ encSE h.slice_beta_offset_div2)) ++
  encIf (changeCyclePresent p) (encU (cycleBits s p) h.slice_group_change_cycle)

/-- The members the header copies from its context. -/
structure SliceHeader.Copied (ref type : Nat) (s : SpsData) (p : Pps) (h : SliceHeader) : Prop where
  nal_ref_idc : h.nal_ref_idc = ref
  nal_unit_type : h.nal_unit_type = type
  separate_colour_plane_flag : h.separate_colour_plane_flag = s.separate_colour_plane_flag
  log2_max_frame_num_minus4 : h.log2_max_frame_num_minus4 = s.log2_max_frame_num_minus4
  frame_mbs_only_flag : h.frame_mbs_only_flag = s.frame_mbs_only_flag
  pic_order_cnt_type : h.pic_order_cnt_type = s.pic_order_cnt_type
  bottom : h.bottom_field_pic_order_in_frame_present_flag = p.bottom_field_pic_order_in_frame_present_flag
  always_zero : h.delta_pic_order_always_zero_flag = s.delta_pic_order_always_zero_flag
  redundant : h.redundant_pic_cnt_present_flag = p.redundant_pic_cnt_present_flag
  weighted_pred_flag : h.weighted_pred_flag = p.weighted_pred_flag
  weighted_bipred_idc : h.weighted_bipred_idc = p.weighted_bipred_idc
  entropy : h.entropy_coding_mode_flag = p.entropy_coding_mode_flag
  deblocking : h.deblocking_filter_control_present_flag = p.deblocking_filter_control_present_flag
  num_slice_groups_minus1 : h.num_slice_groups_minus1 = p.num_slice_groups_minus1
  slice_group_map_type : h.slice_group_map_type = p.slice_group_map_type
  width : h.pic_width_in_mbs_minus1 = if changeCyclePresent p then s.pic_width_in_mbs_minus1 else 0
  height : h.pic_height_in_map_units_minus1 = if changeCyclePresent p then s.pic_height_in_map_units_minus1 else 0
  rate : h.slice_group_change_rate_minus1 = if changeCyclePresent p then p.slice_group_change_rate_minus1 else 0

/-- Ranges of the coded members, and defaults of those not coded. -/
structure SliceHeader.InRange (s : SpsData) (p : Pps) (h : SliceHeader) : Prop where
  first_mb_in_slice : h.first_mb_in_slice ≤ 139263
  slice_type : h.slice_type ≤ 9
  pic_parameter_set_id : h.pic_parameter_set_id ≤ 255
  colour_plane_id : if s.separate_colour_plane_flag = 1 then h.colour_plane_id < 4 else h.colour_plane_id = 0
  frame_num : h.frame_num < 2 ^ (s.log2_max_frame_num_minus4 + 4)
  field : if s.frame_mbs_only_flag = 0 then h.field_pic_flag < 2 else h.field_pic_flag = 0
  bottom : if s.frame_mbs_only_flag = 0 ∧ h.field_pic_flag = 1 then h.bottom_field_flag < 2 else h.bottom_field_flag = 0
  idr_pic_id : if h.nal_unit_type = 5 then h.idr_pic_id ≤ 65535 else h.idr_pic_id = 0
  lsb : if s.pic_order_cnt_type = 0 then h.pic_order_cnt_lsb < 2 ^ (s.log2_max_pic_order_cnt_lsb_minus4 + 4)
    else h.pic_order_cnt_lsb = 0
  delta_bottom : if s.pic_order_cnt_type = 0 ∧ p.bottom_field_pic_order_in_frame_present_flag = 1 ∧ h.field_pic_flag = 0
    then seRange h.delta_pic_order_cnt_bottom else h.delta_pic_order_cnt_bottom = 0
  delta_length : h.delta_pic_order_cnt.length =
    if s.pic_order_cnt_type = 1 ∧ s.delta_pic_order_always_zero_flag = 0
    then (if p.bottom_field_pic_order_in_frame_present_flag = 1 ∧ h.field_pic_flag = 0 then 2 else 1) else 0
  delta : ∀ v ∈ h.delta_pic_order_cnt, seRange v
  redundant_pic_cnt : if p.redundant_pic_cnt_present_flag = 1 then h.redundant_pic_cnt ≤ 127 else h.redundant_pic_cnt = 0
  direct : if h.slice_type % 5 = 1 then h.direct_spatial_mv_pred_flag < 2 else h.direct_spatial_mv_pred_flag = 0
  override : if h.slice_type % 5 = 0 ∨ h.slice_type % 5 = 3 ∨ h.slice_type % 5 = 1
    then h.num_ref_idx_active_override_flag < 2 else h.num_ref_idx_active_override_flag = 0
  l0 : if h.slice_type % 5 = 0 ∨ h.slice_type % 5 = 3 ∨ h.slice_type % 5 = 1
    then (if h.num_ref_idx_active_override_flag = 1 then h.num_ref_idx_l0_active_minus1 ≤ 31
          else h.num_ref_idx_l0_active_minus1 = p.num_ref_idx_l0_default_active_minus1)
    else h.num_ref_idx_l0_active_minus1 = 0
  l1 : if h.slice_type % 5 = 0 ∨ h.slice_type % 5 = 3 ∨ h.slice_type % 5 = 1
    then (if h.num_ref_idx_active_override_flag = 1
          then (if h.slice_type % 5 = 1 then h.num_ref_idx_l1_active_minus1 ≤ 31 else h.num_ref_idx_l1_active_minus1 = 0)
          else h.num_ref_idx_l1_active_minus1 = p.num_ref_idx_l1_default_active_minus1)
    else h.num_ref_idx_l1_active_minus1 = 0
  modification : ∃ m, h.ref_pic_list_modification = some m ∧ m.Ok h.slice_type
  weights : if weightsPresent p h.slice_type
    then ∃ t, h.pred_weight_table = some t ∧
      t.Ok (chromaArrayType s.toSpsHead) h.slice_type h.num_ref_idx_l0_active_minus1 h.num_ref_idx_l1_active_minus1
    else h.pred_weight_table = none
  marking : if h.nal_ref_idc ≠ 0
    then ∃ d, h.dec_ref_pic_marking = some d ∧ d.Ok (if h.nal_unit_type = 5 then 1 else 0)
    else h.dec_ref_pic_marking = none
  cabac_init_idc : if p.entropy_coding_mode_flag = 1 ∧ h.slice_type % 5 ≠ 2 ∧ h.slice_type % 5 ≠ 4
    then h.cabac_init_idc ≤ 2 else h.cabac_init_idc = 0
  slice_qp_delta : -(51 + 6 * (s.bit_depth_luma_minus8 : Int)) ≤ h.slice_qp_delta ∧
    h.slice_qp_delta ≤ 51 + 6 * (s.bit_depth_luma_minus8 : Int)
  sp_for_switch_flag : if h.slice_type % 5 = 3 then h.sp_for_switch_flag < 2 else h.sp_for_switch_flag = 0
  slice_qs_delta : if h.slice_type % 5 = 3 ∨ h.slice_type % 5 = 4 then seRange h.slice_qs_delta else h.slice_qs_delta = 0
  disable_deblocking_filter_idc : if p.deblocking_filter_control_present_flag = 1
    then h.disable_deblocking_filter_idc ≤ 2 else h.disable_deblocking_filter_idc = 0
  deblocking_offsets :
    if p.deblocking_filter_control_present_flag = 1 ∧ h.disable_deblocking_filter_idc ≠ 1
    then seRange h.slice_alpha_c0_offset_div2 ∧ seRange h.slice_beta_offset_div2
    else h.slice_alpha_c0_offset_div2 = 0 ∧ h.slice_beta_offset_div2 = 0
  slice_group_change_cycle : if changeCyclePresent p then h.slice_group_change_cycle < 2 ^ cycleBits s p
    else h.slice_group_change_cycle = 0

/-- A header of a NAL unit with the given nal_ref_idc and nal_unit_type (not 20 or 21, whose MVC modification syntax is
not implemented). -/
structure SliceHeader.Ok (ref type : Nat) (s : SpsData) (p : Pps) (h : SliceHeader) : Prop where
  copied : h.Copied ref type s p
  range : h.InRange s p
  type : type ≠ 20 ∧ type ≠ 21

/-- A parameter set in range (what the parsers guarantee, C27 and C30). -/
def SpsData.InRange (s : SpsData) : Prop := s.toSpsHead.Ok ∧ s.toSpsTail.Ok s.toSpsHead
/-- The same for a PPS. -/
def Pps.InRange (p : Pps) : Prop := p.toPpsHead.Ok

/-- Every stored SPS and PPS is in range. -/
structure Store.InRange (σ : Store) : Prop where
  sps : ∀ k s, σ.sps k = some s → s.InRange
  pps : ∀ k p, σ.pps k = some p → p.InRange

end H264

import Verif.Spec.Syntax6
import Verif.Spec.Syntax1
import Verif.Types.Scalable

/-
Specification: slice_header_in_scalable_extension() (G.7.3.3.4) relative to the SPS data `s` and SVC extension `e` of a
subset SPS, a PPS `p` and the NAL unit header extension `n`.  `slice_type % 5` is 0 for EP, 1 for EB and 2 for EI.
-/

namespace H264

/-- What the header depends on. -/
structure ScalCtx where
  nal_ref_idc : Nat
  nal_unit_type : Nat
  s : SpsData
  p : Pps
  e : SpsSvcExt
  n : SvcHeaderExt

/-- colour_plane_id to redundant_pic_cnt. -/
def encScalPic (x : ScalCtx) (h : ScalPic) : List Bool :=
  encIf (x.s.separate_colour_plane_flag = 1) (encU 2 h.colour_plane_id) ++
  encU (x.s.log2_max_frame_num_minus4 + 4) h.frame_num ++
  encIf (x.s.frame_mbs_only_flag = 0) (encU 1 h.field_pic_flag ++ encIf (h.field_pic_flag = 1) (encU 1 h.bottom_field_flag)) ++
  encIf (x.n.idr_flag = 1) (encUE h.idr_pic_id) ++
  encIf (x.s.pic_order_cnt_type = 0)
    (encU (x.s.log2_max_pic_order_cnt_lsb_minus4 + 4) h.pic_order_cnt_lsb ++
     encIf (x.p.bottom_field_pic_order_in_frame_present_flag = 1 ∧ h.field_pic_flag = 0)
       (encSE h.delta_pic_order_cnt_bottom)) ++
  encIf (x.s.pic_order_cnt_type = 1 ∧ x.s.delta_pic_order_always_zero_flag = 0) (h.delta_pic_order_cnt.flatMap encSE) ++
  encIf (x.p.redundant_pic_cnt_present_flag = 1) (encUE h.redundant_pic_cnt)

/-- Ranges, and 0 for what is not coded. -/
structure ScalPic.Ok (x : ScalCtx) (h : ScalPic) : Prop where
  colour_plane_id : if x.s.separate_colour_plane_flag = 1 then h.colour_plane_id < 4 else h.colour_plane_id = 0
  frame_num : h.frame_num < 2 ^ (x.s.log2_max_frame_num_minus4 + 4)
  field : if x.s.frame_mbs_only_flag = 0 then h.field_pic_flag < 2 else h.field_pic_flag = 0
  bottom : if x.s.frame_mbs_only_flag = 0 ∧ h.field_pic_flag = 1 then h.bottom_field_flag < 2 else h.bottom_field_flag = 0
  idr_pic_id : if x.n.idr_flag = 1 then h.idr_pic_id ≤ 65535 else h.idr_pic_id = 0
  lsb : if x.s.pic_order_cnt_type = 0 then h.pic_order_cnt_lsb < 2 ^ (x.s.log2_max_pic_order_cnt_lsb_minus4 + 4)
    else h.pic_order_cnt_lsb = 0
  delta_bottom :
    if x.s.pic_order_cnt_type = 0 ∧ x.p.bottom_field_pic_order_in_frame_present_flag = 1 ∧ h.field_pic_flag = 0
    then seRange h.delta_pic_order_cnt_bottom else h.delta_pic_order_cnt_bottom = 0
  delta_length : h.delta_pic_order_cnt.length =
    if x.s.pic_order_cnt_type = 1 ∧ x.s.delta_pic_order_always_zero_flag = 0
    then (if x.p.bottom_field_pic_order_in_frame_present_flag = 1 ∧ h.field_pic_flag = 0 then 2 else 1) else 0
  delta : ∀ v ∈ h.delta_pic_order_cnt, seRange v
  redundant_pic_cnt : if x.p.redundant_pic_cnt_present_flag = 1 then h.redundant_pic_cnt ≤ 127
    else h.redundant_pic_cnt = 0

/-- pred_weight_table() or the flag that replaces it is present. -/
def scalWeights (p : Pps) (t : Nat) : Prop :=
  (p.weighted_pred_flag = 1 ∧ t % 5 = 0) ∨ (p.weighted_bipred_idc = 1 ∧ t % 5 = 1)
instance (p : Pps) (t : Nat) : Decidable (scalWeights p t) := inferInstanceAs (Decidable (_ ∨ _))

/-- The part coded when quality_id is 0, for a slice of type `t`. -/
def encScalRef (x : ScalCtx) (t : Nat) (h : ScalRef) : List Bool :=
  encIf (t % 5 = 1) (encU 1 h.direct_spatial_mv_pred_flag) ++
  encIf (t % 5 = 0 ∨ t % 5 = 1)
    (encU 1 h.num_ref_idx_active_override_flag ++
     encIf (h.num_ref_idx_active_override_flag = 1)
       (encUE h.num_ref_idx_l0_active_minus1 ++ encIf (t % 5 = 1) (encUE h.num_ref_idx_l1_active_minus1))) ++
  encOpt encRefPicListMod h.ref_pic_list_modification ++
  encIf (scalWeights x.p t)
    (encIf (x.n.no_inter_layer_pred_flag = 0) (encU 1 h.base_pred_weight_table_flag) ++
     encIf (x.n.no_inter_layer_pred_flag = 1 ∨ h.base_pred_weight_table_flag = 0)
       (encOpt encPredWeightTable h.pred_weight_table)) ++
  encIf (x.nal_ref_idc ≠ 0)
    (encOpt encDecRefPicMarking h.dec_ref_pic_marking ++
     encIf (x.e.slice_header_restriction_flag = 0) (encU 1 h.store_ref_base_pic_flag))

/-- Ranges, and defaults for what is not coded.  `d0` and `d1` are the reference counts that apply without override.
The last member excludes dec_ref_base_pic_marking(), which the library does not implement. -/
structure ScalRef.Ok (x : ScalCtx) (t d0 d1 : Nat) (h : ScalRef) : Prop where
  direct : if t % 5 = 1 then h.direct_spatial_mv_pred_flag < 2 else h.direct_spatial_mv_pred_flag = 0
  override : if t % 5 = 0 ∨ t % 5 = 1 then h.num_ref_idx_active_override_flag < 2
    else h.num_ref_idx_active_override_flag = 0
  l0 : if t % 5 = 0 ∨ t % 5 = 1
    then (if h.num_ref_idx_active_override_flag = 1 then h.num_ref_idx_l0_active_minus1 ≤ 31
          else h.num_ref_idx_l0_active_minus1 = d0)
    else h.num_ref_idx_l0_active_minus1 = 0
  l1 : if t % 5 = 0 ∨ t % 5 = 1
    then (if h.num_ref_idx_active_override_flag = 1
          then (if t % 5 = 1 then h.num_ref_idx_l1_active_minus1 ≤ 31 else h.num_ref_idx_l1_active_minus1 = 0)
          else h.num_ref_idx_l1_active_minus1 = d1)
    else h.num_ref_idx_l1_active_minus1 = 0
  modification : ∃ m, h.ref_pic_list_modification = some m ∧ m.Ok t
  base : if scalWeights x.p t ∧ x.n.no_inter_layer_pred_flag = 0 then h.base_pred_weight_table_flag < 2
    else h.base_pred_weight_table_flag = 0
  weights : if scalWeights x.p t ∧ (x.n.no_inter_layer_pred_flag = 1 ∨ h.base_pred_weight_table_flag = 0)
    then ∃ w, h.pred_weight_table = some w ∧
      w.Ok (chromaArrayType x.s.toSpsHead) t h.num_ref_idx_l0_active_minus1 h.num_ref_idx_l1_active_minus1
    else h.pred_weight_table = none
  marking : if x.nal_ref_idc ≠ 0 then ∃ d, h.dec_ref_pic_marking = some d ∧ d.Ok x.n.idr_flag
    else h.dec_ref_pic_marking = none
  store : if x.nal_ref_idc ≠ 0 ∧ x.e.slice_header_restriction_flag = 0 then h.store_ref_base_pic_flag < 2
    else h.store_ref_base_pic_flag = 0
  no_base_marking : x.nal_ref_idc ≠ 0 → x.e.slice_header_restriction_flag = 0 →
    (x.n.use_ref_base_pic_flag = 1 ∨ h.store_ref_base_pic_flag = 1) → x.n.idr_flag = 1

/-- cabac_init_idc to slice_group_change_cycle. -/
def encScalQp (x : ScalCtx) (t : Nat) (h : ScalQp) : List Bool :=
  encIf (x.p.entropy_coding_mode_flag = 1 ∧ t % 5 ≠ 2) (encUE h.cabac_init_idc) ++
  encSE h.slice_qp_delta ++
  encIf (x.p.deblocking_filter_control_present_flag = 1)
    (encUE h.disable_deblocking_filter_idc ++
     encIf (h.disable_deblocking_filter_idc ≠ 1)
       (encSE h.slice_alpha_c0_offset_div2 ++ encSE h.slice_beta_offset_div2)) ++
  encIf (changeCyclePresent x.p) (encU (cycleBits x.s x.p) h.slice_group_change_cycle)

/-- Ranges, and 0 for what is not coded. -/
structure ScalQp.Ok (x : ScalCtx) (t : Nat) (h : ScalQp) : Prop where
  cabac_init_idc : if x.p.entropy_coding_mode_flag = 1 ∧ t % 5 ≠ 2 then h.cabac_init_idc ≤ 2 else h.cabac_init_idc = 0
  slice_qp_delta : seRange h.slice_qp_delta
  idc : if x.p.deblocking_filter_control_present_flag = 1 then h.disable_deblocking_filter_idc ≤ 6
    else h.disable_deblocking_filter_idc = 0
  offsets : if x.p.deblocking_filter_control_present_flag = 1 ∧ h.disable_deblocking_filter_idc ≠ 1
    then seRange h.slice_alpha_c0_offset_div2 ∧ seRange h.slice_beta_offset_div2
    else h.slice_alpha_c0_offset_div2 = 0 ∧ h.slice_beta_offset_div2 = 0
  width : h.pic_width_in_mbs_minus1 = if changeCyclePresent x.p then x.s.pic_width_in_mbs_minus1 else 0
  height : h.pic_height_in_map_units_minus1 = if changeCyclePresent x.p then x.s.pic_height_in_map_units_minus1 else 0
  rate : h.slice_group_change_rate_minus1 = if changeCyclePresent x.p then x.p.slice_group_change_rate_minus1 else 0
  cycle : if changeCyclePresent x.p then h.slice_group_change_cycle < 2 ^ cycleBits x.s x.p
    else h.slice_group_change_cycle = 0

/-- ref_layer_dq_id to scaled_ref_layer_bottom_offset. -/
def encScalLayer (x : ScalCtx) (h : ScalLayer) : List Bool :=
  encUE h.ref_layer_dq_id ++
  encIf (x.e.inter_layer_deblocking_filter_control_present_flag = 1)
    (encUE h.disable_inter_layer_deblocking_filter_idc ++
     encIf (h.disable_inter_layer_deblocking_filter_idc ≠ 1)
       (encSE h.inter_layer_slice_alpha_c0_offset_div2 ++ encSE h.inter_layer_slice_beta_offset_div2)) ++
  encU 1 h.constrained_intra_resampling_flag ++
  encIf (x.e.extended_spatial_scalability_idc = 2)
    (encIf (chromaArrayType x.s.toSpsHead > 0)
      (encU 1 h.ref_layer_chroma_phase_x_plus1_flag ++ encU 2 h.ref_layer_chroma_phase_y_plus1) ++
     encSE h.scaled_ref_layer_left_offset ++ encSE h.scaled_ref_layer_top_offset ++
     encSE h.scaled_ref_layer_right_offset ++ encSE h.scaled_ref_layer_bottom_offset)

/-- Ranges, and 0 for what is not coded. -/
structure ScalLayer.Ok (x : ScalCtx) (h : ScalLayer) : Prop where
  dq : ueRange h.ref_layer_dq_id
  idc : if x.e.inter_layer_deblocking_filter_control_present_flag = 1
    then ueRange h.disable_inter_layer_deblocking_filter_idc else h.disable_inter_layer_deblocking_filter_idc = 0
  deblocking : if x.e.inter_layer_deblocking_filter_control_present_flag = 1 ∧ h.disable_inter_layer_deblocking_filter_idc ≠ 1
    then seRange h.inter_layer_slice_alpha_c0_offset_div2 ∧ seRange h.inter_layer_slice_beta_offset_div2
    else h.inter_layer_slice_alpha_c0_offset_div2 = 0 ∧ h.inter_layer_slice_beta_offset_div2 = 0
  resampling : h.constrained_intra_resampling_flag < 2
  phase : if x.e.extended_spatial_scalability_idc = 2 ∧ chromaArrayType x.s.toSpsHead > 0
    then h.ref_layer_chroma_phase_x_plus1_flag < 2 ∧ h.ref_layer_chroma_phase_y_plus1 < 4
    else h.ref_layer_chroma_phase_x_plus1_flag = 0 ∧ h.ref_layer_chroma_phase_y_plus1 = 0
  offsets : if x.e.extended_spatial_scalability_idc = 2
    then seRange h.scaled_ref_layer_left_offset ∧ seRange h.scaled_ref_layer_top_offset ∧
      seRange h.scaled_ref_layer_right_offset ∧ seRange h.scaled_ref_layer_bottom_offset
    else h.scaled_ref_layer_left_offset = 0 ∧ h.scaled_ref_layer_top_offset = 0 ∧
      h.scaled_ref_layer_right_offset = 0 ∧ h.scaled_ref_layer_bottom_offset = 0

/-- slice_skip_flag to tcoeff_level_prediction_flag. -/
def encScalPred (x : ScalCtx) (h : ScalPred) : List Bool :=
  encU 1 h.slice_skip_flag ++
  encIf (h.slice_skip_flag = 1) (encUE h.num_mbs_in_slice_minus1) ++
  encIf (h.slice_skip_flag = 0)
    (encU 1 h.adaptive_base_mode_flag ++
     encIf (h.adaptive_base_mode_flag = 0) (encU 1 h.default_base_mode_flag) ++
     encIf (h.default_base_mode_flag = 0)
       (encU 1 h.adaptive_motion_prediction_flag ++
        encIf (h.adaptive_motion_prediction_flag = 0) (encU 1 h.default_motion_prediction_flag)) ++
     encU 1 h.adaptive_residual_prediction_flag ++
     encIf (h.adaptive_residual_prediction_flag = 0) (encU 1 h.default_residual_prediction_flag)) ++
  encIf (x.e.adaptive_tcoeff_level_prediction_flag = 1) (encU 1 h.tcoeff_level_prediction_flag)

/-- Ranges, and 0 for what is not coded. -/
structure ScalPred.Ok (x : ScalCtx) (h : ScalPred) : Prop where
  skip : h.slice_skip_flag < 2
  mbs : if h.slice_skip_flag = 1 then ueRange h.num_mbs_in_slice_minus1 else h.num_mbs_in_slice_minus1 = 0
  base : if h.slice_skip_flag = 0 then h.adaptive_base_mode_flag < 2 else h.adaptive_base_mode_flag = 0
  default_base : if h.slice_skip_flag = 0 ∧ h.adaptive_base_mode_flag = 0 then h.default_base_mode_flag < 2
    else h.default_base_mode_flag = 0
  motion : if h.slice_skip_flag = 0 ∧ h.default_base_mode_flag = 0 then h.adaptive_motion_prediction_flag < 2
    else h.adaptive_motion_prediction_flag = 0
  default_motion : if h.slice_skip_flag = 0 ∧ h.default_base_mode_flag = 0 ∧ h.adaptive_motion_prediction_flag = 0
    then h.default_motion_prediction_flag < 2 else h.default_motion_prediction_flag = 0
  residual : if h.slice_skip_flag = 0 then h.adaptive_residual_prediction_flag < 2
    else h.adaptive_residual_prediction_flag = 0
  default_residual : if h.slice_skip_flag = 0 ∧ h.adaptive_residual_prediction_flag = 0
    then h.default_residual_prediction_flag < 2 else h.default_residual_prediction_flag = 0
  tcoeff : if x.e.adaptive_tcoeff_level_prediction_flag = 1 then h.tcoeff_level_prediction_flag < 2
    else h.tcoeff_level_prediction_flag = 0

/-- slice_header_in_scalable_extension(). -/
def encScalHeader (x : ScalCtx) (h : ScalHeader) : List Bool :=
  encUE h.first_mb_in_slice ++ encUE h.slice_type ++ encUE h.pic_parameter_set_id ++
  encScalPic x h.pic ++
  encIf (x.n.quality_id = 0) (encScalRef x h.slice_type h.ref) ++
  encScalQp x h.slice_type h.qp ++
  encIf (x.n.no_inter_layer_pred_flag = 0 ∧ x.n.quality_id = 0) (encScalLayer x h.layer) ++
  encIf (x.n.no_inter_layer_pred_flag = 0) (encScalPred x h.pred) ++
  encIf (x.e.slice_header_restriction_flag = 0 ∧ h.pred.slice_skip_flag = 0)
    (encU 4 h.scan_idx_start ++ encU 4 h.scan_idx_end)

/-- The members the header copies from its context. -/
structure ScalCopied.Ok (x : ScalCtx) (c : ScalCopied) : Prop where
  nal_ref_idc : c.nal_ref_idc = x.nal_ref_idc
  nal_unit_type : c.nal_unit_type = x.nal_unit_type
  separate_colour_plane_flag : c.separate_colour_plane_flag = x.s.separate_colour_plane_flag
  log2_max_frame_num_minus4 : c.log2_max_frame_num_minus4 = x.s.log2_max_frame_num_minus4
  frame_mbs_only_flag : c.frame_mbs_only_flag = x.s.frame_mbs_only_flag
  pic_order_cnt_type : c.pic_order_cnt_type = x.s.pic_order_cnt_type
  bottom : c.bottom_field_pic_order_in_frame_present_flag = x.p.bottom_field_pic_order_in_frame_present_flag
  always_zero : c.delta_pic_order_always_zero_flag = x.s.delta_pic_order_always_zero_flag
  redundant : c.redundant_pic_cnt_present_flag = x.p.redundant_pic_cnt_present_flag
  weighted_pred_flag : c.weighted_pred_flag = if x.n.quality_id = 0 then x.p.weighted_pred_flag else 0
  weighted_bipred_idc : c.weighted_bipred_idc = if x.n.quality_id = 0 then x.p.weighted_bipred_idc else 0
  no_inter_layer_pred_flag : c.no_inter_layer_pred_flag = x.n.no_inter_layer_pred_flag
  quality_id : c.quality_id = x.n.quality_id
  restriction : c.slice_header_restriction_flag = x.e.slice_header_restriction_flag
  use_ref_base_pic_flag : c.use_ref_base_pic_flag =
    if x.n.quality_id = 0 ∧ x.nal_ref_idc ≠ 0 ∧ x.e.slice_header_restriction_flag = 0 then x.n.use_ref_base_pic_flag else 0
  idr_flag : c.idr_flag = x.n.idr_flag
  entropy : c.entropy_coding_mode_flag = x.p.entropy_coding_mode_flag
  deblocking : c.deblocking_filter_control_present_flag = x.p.deblocking_filter_control_present_flag
  num_slice_groups_minus1 : c.num_slice_groups_minus1 = x.p.num_slice_groups_minus1
  slice_group_map_type : c.slice_group_map_type = x.p.slice_group_map_type
  layer_deblocking : c.inter_layer_deblocking_filter_control_present_flag =
    if x.n.no_inter_layer_pred_flag = 0 ∧ x.n.quality_id = 0
    then x.e.inter_layer_deblocking_filter_control_present_flag else 0
  ess : c.extended_spatial_scalability_idc =
    if x.n.no_inter_layer_pred_flag = 0 ∧ x.n.quality_id = 0 then x.e.extended_spatial_scalability_idc else 0
  tcoeff : c.adaptive_tcoeff_level_prediction_flag =
    if x.n.no_inter_layer_pred_flag = 0 then x.e.adaptive_tcoeff_level_prediction_flag else 0

/-- Ranges; `d0` and `d1` are the reference counts that apply without override. -/
structure ScalHeader.Ok (x : ScalCtx) (d0 d1 : Nat) (h : ScalHeader) : Prop where
  copied : h.copied.Ok x
  cat : h.ChromaArrayType =
    if h.ref.pred_weight_table ≠ none ∨
      (x.n.no_inter_layer_pred_flag = 0 ∧ x.n.quality_id = 0 ∧ x.e.extended_spatial_scalability_idc = 2)
    then chromaArrayType x.s.toSpsHead else 0
  first_mb_in_slice : h.first_mb_in_slice ≤ 139263
  slice_type : h.slice_type ≤ 9
  pic_parameter_set_id : h.pic_parameter_set_id ≤ 255
  pic : h.pic.Ok x
  ref : if x.n.quality_id = 0 then h.ref.Ok x h.slice_type d0 d1 else h.ref = {}
  qp : h.qp.Ok x h.slice_type
  layer : if x.n.no_inter_layer_pred_flag = 0 ∧ x.n.quality_id = 0 then h.layer.Ok x else h.layer = {}
  pred : if x.n.no_inter_layer_pred_flag = 0 then h.pred.Ok x else h.pred = {}
  scan : if x.e.slice_header_restriction_flag = 0 ∧ h.pred.slice_skip_flag = 0
    then h.scan_idx_start < 16 ∧ h.scan_idx_end < 16 else h.scan_idx_start = 0 ∧ h.scan_idx_end = 0

/-- `x` is what a header `h` under NAL unit header `n` refers to in the store: the PPS it names, the subset SPS that PPS
names with its SVC extension, and the SVC extension of the NAL unit header. -/
def ScalRefers (σ : Store) (n : NalHeader) (h : ScalHeader) (x : ScalCtx) : Prop :=
  σ.pps h.pic_parameter_set_id = some x.p ∧
  (∃ ss, σ.subset_sps x.p.seq_parameter_set_id = some ss ∧ ss.seq_parameter_set_data = x.s ∧
    ss.seq_parameter_set_svc_extension = some x.e) ∧
  n.svc_extension = some x.n ∧ x.nal_ref_idc = n.nal_ref_idc ∧ x.nal_unit_type = n.nal_unit_type

end H264

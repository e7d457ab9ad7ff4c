import Verif.Model.Subset
import Verif.Types.Scalable

/-
Model of the slice header in scalable extension parser (src/h264_slice_header_in_scalable_extension_parser.cc), cut into
blocks like the slice header.
-/

namespace H264
open Prog

/-- The tests `slice_type == EP` (src/h264_slice_header_in_scalable_extension_parser.cc:293-294, 359-360). -/
def isEP (t : Nat) : Prop := t = 0 ∨ t = 5
instance (t : Nat) : Decidable (isEP t) := inferInstanceAs (Decidable (_ ∨ _))
/-- `slice_type != EI` (src/h264_slice_header_in_scalable_extension_parser.cc:418-419). -/
def notEI (t : Nat) : Prop := t ≠ 2 ∧ t ≠ 7
instance (t : Nat) : Decidable (notEI t) := inferInstanceAs (Decidable (_ ∧ _))

/-- src/h264_slice_header_in_scalable_extension_parser.cc:204-281: idr_pic_id to redundant_pic_cnt, after colour_plane_id `cp`, frame_num `fn` and the field flags `fp`
have been read. -/
def parseScalPic (s : SpsData) (p : Pps) (n : SvcHeaderExt) (cp fn : Nat) (fp : Nat × Nat) : Prog ScalPic := do
  let idr_pic_id ← opt (n.idr_flag ≠ 0) 0 (ueIn 0 65535)
  let poc0 ← parsePoc0 s.pic_order_cnt_type s.log2_max_pic_order_cnt_lsb_minus4
    p.bottom_field_pic_order_in_frame_present_flag fp.1
  let poc1 ← parsePoc1 s.pic_order_cnt_type s.delta_pic_order_always_zero_flag
    p.bottom_field_pic_order_in_frame_present_flag fp.1
  let redundant_pic_cnt ← opt (p.redundant_pic_cnt_present_flag ≠ 0) 0 (ueIn 0 127)
  pure {
    colour_plane_id := cp
    frame_num := fn
    field_pic_flag := fp.1
    bottom_field_flag := fp.2
    idr_pic_id
    pic_order_cnt_lsb := poc0.1
    delta_pic_order_cnt_bottom := poc0.2
    delta_pic_order_cnt := poc1
    redundant_pic_cnt }

/-- src/h264_slice_header_in_scalable_extension_parser.cc:358-384: base_pred_weight_table_flag and pred_weight_table(). -/
def parseScalWeights (cat t l0 l1 noInter : Nat) : Prog (Nat × Option PredWeightTable) := do
  let f ← opt (noInter = 0) 0 (u 1)
  let w ← opt (noInter ≠ 0 ∨ f = 0) none do
    let w ← parsePredWeightTable cat t l0 l1
    pure (some w)
  pure (f, w)

/-- src/h264_slice_header_in_scalable_extension_parser.cc:397-412: store_ref_base_pic_flag; dec_ref_base_pic_marking() is not implemented. -/
def parseStoreRef (useRef idr : Nat) : Prog Nat := do
  let store ← u 1
  if (useRef ≠ 0 ∨ store ≠ 0) ∧ idr = 0 then do
    unimpl
    null
  else pure store

/-- src/h264_slice_header_in_scalable_extension_parser.cc:285-413. -/
def parseScalRef (ref t cat : Nat) (p : Pps) (e : SpsSvcExt) (n : SvcHeaderExt) : Prog ScalRef := do
  let direct_spatial_mv_pred_flag ← opt (isB t) 0 (u 1)
  let nr ← opt (isEP t ∨ isB t) (0, 0, 0) (parseNumRef t 0 0)
  let m ← parseRefPicListMod t
  let w ← opt ((p.weighted_pred_flag ≠ 0 ∧ isEP t) ∨ (p.weighted_bipred_idc = 1 ∧ isB t)) (0, none)
    (parseScalWeights cat t nr.2.1 nr.2.2 n.no_inter_layer_pred_flag)
  let d ← opt (ref ≠ 0) (none, 0) do
    let d ← parseDecRefPicMarking n.idr_flag
    let s ← opt (e.slice_header_restriction_flag = 0) 0 (parseStoreRef n.use_ref_base_pic_flag n.idr_flag)
    pure (some d, s)
  pure {
    direct_spatial_mv_pred_flag
    num_ref_idx_active_override_flag := nr.1
    num_ref_idx_l0_active_minus1 := nr.2.1
    num_ref_idx_l1_active_minus1 := nr.2.2
    ref_pic_list_modification := some m
    base_pred_weight_table_flag := w.1
    pred_weight_table := w.2
    dec_ref_pic_marking := d.1
    store_ref_base_pic_flag := d.2 }

/-- src/h264_slice_header_in_scalable_extension_parser.cc:416-496. -/
def parseScalQp (s : SpsData) (p : Pps) (t : Nat) : Prog ScalQp := do
  let cabac_init_idc ← opt (p.entropy_coding_mode_flag ≠ 0 ∧ notEI t) 0 (ueIn 0 2)
  let slice_qp_delta ← se
  let db ← parseDeblocking p.deblocking_filter_control_present_flag 6
  let cc ← parseChangeCycle s p
  pure {
    cabac_init_idc, slice_qp_delta
    disable_deblocking_filter_idc := db.1
    slice_alpha_c0_offset_div2 := db.2.1
    slice_beta_offset_div2 := db.2.2
    pic_width_in_mbs_minus1 := cc.1
    pic_height_in_map_units_minus1 := cc.2.1
    slice_group_change_rate_minus1 := cc.2.2.1
    slice_group_change_cycle := cc.2.2.2 }

/-- src/h264_slice_header_in_scalable_extension_parser.cc:504-527: inter-layer deblocking, without range check. -/
def parseLayerDeblocking (present : Nat) : Prog (Nat × Int × Int) := opt (present ≠ 0) (0, 0, 0) do
  let idc ← ue
  let o ← opt (idc ≠ 1) (0, 0) do
    let a ← se
    let b ← se
    pure (a, b)
  pure (idc, o)

/-- src/h264_slice_header_in_scalable_extension_parser.cc:499-573. -/
def parseScalLayer (cat : Nat) (e : SpsSvcExt) : Prog ScalLayer := do
  let ref_layer_dq_id ← ue
  let db ← parseLayerDeblocking e.inter_layer_deblocking_filter_control_present_flag
  let constrained_intra_resampling_flag ← u 1
  let r ← opt (e.extended_spatial_scalability_idc = 2) ((0, 0), (0, 0, 0, 0)) do
    let c ← parseRefChroma cat
    let o ← parseFourSe
    pure (c, o)
  pure {
    ref_layer_dq_id
    disable_inter_layer_deblocking_filter_idc := db.1
    inter_layer_slice_alpha_c0_offset_div2 := db.2.1
    inter_layer_slice_beta_offset_div2 := db.2.2
    constrained_intra_resampling_flag
    ref_layer_chroma_phase_x_plus1_flag := r.1.1
    ref_layer_chroma_phase_y_plus1 := r.1.2
    scaled_ref_layer_left_offset := r.2.1
    scaled_ref_layer_top_offset := r.2.2.1
    scaled_ref_layer_right_offset := r.2.2.2.1
    scaled_ref_layer_bottom_offset := r.2.2.2.2 }

/-- An adaptive flag, and a default flag if it is 0: src/h264_slice_header_in_scalable_extension_parser.cc:601-611, 613-623. -/
def parseAdaptive : Prog (Nat × Nat) := do
  let a ← u 1
  let d ← opt (a = 0) 0 (u 1)
  pure (a, d)

/-- src/h264_slice_header_in_scalable_extension_parser.cc:589-623: the modes of a slice that is not skipped. -/
def parseModes : Prog ((Nat × Nat) × (Nat × Nat) × (Nat × Nat)) := do
  let b ← parseAdaptive
  let m ← opt (b.2 = 0) (0, 0) parseAdaptive
  let r ← parseAdaptive
  pure (b, m, r)

/-- src/h264_slice_header_in_scalable_extension_parser.cc:577-632. -/
def parseScalPred (e : SpsSvcExt) : Prog ScalPred := do
  let slice_skip_flag ← u 1
  let num_mbs_in_slice_minus1 ← opt (slice_skip_flag ≠ 0) 0 ue
  let m ← opt (slice_skip_flag = 0) ((0, 0), (0, 0), (0, 0)) parseModes
  let tcoeff_level_prediction_flag ← opt (e.adaptive_tcoeff_level_prediction_flag ≠ 0) 0 (u 1)
  pure {
    slice_skip_flag, num_mbs_in_slice_minus1
    adaptive_base_mode_flag := m.1.1
    default_base_mode_flag := m.1.2
    adaptive_motion_prediction_flag := m.2.1.1
    default_motion_prediction_flag := m.2.1.2
    adaptive_residual_prediction_flag := m.2.2.1
    default_residual_prediction_flag := m.2.2.2
    tcoeff_level_prediction_flag }

/-- src/h264_slice_header_in_scalable_extension_parser.cc:635-645: scan_idx_start and scan_idx_end. -/
def parseScan (restriction skip : Nat) : Prog (Nat × Nat) := opt (restriction = 0 ∧ skip = 0) (0, 0) do
  let a ← u 4
  let b ← u 4
  pure (a, b)

/-- The input parameters, set in src/h264_slice_header_in_scalable_extension_parser.cc at lines
60-61, 150, 159, 166, 186-196, 221, 243, 263, 283, 355-356, 403, 416, 442, 478-479,
504, 534, 625, some of them only in the branch that uses them. -/
def scalCopied (ref type : Nat) (s : SpsData) (p : Pps) (e : SpsSvcExt) (n : SvcHeaderExt) : ScalCopied :=
  { nal_ref_idc := ref
    nal_unit_type := type
    separate_colour_plane_flag := s.separate_colour_plane_flag
    log2_max_frame_num_minus4 := s.log2_max_frame_num_minus4
    frame_mbs_only_flag := s.frame_mbs_only_flag
    pic_order_cnt_type := s.pic_order_cnt_type
    bottom_field_pic_order_in_frame_present_flag := p.bottom_field_pic_order_in_frame_present_flag
    delta_pic_order_always_zero_flag := s.delta_pic_order_always_zero_flag
    redundant_pic_cnt_present_flag := p.redundant_pic_cnt_present_flag
    weighted_pred_flag := if n.quality_id = 0 then p.weighted_pred_flag else 0
    weighted_bipred_idc := if n.quality_id = 0 then p.weighted_bipred_idc else 0
    no_inter_layer_pred_flag := n.no_inter_layer_pred_flag
    quality_id := n.quality_id
    slice_header_restriction_flag := e.slice_header_restriction_flag
    use_ref_base_pic_flag :=
      if n.quality_id = 0 ∧ ref ≠ 0 ∧ e.slice_header_restriction_flag = 0 then n.use_ref_base_pic_flag else 0
    idr_flag := n.idr_flag
    entropy_coding_mode_flag := p.entropy_coding_mode_flag
    deblocking_filter_control_present_flag := p.deblocking_filter_control_present_flag
    num_slice_groups_minus1 := p.num_slice_groups_minus1
    slice_group_map_type := p.slice_group_map_type
    inter_layer_deblocking_filter_control_present_flag :=
      if n.no_inter_layer_pred_flag = 0 ∧ n.quality_id = 0
      then e.inter_layer_deblocking_filter_control_present_flag else 0
    extended_spatial_scalability_idc :=
      if n.no_inter_layer_pred_flag = 0 ∧ n.quality_id = 0 then e.extended_spatial_scalability_idc else 0
    adaptive_tcoeff_level_prediction_flag :=
      if n.no_inter_layer_pred_flag = 0 then e.adaptive_tcoeff_level_prediction_flag else 0 }

/-- src/h264_slice_header_in_scalable_extension_parser.cc:186-647: everything after the header extension has been found. -/
def parseScalBody (ref type : Nat) (s : SpsData) (p : Pps) (e : SpsSvcExt) (n : SvcHeaderExt) (x : Nat × Nat × Nat)
    (cp fn : Nat) (fp : Nat × Nat) : Prog ScalHeader := do
  let pic ← parseScalPic s p n cp fn fp
  let r ← opt (n.quality_id = 0) {} (parseScalRef ref x.2.1 (getChromaArrayType s) p e n)
  let qp ← parseScalQp s p x.2.1
  let layer ← opt (n.no_inter_layer_pred_flag = 0 ∧ n.quality_id = 0) {} (parseScalLayer (getChromaArrayType s) e)
  let pred ← opt (n.no_inter_layer_pred_flag = 0) {} (parseScalPred e)
  let scan ← parseScan e.slice_header_restriction_flag pred.slice_skip_flag
  pure {
    copied := scalCopied ref type s p e n
    ChromaArrayType :=
      if r.pred_weight_table.isSome ∨
        ((n.no_inter_layer_pred_flag = 0 ∧ n.quality_id = 0) ∧ e.extended_spatial_scalability_idc = 2)
      then getChromaArrayType s else 0
    first_mb_in_slice := x.1
    slice_type := x.2.1
    pic_parameter_set_id := x.2.2
    pic, ref := r, qp, layer, pred
    scan_idx_start := scan.1
    scan_idx_end := scan.2 }

/-- `ParseSliceHeaderInScalableExtension(BitBuffer*, ...)`
(src/h264_slice_header_in_scalable_extension_parser.cc:46-648; the lengths of frame_num and pic_order_cnt_lsb are
`getFrameNumLen` and `getPicOrderCntLsbLen`, 650-666). -/
def parseScalHeader (σ : Store) (h : NalHeader) : Prog ScalHeader := do
  let x ← parseSliceStart
  match σ.pps x.2.2 with
  | none => null
  | some p =>
    match σ.subset_sps p.seq_parameter_set_id with
    | none => null
    | some ss =>
      match ss.seq_parameter_set_svc_extension with
      | none => null
      | some e => do
        let cp ← opt (ss.seq_parameter_set_data.separate_colour_plane_flag = 1) 0 (u 2)
        let fn ← u (add32 ss.seq_parameter_set_data.log2_max_frame_num_minus4 4)
        let fp ← parseFieldPic ss.seq_parameter_set_data.frame_mbs_only_flag
        match h.svc_extension with
        | none => null
        | some n => parseScalBody h.nal_ref_idc h.nal_unit_type ss.seq_parameter_set_data p e n x cp fn fp

end H264

import Verif.Model.RefPic
import Verif.Model.Pps
import Verif.Types.Store

/-
Model of the slice header parser.  The code is one long function; the model cuts it into blocks read in the same order.
-/

namespace H264
open Prog

/-- `SpsDataState::getChromaArrayType` (src/h264_sps_parser.cc:555-570). -/
def getChromaArrayType (s : SpsData) : Nat := if s.separate_colour_plane_flag = 0 then s.chroma_format_idc else 0

/-- `getSliceGroupChangeCycleLen` (src/h264_slice_header_parser.cc:521-560, and
src/h264_slice_header_in_scalable_extension_parser.cc:668-719, which is the same code).  `ceil(log2(P / R + 1))` in
doubles is replaced by the exact integer value, which C62 justifies; with `R = 0` the C++ converts infinity to an integer,
which is undefined. -/
def sliceGroupChangeCycleLen (w h rate : Nat) : Res Nat :=
  let P := mul32 (add32 w 1) (add32 h 1)
  let R := add32 rate 1
  if R = 0 then .bad .overflow else .val (ceilLog2 ((P + R - 1) / R + 1))

/-- src/h264_slice_header_parser.cc:57-103: first_mb_in_slice, slice_type, pic_parameter_set_id.
(src/h264_slice_header_in_scalable_extension_parser.cc:63-108 is the same.) -/
def parseSliceStart : Prog (Nat × Nat × Nat) := do
  let first_mb_in_slice ← ueIn 0 139263
  let slice_type ← ueIn 0 9
  let pic_parameter_set_id ← ueIn 0 255
  pure (first_mb_in_slice, slice_type, pic_parameter_set_id)

/-- src/h264_slice_header_parser.cc:146-158: field_pic_flag, bottom_field_flag (scalable: 166-178). -/
def parseFieldPic (frame_mbs_only_flag : Nat) : Prog (Nat × Nat) := opt (frame_mbs_only_flag = 0) (0, 0) do
  let field_pic_flag ← u 1
  let bottom_field_flag ← opt (field_pic_flag ≠ 0) 0 (u 1)
  pure (field_pic_flag, bottom_field_flag)

/-- src/h264_slice_header_parser.cc:184-204: pic_order_cnt_lsb, delta_pic_order_cnt_bottom (scalable: 221-241).
`bottom` is bottom_field_pic_order_in_frame_present_flag. -/
def parsePoc0 (poc_type log2_lsb bottom field : Nat) : Prog (Nat × Int) := opt (poc_type = 0) (0, 0) do
  let pic_order_cnt_lsb ← u (add32 log2_lsb 4)
  let delta_pic_order_cnt_bottom ← opt (bottom ≠ 0 ∧ field = 0) 0 se
  pure (pic_order_cnt_lsb, delta_pic_order_cnt_bottom)

/-- src/h264_slice_header_parser.cc:206-224: delta_pic_order_cnt (scalable: 243-261). -/
def parsePoc1 (poc_type always_zero bottom field : Nat) : Prog (List Int) := opt (poc_type = 1 ∧ always_zero = 0) [] do
  let d0 ← se
  let d1 ← opt (bottom ≠ 0 ∧ field = 0) [] (do let d ← se; pure [d])
  pure (d0 :: d1)

/-- The tests `slice_type == B` (src/h264_slice_header_parser.cc:247-248). -/
def isB (t : Nat) : Prop := t = 1 ∨ t = 6
instance (t : Nat) : Decidable (isB t) := inferInstanceAs (Decidable (_ ∨ _))
/-- `slice_type == P` or `SP` (src/h264_slice_header_parser.cc:349-352). -/
def isPSP (t : Nat) : Prop := t = 0 ∨ t = 5 ∨ t = 3 ∨ t = 8
instance (t : Nat) : Decidable (isPSP t) := inferInstanceAs (Decidable (_ ∨ _))
/-- `slice_type` is not `I` and not `SI` (src/h264_slice_header_parser.cc:381-384). -/
def notISI (t : Nat) : Prop := t ≠ 2 ∧ t ≠ 7 ∧ t ≠ 4 ∧ t ≠ 9
instance (t : Nat) : Decidable (notISI t) := inferInstanceAs (Decidable (_ ∧ _))
/-- `slice_type == SP` (src/h264_slice_header_parser.cc:426-427). -/
def isSP (t : Nat) : Prop := t = 3 ∨ t = 8
instance (t : Nat) : Decidable (isSP t) := inferInstanceAs (Decidable (_ ∨ _))
/-- `slice_type == SI` (src/h264_slice_header_parser.cc:424-425). -/
def isSI (t : Nat) : Prop := t = 4 ∨ t = 9
instance (t : Nat) : Decidable (isSI t) := inferInstanceAs (Decidable (_ ∨ _))

/-- src/h264_slice_header_parser.cc:263-318: the override flag and the two counts; `d0`, `d1` are the defaults used when
the flag is 0. -/
def parseNumRef (t d0 d1 : Nat) : Prog (Nat × Nat × Nat) := do
  let override ← u 1
  if override ≠ 0 then do
    let l0 ← ueIn 0 31
    let l1 ← opt (isB t) 0 (ueIn 0 31)
    pure (override, l0, l1)
  else pure (override, d0, d1)

/-- src/h264_slice_header_parser.cc:321-343: for types 20 and 21 the parser counts an unimplemented structure and gives
up. -/
def parseSliceMod (nal_unit_type t : Nat) : Prog RefPicListMod :=
  if nal_unit_type = 20 ∨ nal_unit_type = 21 then do
    unimpl
    null
  else parseRefPicListMod t

/-- src/h264_slice_header_parser.cc:402-420: slice_qp_delta, checked against ±(51 + 6 * bit_depth_luma_minus8) in
`int`. -/
def parseQpDelta (bit_depth_luma_minus8 : Nat) : Prog Int := do
  let v ← se
  let x ← lift (sint (6 * toI32 bit_depth_luma_minus8))
  let lo ← lift (sint (-51 - x))
  guard (¬ v < lo)
  let y ← lift (sint (6 * toI32 bit_depth_luma_minus8))
  let hi ← lift (sint (51 + y))
  guard (¬ v > hi)
  pure v

/-- src/h264_slice_header_parser.cc:422-439: sp_for_switch_flag, slice_qs_delta. -/
def parseSwitching (t : Nat) : Prog (Nat × Int) := opt (isSP t ∨ isSI t) (0, 0) do
  let sp_for_switch_flag ← opt (isSP t) 0 (u 1)
  let slice_qs_delta ← se
  pure (sp_for_switch_flag, slice_qs_delta)

/-- src/h264_slice_header_parser.cc:443-477 with `max = 2`: disable_deblocking_filter_idc and the two offsets (scalable:
444-476, with `max = 6`). -/
def parseDeblocking (present max : Nat) : Prog (Nat × Int × Int) := opt (present ≠ 0) (0, 0, 0) do
  let idc ← ueIn 0 max
  let o ← opt (idc ≠ 1) (0, 0) do
    let a ← se
    let b ← se
    pure (a, b)
  pure (idc, o)

/-- Whether slice_group_change_cycle is present: src/h264_slice_header_parser.cc:481-483 (scalable: 480-482). -/
def hasChangeCycle (p : Pps) : Prop :=
  p.num_slice_groups_minus1 > 0 ∧ p.slice_group_map_type ≥ 3 ∧ p.slice_group_map_type ≤ 5
instance (p : Pps) : Decidable (hasChangeCycle p) := inferInstanceAs (Decidable (_ ∧ _))

/-- src/h264_slice_header_parser.cc:484-499: (width, height, rate, slice_group_change_cycle) (scalable: 478-496). -/
def parseChangeCycle (s : SpsData) (p : Pps) : Prog (Nat × Nat × Nat × Nat) := opt (hasChangeCycle p) (0, 0, 0, 0) do
  let len ← lift (sliceGroupChangeCycleLen s.pic_width_in_mbs_minus1 s.pic_height_in_map_units_minus1
    p.slice_group_change_rate_minus1)
  let v ← u len
  pure (s.pic_width_in_mbs_minus1, s.pic_height_in_map_units_minus1, p.slice_group_change_rate_minus1, v)

/-- `ParseSliceHeader(BitBuffer*, ...)` after the parameter sets have been found
(src/h264_slice_header_parser.cc:129-502; the lengths of frame_num and pic_order_cnt_lsb are `getFrameNumLen` and
`getPicOrderCntLsbLen`, 505-519). -/
def parseSliceBody (nal_ref_idc nal_unit_type : Nat) (s : SpsData) (p : Pps) (x : Nat × Nat × Nat) :
    Prog SliceHeader := do
  let colour_plane_id ← opt (s.separate_colour_plane_flag ≠ 0) 0 (u 2)
  let frame_num ← u (add32 s.log2_max_frame_num_minus4 4)
  let fp ← parseFieldPic s.frame_mbs_only_flag
  let idr_pic_id ← opt (nal_unit_type = 5) 0 (ueIn 0 65535)
  let poc0 ← parsePoc0 s.pic_order_cnt_type s.log2_max_pic_order_cnt_lsb_minus4
    p.bottom_field_pic_order_in_frame_present_flag fp.1
  let poc1 ← parsePoc1 s.pic_order_cnt_type s.delta_pic_order_always_zero_flag
    p.bottom_field_pic_order_in_frame_present_flag fp.1
  let redundant_pic_cnt ← opt (p.redundant_pic_cnt_present_flag ≠ 0) 0 (ueIn 0 127)
  let direct_spatial_mv_pred_flag ← opt (isB x.2.1) 0 (u 1)
  let nr ← opt (isPSP x.2.1 ∨ isB x.2.1) (0, 0, 0)
    (parseNumRef x.2.1 p.num_ref_idx_l0_default_active_minus1 p.num_ref_idx_l1_default_active_minus1)
  let m ← parseSliceMod nal_unit_type x.2.1
  let pred_weight_table ← opt ((p.weighted_pred_flag ≠ 0 ∧ isPSP x.2.1) ∨ (p.weighted_bipred_idc = 1 ∧ isB x.2.1)) none do
    let t ← parsePredWeightTable (getChromaArrayType s) x.2.1 nr.2.1 nr.2.2
    pure (some t)
  let dec_ref_pic_marking ← opt (nal_ref_idc ≠ 0) none do
    let d ← parseDecRefPicMarking (if nal_unit_type = 5 then 1 else 0)
    pure (some d)
  let cabac_init_idc ← opt (p.entropy_coding_mode_flag ≠ 0 ∧ notISI x.2.1) 0 (ueIn 0 2)
  let slice_qp_delta ← parseQpDelta s.bit_depth_luma_minus8
  let sw ← parseSwitching x.2.1
  let db ← parseDeblocking p.deblocking_filter_control_present_flag 2
  let cc ← parseChangeCycle s p
  pure {
    nal_ref_idc, nal_unit_type
    separate_colour_plane_flag := s.separate_colour_plane_flag
    log2_max_frame_num_minus4 := s.log2_max_frame_num_minus4
    frame_mbs_only_flag := s.frame_mbs_only_flag
    pic_order_cnt_type := s.pic_order_cnt_type
    bottom_field_pic_order_in_frame_present_flag := p.bottom_field_pic_order_in_frame_present_flag
    delta_pic_order_always_zero_flag := s.delta_pic_order_always_zero_flag
    redundant_pic_cnt_present_flag := p.redundant_pic_cnt_present_flag
    weighted_pred_flag := p.weighted_pred_flag
    weighted_bipred_idc := p.weighted_bipred_idc
    entropy_coding_mode_flag := p.entropy_coding_mode_flag
    deblocking_filter_control_present_flag := p.deblocking_filter_control_present_flag
    num_slice_groups_minus1 := p.num_slice_groups_minus1
    slice_group_map_type := p.slice_group_map_type
    pic_width_in_mbs_minus1 := cc.1
    pic_height_in_map_units_minus1 := cc.2.1
    slice_group_change_rate_minus1 := cc.2.2.1
    first_mb_in_slice := x.1
    slice_type := x.2.1
    pic_parameter_set_id := x.2.2
    colour_plane_id, frame_num
    field_pic_flag := fp.1
    bottom_field_flag := fp.2
    idr_pic_id
    pic_order_cnt_lsb := poc0.1
    delta_pic_order_cnt_bottom := poc0.2
    delta_pic_order_cnt := poc1
    redundant_pic_cnt, direct_spatial_mv_pred_flag
    num_ref_idx_active_override_flag := nr.1
    num_ref_idx_l0_active_minus1 := nr.2.1
    num_ref_idx_l1_active_minus1 := nr.2.2
    ref_pic_list_modification := some m
    pred_weight_table, dec_ref_pic_marking, cabac_init_idc
    sp_for_switch_flag := sw.1
    slice_qp_delta
    slice_qs_delta := sw.2
    disable_deblocking_filter_idc := db.1
    slice_alpha_c0_offset_div2 := db.2.1
    slice_beta_offset_div2 := db.2.2
    slice_group_change_cycle := cc.2.2.2 }

/-- `ParseSliceHeader(BitBuffer*, ...)` (src/h264_slice_header_parser.cc:42-503). -/
def parseSliceHeader (σ : Store) (nal_ref_idc nal_unit_type : Nat) : Prog SliceHeader := do
  let x ← parseSliceStart
  match σ.pps x.2.2 with
  | none => null
  | some p =>
    match σ.sps p.seq_parameter_set_id with
    | none => null
    | some s => parseSliceBody nal_ref_idc nal_unit_type s p x

end H264

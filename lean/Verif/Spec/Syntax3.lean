import Verif.Spec.Syntax2

/-
Specification: pic_parameter_set_rbsp() (7.3.2.2).
-/

namespace H264

/-- Ceil( Log2( num_slice_groups_minus1 + 1 ) ) for up to 8 slice groups. -/
def groupIdBits (n : Nat) : Nat := if n + 1 ≤ 1 then 0 else if n + 1 ≤ 2 then 1 else if n + 1 ≤ 4 then 2 else 3

/-- top_left[ i ] and bottom_right[ i ] alternate. -/
def encPairs : List Nat → List Nat → List Bool
  | t :: ts, b :: bs => encUE t ++ encUE b ++ encPairs ts bs
  | _, _ => []

/-- The slice group part of pic_parameter_set_rbsp(). -/
def encSliceGroups (n : Nat) (g : SliceGroups) : List Bool :=
  encIf (n > 0)
    (encUE g.slice_group_map_type ++
     encIf (g.slice_group_map_type = 0) (g.run_length_minus1.flatMap encUE) ++
     encIf (g.slice_group_map_type = 2) (encPairs g.top_left g.bottom_right) ++
     encIf (3 ≤ g.slice_group_map_type ∧ g.slice_group_map_type ≤ 5)
       (encU 1 g.slice_group_change_direction_flag ++ encUE g.slice_group_change_rate_minus1) ++
     encIf (g.slice_group_map_type = 6)
       (encUE g.pic_size_in_map_units_minus1 ++ g.slice_group_id.flatMap (encU (groupIdBits n))))

/-- What a uint32_t ue(v) field can hold. -/
def ueRange (v : Nat) : Prop := v < 2 ^ 32 - 1

/-- Ranges, lengths and defaults of the slice group members.  Values the standard restricts further (runs, rectangle
corners, change rate, slice_group_id) are only bounded by their coding. -/
structure SliceGroups.Ok (n : Nat) (g : SliceGroups) : Prop where
  map_type : if n > 0 then g.slice_group_map_type ≤ 6 else g.slice_group_map_type = 0
  runs : if n > 0 ∧ g.slice_group_map_type = 0
    then g.run_length_minus1.length = n + 1 ∧ ∀ v ∈ g.run_length_minus1, ueRange v
    else g.run_length_minus1 = []
  corners : if n > 0 ∧ g.slice_group_map_type = 2
    then g.top_left.length = n ∧ g.bottom_right.length = n ∧ (∀ v ∈ g.top_left, ueRange v) ∧
      (∀ v ∈ g.bottom_right, ueRange v)
    else g.top_left = [] ∧ g.bottom_right = []
  change : if n > 0 ∧ 3 ≤ g.slice_group_map_type ∧ g.slice_group_map_type ≤ 5
    then g.slice_group_change_direction_flag < 2 ∧ ueRange g.slice_group_change_rate_minus1
    else g.slice_group_change_direction_flag = 0 ∧ g.slice_group_change_rate_minus1 = 0
  ids : if n > 0 ∧ g.slice_group_map_type = 6
    then g.pic_size_in_map_units_minus1 ≤ 139263 ∧ g.slice_group_id.length = g.pic_size_in_map_units_minus1 + 1 ∧
      ∀ v ∈ g.slice_group_id, v < 2 ^ groupIdBits n
    else g.pic_size_in_map_units_minus1 = 0 ∧ g.slice_group_id = []

/-- pic_parameter_set_rbsp() up to redundant_pic_cnt_present_flag. -/
def encPpsHead (p : PpsHead) : List Bool :=
  encUE p.pic_parameter_set_id ++ encUE p.seq_parameter_set_id ++ encU 1 p.entropy_coding_mode_flag ++
  encU 1 p.bottom_field_pic_order_in_frame_present_flag ++ encUE p.num_slice_groups_minus1 ++
  encSliceGroups p.num_slice_groups_minus1 p.toSliceGroups ++
  encUE p.num_ref_idx_l0_default_active_minus1 ++ encUE p.num_ref_idx_l1_default_active_minus1 ++
  encU 1 p.weighted_pred_flag ++ encU 2 p.weighted_bipred_idc ++ encSE p.pic_init_qp_minus26 ++
  encSE p.pic_init_qs_minus26 ++ encSE p.chroma_qp_index_offset ++
  encU 1 p.deblocking_filter_control_present_flag ++ encU 1 p.constrained_intra_pred_flag ++
  encU 1 p.redundant_pic_cnt_present_flag

/-- Ranges.  weighted_bipred_idc and the QP fields are only bounded by their coding. -/
structure PpsHead.Ok (p : PpsHead) : Prop where
  pic_parameter_set_id : p.pic_parameter_set_id ≤ 255
  seq_parameter_set_id : p.seq_parameter_set_id ≤ 31
  entropy_coding_mode_flag : p.entropy_coding_mode_flag < 2
  bottom_field : p.bottom_field_pic_order_in_frame_present_flag < 2
  num_slice_groups_minus1 : p.num_slice_groups_minus1 ≤ 7
  groups : p.toSliceGroups.Ok p.num_slice_groups_minus1
  l0 : p.num_ref_idx_l0_default_active_minus1 ≤ 31
  l1 : p.num_ref_idx_l1_default_active_minus1 ≤ 31
  weighted_pred_flag : p.weighted_pred_flag < 2
  weighted_bipred_idc : p.weighted_bipred_idc < 4
  pic_init_qp_minus26 : seRange p.pic_init_qp_minus26
  pic_init_qs_minus26 : seRange p.pic_init_qs_minus26
  chroma_qp_index_offset : seRange p.chroma_qp_index_offset
  deblocking : p.deblocking_filter_control_present_flag < 2
  constrained_intra_pred_flag : p.constrained_intra_pred_flag < 2
  redundant_pic_cnt_present_flag : p.redundant_pic_cnt_present_flag < 2

/-- The optional end of pic_parameter_set_rbsp(). -/
structure PpsExt where
  transform_8x8_mode_flag : Nat := 0
  pic_scaling_matrix_present_flag : Nat := 0
  lists : List (Option SL) := []
  second_chroma_qp_index_offset : Int := 0

/-- Its coding. -/
def encPpsExt (e : PpsExt) : List Bool :=
  encU 1 e.transform_8x8_mode_flag ++ encU 1 e.pic_scaling_matrix_present_flag ++ encLists e.lists ++
  encSE e.second_chroma_qp_index_offset

/-- How many scaling lists it has. -/
def ppsListCount (chroma_format_idc transform matrix : Nat) : Nat :=
  if matrix = 1 then 6 + (if chroma_format_idc ≠ 3 then 2 else 6) * transform else 0

/-- Ranges. -/
structure PpsExt.Ok (chroma_format_idc : Nat) (e : PpsExt) : Prop where
  transform_8x8_mode_flag : e.transform_8x8_mode_flag < 2
  pic_scaling_matrix_present_flag : e.pic_scaling_matrix_present_flag < 2
  count : e.lists.length =
    ppsListCount chroma_format_idc e.transform_8x8_mode_flag e.pic_scaling_matrix_present_flag
  lists : ListsOk 0 e.lists
  second_chroma_qp_index_offset : seRange e.second_chroma_qp_index_offset

/-- A picture parameter set as coded. -/
structure PpsSyn where
  head : PpsHead
  ext : Option PpsExt

/-- pic_parameter_set_rbsp() without its trailing bits. -/
def encPps (x : PpsSyn) : List Bool := encPpsHead x.head ++ encOpt encPpsExt x.ext

/-- A well-formed PPS. -/
structure PpsSyn.Ok (chroma_format_idc : Nat) (x : PpsSyn) : Prop where
  head : x.head.Ok
  ext : ∀ e, x.ext = some e → e.Ok chroma_format_idc

/-- The state the library keeps of it. -/
def PpsSyn.state (chroma_format_idc : Nat) (x : PpsSyn) : Pps :=
  match x.ext with
  | none => { toPpsHead := x.head, chroma_format_idc }
  | some e =>
    { toPpsHead := x.head, chroma_format_idc, toScal := keepLists 0 {} e.lists,
      transform_8x8_mode_flag := e.transform_8x8_mode_flag,
      pic_scaling_matrix_present_flag := e.pic_scaling_matrix_present_flag,
      second_chroma_qp_index_offset := e.second_chroma_qp_index_offset }

/-- The bits start with a PPS one of whose scaling lists is malformed. -/
def MalformedPps (chroma_format_idc : Nat) (l : List Bool) : Prop :=
  ∃ (h : PpsHead) (t m : Nat) (rest : List Bool), h.Ok ∧ t < 2 ∧ m < 2 ∧
    l = encPpsHead h ++ encU 1 t ++ encU 1 m ++ rest ∧ MalformedLists (ppsListCount chroma_format_idc t m) 0 rest

end H264

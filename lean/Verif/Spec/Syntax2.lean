import Verif.Spec.Syntax1
import Verif.Types.Sets

/-
Specification: scaling_list() (7.3.2.1.1.1), seq_parameter_set_data() (7.3.2.1.1), frame cropping and picture size
(7.4.2.1.1), rbsp_trailing_bits() (7.3.2.11) and more_rbsp_data() (7.2).
-/

namespace H264

/-! ### RBSP trailing bits -/

/-- rbsp_trailing_bits() with `k` alignment bits. -/
def trailingBits (k : Nat) : List Bool := true :: List.replicate k false

/-- 7.2: there is data before the last 1 bit (the rbsp_stop_one_bit). -/
def MoreRbspData (l : List Bool) : Prop := ∃ pre k, l = pre ++ trailingBits k ∧ pre ≠ []

/-! ### Scaling lists -/

/-- The algorithm of 7.3.2.1.1.1: with `n` entries to go, `lastScale` and `nextScale`, reading `deltas` (the
delta_scale values, each in -128..127) yields the entries `out`. -/
inductive ScalingList : (n lastScale nextScale : Nat) → (deltas : List Int) → (out : List Nat) → Prop
  | done (last next : Nat) : ScalingList 0 last next [] []
  | read {n last next : Nat} {d : Int} {ds : List Int} {nextScale entry : Nat} {out : List Nat} :
      next ≠ 0 → -128 ≤ d → d ≤ 127 →
      (nextScale : Int) = ((last : Int) + d + 256) % 256 →
      entry = (if nextScale = 0 then last else nextScale) →
      ScalingList n entry nextScale ds out →
      ScalingList (n + 1) last next (d :: ds) (entry :: out)
  | keep {n last : Nat} {ds : List Int} {out : List Nat} :
      ScalingList n last 0 ds out → ScalingList (n + 1) last 0 ds (last :: out)

/-- A scaling_list(): the delta_scale values it codes and the list they define. -/
structure SL where
  deltas : List Int
  list : List Nat
  deriving DecidableEq, Repr

/-- useDefaultScalingMatrixFlag: the first delta_scale brings nextScale to 0. -/
def SL.useDefault (x : SL) : Nat := if x.deltas.head? = some (-8) then 1 else 0

/-- The last delta_scale of the list. -/
def SL.lastDelta (x : SL) : Int := x.deltas.getLast?.getD 0

/-- Well-formed list number `i`: 16 entries for lists 0..5, 64 for the others. -/
def SL.Ok (i : Nat) (x : SL) : Prop := ScalingList (if i < 6 then 16 else 64) 8 8 x.deltas x.list

/-- The delta_scale values. -/
def encDeltas (ds : List Int) : List Bool := ds.flatMap encSE

/-- scaling_list_present_flag[ i ] and scaling_list(), for all lists. -/
def encLists : List (Option SL) → List Bool
  | [] => []
  | none :: ls => encU 1 0 ++ encLists ls
  | some x :: ls => encU 1 1 ++ encDeltas x.deltas ++ encLists ls

/-- The lists numbered from `i` on are well formed. -/
def ListsOk : Nat → List (Option SL) → Prop
  | _, [] => True
  | i, none :: ls => ListsOk (i + 1) ls
  | i, some x :: ls => x.Ok i ∧ ListsOk (i + 1) ls

/-- Set entry `i`, extending with zeros when needed. -/
def setEntry : List Nat → Nat → Nat → List Nat
  | [], 0, x => [x]
  | _ :: v, 0, x => x :: v
  | [], i + 1, x => 0 :: setEntry [] i x
  | a :: v, i + 1, x => a :: setEntry v i x

/-- What the library keeps of the lists numbered from `i` on: the presence flags, the last 4x4 list, the last 8x8
list, the useDefault flags (those of the 8x8 list `i` are kept at position `i - 6`) and the last delta_scale. -/
def keepLists : Nat → Scal → List (Option SL) → Scal
  | _, s, [] => s
  | i, s, none :: ls =>
    keepLists (i + 1) { s with scaling_list_present_flag := s.scaling_list_present_flag ++ [0] } ls
  | i, s, some x :: ls =>
    keepLists (i + 1)
      (if i < 6 then
        { scaling_list_present_flag := s.scaling_list_present_flag ++ [1], ScalingList4x4 := x.list,
          UseDefaultScalingMatrix4x4Flag := setEntry s.UseDefaultScalingMatrix4x4Flag i x.useDefault,
          ScalingList8x8 := s.ScalingList8x8, delta_scale := x.lastDelta }
       else
        { scaling_list_present_flag := s.scaling_list_present_flag ++ [1], ScalingList4x4 := s.ScalingList4x4,
          UseDefaultScalingMatrix4x4Flag := setEntry s.UseDefaultScalingMatrix4x4Flag (i - 6) x.useDefault,
          ScalingList8x8 := x.list, delta_scale := x.lastDelta }) ls

/-- No delta_scale in range starts here. -/
def BadDelta (l : List Bool) : Prop := ∀ d r, l = encSE d ++ r → ¬ (-128 ≤ d ∧ d ≤ 127)

/-- A scaling list that goes wrong after the values `deltas`: another delta_scale is due, but `rest` does not start
with one. -/
inductive BrokenList : (n lastScale nextScale : Nat) → (deltas : List Int) → (rest : List Bool) → Prop
  | here {n last next : Nat} {rest : List Bool} : next ≠ 0 → BadDelta rest → BrokenList (n + 1) last next [] rest
  | later {n last next : Nat} {d : Int} {ds : List Int} {nextScale : Nat} {rest : List Bool} :
      next ≠ 0 → -128 ≤ d → d ≤ 127 →
      (nextScale : Int) = ((last : Int) + d + 256) % 256 →
      BrokenList n (if nextScale = 0 then last else nextScale) nextScale ds rest →
      BrokenList (n + 1) last next (d :: ds) rest

/-- Among the `n` lists numbered from `i` on, one is present and malformed. -/
def MalformedLists (n i : Nat) (l : List Bool) : Prop :=
  ∃ ls ds rest, ls.length < n ∧ ListsOk i ls ∧ l = encLists ls ++ encU 1 1 ++ encDeltas ds ++ rest ∧
    BrokenList (if i + ls.length < 6 then 16 else 64) 8 8 ds rest

/-! ### SPS -/

/-- The profiles that carry the chroma format fields. -/
def chromaProfiles : List Nat := [100, 110, 122, 244, 44, 83, 86, 118, 128, 138, 139, 134, 135]

/-- seq_parameter_set_data() up to seq_scaling_matrix_present_flag. -/
def encSpsHead (h : SpsHead) : List Bool :=
  encU 8 h.profile_idc ++ encU 1 h.constraint_set0_flag ++ encU 1 h.constraint_set1_flag ++
  encU 1 h.constraint_set2_flag ++ encU 1 h.constraint_set3_flag ++ encU 1 h.constraint_set4_flag ++
  encU 1 h.constraint_set5_flag ++ encU 2 h.reserved_zero_2bits ++ encU 8 h.level_idc ++
  encUE h.seq_parameter_set_id ++
  encIf (h.profile_idc ∈ chromaProfiles)
    (encUE h.chroma_format_idc ++ encIf (h.chroma_format_idc = 3) (encU 1 h.separate_colour_plane_flag) ++
     encUE h.bit_depth_luma_minus8 ++ encUE h.bit_depth_chroma_minus8 ++
     encU 1 h.qpprime_y_zero_transform_bypass_flag ++ encU 1 h.seq_scaling_matrix_present_flag)

/-- Ranges (7.4.2.1.1), and inferred values of absent fields. -/
structure SpsHead.Ok (h : SpsHead) : Prop where
  profile_idc : h.profile_idc < 256
  constraint_set0_flag : h.constraint_set0_flag < 2
  constraint_set1_flag : h.constraint_set1_flag < 2
  constraint_set2_flag : h.constraint_set2_flag < 2
  constraint_set3_flag : h.constraint_set3_flag < 2
  constraint_set4_flag : h.constraint_set4_flag < 2
  constraint_set5_flag : h.constraint_set5_flag < 2
  reserved_zero_2bits : h.reserved_zero_2bits < 4
  level_idc : h.level_idc < 256
  seq_parameter_set_id : h.seq_parameter_set_id ≤ 31
  chroma_format_idc : h.chroma_format_idc ≤ 3
  separate_colour_plane_flag : h.separate_colour_plane_flag < 2
  no_separate : h.chroma_format_idc ≠ 3 → h.separate_colour_plane_flag = 0
  bit_depth_luma_minus8 : h.bit_depth_luma_minus8 ≤ 6
  bit_depth_chroma_minus8 : h.bit_depth_chroma_minus8 ≤ 6
  qpprime_y_zero_transform_bypass_flag : h.qpprime_y_zero_transform_bypass_flag < 2
  seq_scaling_matrix_present_flag : h.seq_scaling_matrix_present_flag < 2
  inferred : h.profile_idc ∉ chromaProfiles →
    h.chroma_format_idc = 1 ∧ h.bit_depth_luma_minus8 = 0 ∧ h.bit_depth_chroma_minus8 = 0 ∧
    h.qpprime_y_zero_transform_bypass_flag = 0 ∧ h.seq_scaling_matrix_present_flag = 0

/-- ChromaArrayType (7.4.2.1.1). -/
def chromaArrayType (h : SpsHead) : Nat := if h.separate_colour_plane_flag = 1 then 0 else h.chroma_format_idc

/-- SubWidthC (Table 6-1), for chroma formats 4:2:0, 4:2:2, 4:4:4. -/
def subWidthC (cat : Nat) : Nat := if cat = 3 then 1 else 2
/-- SubHeightC (Table 6-1). -/
def subHeightC (cat : Nat) : Nat := if cat = 1 then 2 else 1
/-- CropUnitX, equations 7-19 and 7-21. -/
def cropUnitX (h : SpsHead) : Nat := if chromaArrayType h = 0 then 1 else subWidthC (chromaArrayType h)
/-- CropUnitY, equations 7-20 and 7-22. -/
def cropUnitY (h : SpsHead) (frame_mbs_only_flag : Nat) : Nat :=
  if chromaArrayType h = 0 then 2 - frame_mbs_only_flag
  else subHeightC (chromaArrayType h) * (2 - frame_mbs_only_flag)
/-- PicWidthInSamplesL, equations 7-13, 7-14. -/
def picWidth (t : SpsTail) : Nat := 16 * (t.pic_width_in_mbs_minus1 + 1)
/-- 16 * FrameHeightInMbs, equations 7-17, 7-18. -/
def frameHeight (t : SpsTail) : Nat := 16 * ((2 - t.frame_mbs_only_flag) * (t.pic_height_in_map_units_minus1 + 1))
/-- Samples cropped off horizontally. -/
def cropX (h : SpsHead) (t : SpsTail) : Nat := cropUnitX h * (t.frame_crop_left_offset + t.frame_crop_right_offset)
/-- Samples cropped off vertically. -/
def cropY (h : SpsHead) (t : SpsTail) : Nat :=
  cropUnitY h t.frame_mbs_only_flag * (t.frame_crop_top_offset + t.frame_crop_bottom_offset)

/-- seq_parameter_set_data() from log2_max_frame_num_minus4 on. -/
def encSpsTail (t : SpsTail) : List Bool :=
  encUE t.log2_max_frame_num_minus4 ++ encUE t.pic_order_cnt_type ++
  encIf (t.pic_order_cnt_type = 0) (encUE t.log2_max_pic_order_cnt_lsb_minus4) ++
  encIf (t.pic_order_cnt_type = 1)
    (encU 1 t.delta_pic_order_always_zero_flag ++ encSE t.offset_for_non_ref_pic ++
     encSE t.offset_for_top_to_bottom_field ++ encUE t.num_ref_frames_in_pic_order_cnt_cycle ++
     t.offset_for_ref_frame.flatMap encSE) ++
  encUE t.max_num_ref_frames ++ encU 1 t.gaps_in_frame_num_value_allowed_flag ++
  encUE t.pic_width_in_mbs_minus1 ++ encUE t.pic_height_in_map_units_minus1 ++ encU 1 t.frame_mbs_only_flag ++
  encIf (t.frame_mbs_only_flag = 0) (encU 1 t.mb_adaptive_frame_field_flag) ++
  encU 1 t.direct_8x8_inference_flag ++ encU 1 t.frame_cropping_flag ++
  encIf (t.frame_cropping_flag = 1)
    (encUE t.frame_crop_left_offset ++ encUE t.frame_crop_right_offset ++ encUE t.frame_crop_top_offset ++
     encUE t.frame_crop_bottom_offset) ++
  encU 1 t.vui_parameters_present_flag ++
  encIf (t.vui_parameters_present_flag = 1) (encOpt encVui t.vui_parameters)

/-- What an `int32_t` se(v) field can hold. -/
def seRange (v : Int) : Prop := -(2 ^ 31) < v ∧ v < 2 ^ 31

/-- Ranges and inferred values.  Width and height are bounded by the library (1056 macroblocks), the rest by
7.4.2.1.1. -/
structure SpsTail.Ok (h : SpsHead) (t : SpsTail) : Prop where
  log2_max_frame_num_minus4 : t.log2_max_frame_num_minus4 ≤ 12
  pic_order_cnt_type : t.pic_order_cnt_type ≤ 2
  poc0 : if t.pic_order_cnt_type = 0 then t.log2_max_pic_order_cnt_lsb_minus4 ≤ 12
         else t.log2_max_pic_order_cnt_lsb_minus4 = 0
  poc1 : if t.pic_order_cnt_type = 1
    then t.delta_pic_order_always_zero_flag < 2 ∧ seRange t.offset_for_non_ref_pic ∧
         seRange t.offset_for_top_to_bottom_field ∧ t.num_ref_frames_in_pic_order_cnt_cycle ≤ 255 ∧
         t.offset_for_ref_frame.length = t.num_ref_frames_in_pic_order_cnt_cycle ∧
         ∀ v ∈ t.offset_for_ref_frame, seRange v
    else t.delta_pic_order_always_zero_flag = 0 ∧ t.offset_for_non_ref_pic = 0 ∧
         t.offset_for_top_to_bottom_field = 0 ∧ t.num_ref_frames_in_pic_order_cnt_cycle = 0 ∧
         t.offset_for_ref_frame = []
  max_num_ref_frames : t.max_num_ref_frames ≤ 16
  gaps : t.gaps_in_frame_num_value_allowed_flag < 2
  width : t.pic_width_in_mbs_minus1 ≤ 1055
  height : t.pic_height_in_map_units_minus1 ≤ 1055
  frame_mbs_only_flag : t.frame_mbs_only_flag < 2
  mbaff : if t.frame_mbs_only_flag = 0 then t.mb_adaptive_frame_field_flag < 2
          else t.mb_adaptive_frame_field_flag = 0
  direct : t.direct_8x8_inference_flag < 2
  crop_flag : t.frame_cropping_flag < 2
  no_crop : t.frame_cropping_flag ≠ 1 → t.frame_crop_left_offset = 0 ∧ t.frame_crop_right_offset = 0 ∧
    t.frame_crop_top_offset = 0 ∧ t.frame_crop_bottom_offset = 0
  crop_left : t.frame_crop_left_offset ≤ 16880
  crop_right : t.frame_crop_right_offset ≤ 16880
  crop_top : t.frame_crop_top_offset ≤ 16880
  crop_bottom : t.frame_crop_bottom_offset ≤ 16880
  cropX : cropX h t < picWidth t
  cropY : cropY h t < frameHeight t
  vui_flag : t.vui_parameters_present_flag < 2
  vui : if t.vui_parameters_present_flag = 1 then ∃ v, t.vui_parameters = some v ∧ v.Ok
        else t.vui_parameters = none

/-- A sequence parameter set as coded: all the fields, and every scaling list. -/
structure SpsSyn where
  head : SpsHead
  lists : List (Option SL)
  tail : SpsTail

/-- seq_parameter_set_data(). -/
def encSps (x : SpsSyn) : List Bool := encSpsHead x.head ++ encLists x.lists ++ encSpsTail x.tail

/-- How many scaling lists there are. -/
def spsListCount (h : SpsHead) : Nat :=
  if h.seq_scaling_matrix_present_flag = 1 then (if h.chroma_format_idc = 3 then 12 else 8) else 0

/-- A well-formed SPS. -/
structure SpsSyn.Ok (x : SpsSyn) : Prop where
  head : x.head.Ok
  count : x.lists.length = spsListCount x.head
  lists : ListsOk 0 x.lists
  tail : x.tail.Ok x.head

/-- The state the library keeps of it. -/
def SpsSyn.state (x : SpsSyn) : SpsData :=
  { toSpsHead := x.head, toScal := keepLists 0 {} x.lists, toSpsTail := x.tail }

/-- The bits start with an SPS one of whose scaling lists is malformed. -/
def MalformedSps (l : List Bool) : Prop :=
  ∃ h rest, h.Ok ∧ l = encSpsHead h ++ rest ∧ MalformedLists (spsListCount h) 0 rest

end H264

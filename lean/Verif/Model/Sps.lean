import Verif.Model.Basic
import Verif.Types.Sets

/-
Model of more_rbsp_data(), rbsp_trailing_bits(), scaling_list() and the SPS parser.
-/

namespace H264
open Prog

/-- `static_cast<uint32_t>(int)`, src/h264_sps_parser.cc:462, 465 and 689. -/
@[irreducible] def toU32 (x : Int) : Nat := (x % 2 ^ 32).toNat

/-- `more_rbsp_data` (src/h264_common.cc:268-320). -/
def moreRbspData : Prog Bool := do
  let n ← remaining
  if n = 0 then pure false
  else if n > 8 then pure true
  else do
    let r ← (peek n).attempt
    match r with
    | none => pure false
    | some v => pure (!(v == 2 ^ (n - 1)))

/-- The loop of `rbsp_trailing_bits` (src/h264_common.cc:333-341).  The fuel bounds the number of iterations; running
out of it would be `Bad.fuel`, which is proved impossible. -/
def trailingLoop : Nat → Prog Unit
  | 0 => .bad .fuel
  | n + 1 => do
    let al ← aligned
    if al then pure ()
    else do
      let b ← u 1
      guard (b = 0)
      trailingLoop n

/-- `rbsp_trailing_bits` (src/h264_common.cc:322-343); `null` stands for false. -/
def rbspTrailingBits : Prog Unit := do
  let b ← u 1
  guard (b = 1)
  let n ← remaining
  trailingLoop (n + 1)

/-- `while (v.size() <= i) v.push_back(0); v[i] = x;` (src/h264_sps_parser.cc:693-696 and 699-702). -/
def setGrow (v : List Nat) (i x : Nat) : List Nat := (v ++ List.replicate (i + 1 - v.length) 0).set i x

/-- What `scaling_list` (src/h264_sps_parser.cc:662-706) writes: the list, the flags, `delta_scale`. -/
structure SLSt where
  list : List Nat := []
  useDef : List Nat := []
  delta : Int := 0
  deriving DecidableEq, Repr

/-- The loop of `scaling_list` (src/h264_sps_parser.cc:669-704, same code in src/h264_pps_parser.cc:352-385): `n`
iterations left, current `j`, `lastScale`, `nextScale`.  The Bool is the value returned. -/
def scalingLoop (i : Nat) : (n j last next : Nat) → SLSt → Prog (Bool × SLSt)
  | 0, _, _, _, s => pure (true, s)
  | n + 1, j, last, next, s =>
    if next ≠ 0 then do
      let d ← se.attempt
      match d with
      | none => pure (false, s)
      | some d =>
        if d < -128 ∨ d > 127 then pure (false, { s with delta := d })
        else do
          let x ← lift (sint (toI32 last + d))
          let y ← lift (sint (x + 256))
          let next' := toU32 y % 256
          let v := if next' = 0 then last else next'
          scalingLoop i n (j + 1) v next'
            { list := setGrow s.list j v,
              useDef := setGrow s.useDef i (if j = 0 ∧ next' = 0 then 1 else 0), delta := d }
    else
      scalingLoop i n (j + 1) last next { s with list := setGrow s.list j last }

/-- `scaling_list` (src/h264_sps_parser.cc:662-706, src/h264_pps_parser.cc:345-387). -/
def scalingList (i size : Nat) (s : SLSt) : Prog (Bool × SLSt) := scalingLoop i size 0 8 8 s

/-- The two calls of src/h264_sps_parser.cc:194-203 (src/h264_pps_parser.cc:311-317): list `i`, result ignored.  Note
that the 8x8 call passes the 4x4 flags. -/
def scalingCall (i : Nat) (s : Scal) : Prog Scal :=
  if i < 6 then do
    let r ← scalingList i 16 ⟨s.ScalingList4x4, s.UseDefaultScalingMatrix4x4Flag, s.delta_scale⟩
    pure { s with ScalingList4x4 := r.2.list, UseDefaultScalingMatrix4x4Flag := r.2.useDef,
                  delta_scale := r.2.delta }
  else do
    let r ← scalingList (i - 6) 64 ⟨s.ScalingList8x8, s.UseDefaultScalingMatrix4x4Flag, s.delta_scale⟩
    pure { s with ScalingList8x8 := r.2.list, UseDefaultScalingMatrix4x4Flag := r.2.useDef,
                  delta_scale := r.2.delta }

/-- The loop over the scaling lists (src/h264_sps_parser.cc:184-204, src/h264_pps_parser.cc:303-319): `n` lists left,
the next one being list `i`. -/
def scalingLists : (n i : Nat) → Scal → Prog Scal
  | 0, _, s => pure s
  | n + 1, i, s => do
    let f ← u 1
    let s := { s with scaling_list_present_flag := s.scaling_list_present_flag ++ [f] }
    let s ← opt (f ≠ 0) s (scalingCall i s)
    scalingLists n (i + 1) s

/-- The profiles of src/h264_sps_parser.cc:107-113. -/
def hasChromaInfo (p : Nat) : Bool :=
  p == 100 || p == 110 || p == 122 || p == 244 || p == 44 || p == 83 || p == 86 || p == 118 || p == 128 || p == 138 ||
  p == 139 || p == 134 || p == 135

/-- src/h264_sps_parser.cc:114-181: (chroma_format_idc, separate_colour_plane_flag, bit_depth_luma_minus8,
bit_depth_chroma_minus8, qpprime_y_zero_transform_bypass_flag, seq_scaling_matrix_present_flag). -/
def parseChromaInfo (profile_idc : Nat) : Prog (Nat × Nat × Nat × Nat × Nat × Nat) :=
  opt (hasChromaInfo profile_idc = true) (1, 0, 0, 0, 0, 0) do
    let cfi ← ueIn 0 3
    let sep ← opt (cfi = 3) 0 (u 1)
    let bdl ← ueIn 0 6
    let bdc ← ueIn 0 6
    let qp ← u 1
    let sm ← u 1
    pure (cfi, sep, bdl, bdc, qp, sm)

/-- src/h264_sps_parser.cc:42-181. -/
def parseSpsHead : Prog SpsHead := do
  let profile_idc ← u 8
  let constraint_set0_flag ← u 1
  let constraint_set1_flag ← u 1
  let constraint_set2_flag ← u 1
  let constraint_set3_flag ← u 1
  let constraint_set4_flag ← u 1
  let constraint_set5_flag ← u 1
  let reserved_zero_2bits ← u 2
  let level_idc ← u 8
  let seq_parameter_set_id ← ueIn 0 31
  let t ← parseChromaInfo profile_idc
  pure { profile_idc, constraint_set0_flag, constraint_set1_flag, constraint_set2_flag, constraint_set3_flag,
         constraint_set4_flag, constraint_set5_flag, reserved_zero_2bits, level_idc, seq_parameter_set_id,
         chroma_format_idc := t.1, separate_colour_plane_flag := t.2.1, bit_depth_luma_minus8 := t.2.2.1,
         bit_depth_chroma_minus8 := t.2.2.2.1, qpprime_y_zero_transform_bypass_flag := t.2.2.2.2.1,
         seq_scaling_matrix_present_flag := t.2.2.2.2.2 }

/-- `getChromaArrayType` (src/h264_sps_parser.cc:555-569). -/
def SpsHead.getChromaArrayType (h : SpsHead) : Nat :=
  if h.separate_colour_plane_flag = 0 then h.chroma_format_idc else 0

/-- `getSubWidthC` (src/h264_sps_parser.cc:571-590). -/
def SpsHead.getSubWidthC (h : SpsHead) : Int :=
  if h.chroma_format_idc = 0 ∧ h.separate_colour_plane_flag = 0 then -1
  else if h.chroma_format_idc = 1 ∧ h.separate_colour_plane_flag = 0 then 2
  else if h.chroma_format_idc = 2 ∧ h.separate_colour_plane_flag = 0 then 2
  else if h.chroma_format_idc = 3 ∧ h.separate_colour_plane_flag = 0 then 1
  else -1

/-- `getSubHeightC` (src/h264_sps_parser.cc:592-611). -/
def SpsHead.getSubHeightC (h : SpsHead) : Int :=
  if h.chroma_format_idc = 0 ∧ h.separate_colour_plane_flag = 0 then -1
  else if h.chroma_format_idc = 1 ∧ h.separate_colour_plane_flag = 0 then 2
  else if h.chroma_format_idc = 2 ∧ h.separate_colour_plane_flag = 0 then 1
  else if h.chroma_format_idc = 3 ∧ h.separate_colour_plane_flag = 0 then 1
  else -1

/-- `getCropUnitX` (src/h264_sps_parser.cc:613-619). -/
def SpsHead.getCropUnitX (h : SpsHead) : Int :=
  if h.getChromaArrayType = 0 then 1 else h.getSubWidthC

/-- `getCropUnitY` (src/h264_sps_parser.cc:621-625); `int` arithmetic. -/
def SpsHead.getCropUnitY (h : SpsHead) (frame_mbs_only_flag : Nat) : Res Int := do
  let s : Int := if h.getChromaArrayType = 0 then 1 else h.getSubHeightC
  let d ← sint (2 - toI32 frame_mbs_only_flag)
  sint (s * d)

/-- The check of src/h264_sps_parser.cc:457-477 on (left, right, top, bottom): true = accepted.  All the arithmetic is
`uint32_t`. -/
def cropOk (h : SpsHead) (mbs_w mbs_h fmo : Nat) (c : Nat × Nat × Nat × Nat) : Res Bool := do
  let picW := mul32 16 (add32 mbs_w 1)
  let picH := mul32 (mul32 16 (sub32 2 fmo)) (add32 mbs_h 1)
  let cw := mul32 (toU32 h.getCropUnitX) (add32 c.1 c.2.1)
  let uy ← h.getCropUnitY fmo
  let ch := mul32 (toU32 uy) (add32 c.2.2.1 c.2.2.2)
  pure (!(decide (cw ≥ picW) || decide (ch ≥ picH)))

/-- src/h264_sps_parser.cc:387-478: (left, right, top, bottom). -/
def parseCrop (h : SpsHead) (mbs_w mbs_h fmo flag : Nat) : Prog (Nat × Nat × Nat × Nat) := opt (flag ≠ 0) (0, 0, 0, 0) do
  let l ← ueIn 0 (1055 * 16)
  let r ← ueIn 0 (1055 * 16)
  let t ← ueIn 0 (1055 * 16)
  let b ← ueIn 0 (1055 * 16)
  let ok ← lift (cropOk h mbs_w mbs_h fmo (l, r, t, b))
  guard (ok = true)
  pure (l, r, t, b)

/-- src/h264_sps_parser.cc:263-309: the picture order count fields, (log2_max_pic_order_cnt_lsb_minus4,
delta_pic_order_always_zero_flag, offset_for_non_ref_pic, offset_for_top_to_bottom_field,
num_ref_frames_in_pic_order_cnt_cycle, offset_for_ref_frame) -/
def parsePoc (t : Nat) : Prog (Nat × Nat × Int × Int × Nat × List Int) :=
  if t = 0 then do
    let l ← ueIn 0 12
    pure (l, 0, 0, 0, 0, [])
  else opt (t = 1) (0, 0, 0, 0, 0, []) do
    let z ← u 1
    let a ← se
    let b ← se
    let n ← ueIn 0 255
    let os ← se.rep n
    pure (0, z, a, b, n, os)

/-- src/h264_sps_parser.cc:485-492. -/
def parseOptVui (flag : Nat) : Prog (Option Vui) := opt (flag ≠ 0) none do
  let v ← parseVui
  pure (some v)

/-- src/h264_sps_parser.cc:208-494. -/
def parseSpsTail (h : SpsHead) : Prog SpsTail := do
  let log2_max_frame_num_minus4 ← ueIn 0 12
  let pic_order_cnt_type ← ueIn 0 2
  let p ← parsePoc pic_order_cnt_type
  let max_num_ref_frames ← ueIn 0 16
  let gaps_in_frame_num_value_allowed_flag ← u 1
  let pic_width_in_mbs_minus1 ← ueIn 0 1055
  let pic_height_in_map_units_minus1 ← ueIn 0 1055
  let frame_mbs_only_flag ← u 1
  let mb_adaptive_frame_field_flag ← opt (frame_mbs_only_flag = 0) 0 (u 1)
  let direct_8x8_inference_flag ← u 1
  let frame_cropping_flag ← u 1
  let c ← parseCrop h pic_width_in_mbs_minus1 pic_height_in_map_units_minus1 frame_mbs_only_flag frame_cropping_flag
  let vui_parameters_present_flag ← u 1
  let vui_parameters ← parseOptVui vui_parameters_present_flag
  pure { log2_max_frame_num_minus4, pic_order_cnt_type, log2_max_pic_order_cnt_lsb_minus4 := p.1,
         delta_pic_order_always_zero_flag := p.2.1, offset_for_non_ref_pic := p.2.2.1,
         offset_for_top_to_bottom_field := p.2.2.2.1, num_ref_frames_in_pic_order_cnt_cycle := p.2.2.2.2.1,
         offset_for_ref_frame := p.2.2.2.2.2, max_num_ref_frames, gaps_in_frame_num_value_allowed_flag,
         pic_width_in_mbs_minus1, pic_height_in_map_units_minus1, frame_mbs_only_flag,
         mb_adaptive_frame_field_flag, direct_8x8_inference_flag, frame_cropping_flag,
         frame_crop_left_offset := c.1, frame_crop_right_offset := c.2.1, frame_crop_top_offset := c.2.2.1,
         frame_crop_bottom_offset := c.2.2.2, vui_parameters_present_flag, vui_parameters }

/-- `ParseSpsData(BitBuffer*)` (src/h264_sps_parser.cc:32-495).  The derived member `profile_type` is
`SpsHead.getProfileType`. -/
def parseSpsData : Prog SpsData := do
  let h ← parseSpsHead
  let s ← opt (h.seq_scaling_matrix_present_flag ≠ 0) {}
    (scalingLists (if h.chroma_format_idc ≠ 3 then 8 else 12) 0 {})
  let t ← parseSpsTail h
  pure { toSpsHead := h, toScal := s, toSpsTail := t }

/-- `ParseSps(BitBuffer*)` (src/h264_sps_parser.cc:716-732).  The result of `rbsp_trailing_bits` is ignored.
`SpsState` only wraps `SpsDataState`. -/
def parseSps : Prog SpsData := do
  let d ← parseSpsData
  let _ ← rbspTrailingBits.attempt
  pure d

/-- `ProfileType` (include/h264_common.h:89-108). -/
inductive ProfileType where
  | UNSPECIFIED | BASELINE | CONSTRAINED_BASELINE | MAIN | EXTENDED | HIGH | PROGRESSIVE_HIGH | CONSTRAINED_HIGH
  | HIGH_10 | PROGRESSIVE_HIGH_10 | HIGH_10_INTRA | HIGH_422 | HIGH_422_INTRA | HIGH_444 | HIGH_444_INTRA
  | HIGH_444_PRED | HIGH_444_PRED_INTRA | CAVLC_444_INTRA
  deriving DecidableEq, Repr

/-- `GetProfileType` (src/h264_sps_parser.cc:497-553). -/
def SpsHead.getProfileType (h : SpsHead) : ProfileType :=
  match h.profile_idc with
  | 66 => if h.constraint_set1_flag = 1 then .CONSTRAINED_BASELINE else .BASELINE
  | 77 => .MAIN
  | 88 => .EXTENDED
  | 100 => if h.constraint_set4_flag = 1 then .PROGRESSIVE_HIGH
           else if h.constraint_set5_flag = 1 then .CONSTRAINED_HIGH else .HIGH
  | 110 => if h.constraint_set3_flag = 1 then .HIGH_10_INTRA
           else if h.constraint_set4_flag = 1 then .PROGRESSIVE_HIGH_10 else .HIGH_10
  | 122 => if h.constraint_set3_flag = 1 then .HIGH_422_INTRA else .HIGH_422
  | 144 => if h.constraint_set3_flag = 1 then .HIGH_444_INTRA else .HIGH_444
  | 244 => if h.constraint_set3_flag = 1 then .HIGH_444_PRED_INTRA else .HIGH_444_PRED
  | 44 => .CAVLC_444_INTRA
  | _ => .UNSPECIFIED

/-- `getResolution` with non-null arguments (src/h264_sps_parser.cc:627-660): `none` when it returns -1, otherwise
(width, height).  `int` arithmetic, except the `uint32_t` product on line 643. -/
def SpsData.getResolution (s : SpsData) : Res (Option (Int × Int)) := do
  let ux := s.getCropUnitX
  let uy ← s.getCropUnitY s.frame_mbs_only_flag
  let d ← sint (2 - toI32 s.frame_mbs_only_flag)
  let fh ← sint (d * toI32 (add32 s.pic_height_in_map_units_minus1 1))
  let w0 := toI32 (mul32 16 (add32 s.pic_width_in_mbs_minus1 1))
  let h0 ← sint (16 * fh)
  let cl ← sint (ux * toI32 s.frame_crop_left_offset)
  let cr ← sint (ux * toI32 s.frame_crop_right_offset)
  let cx ← sint (cl + cr)
  let w ← sint (w0 - cx)
  let ct ← sint (uy * toI32 s.frame_crop_top_offset)
  let cb ← sint (uy * toI32 s.frame_crop_bottom_offset)
  let cy ← sint (ct + cb)
  let h ← sint (h0 - cy)
  pure (if w ≤ 0 ∨ h ≤ 0 then none else some (w, h))

end H264

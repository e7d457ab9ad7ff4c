import Verif.Loop
import Verif.Types.Slice

/-
Model of the reference picture list modification, decoded reference picture marking and prediction weight table parsers.
-/

namespace H264
open Prog

/-- One iteration of the loops of src/h264_ref_pic_list_modification_parser.cc:55-87 and 100-132; `none` for the
closing 3. -/
def parseModOp : Prog (Option (Nat × Nat)) := do
  let idc ← ue
  guard (¬ idc > 3)
  if idc = 0 ∨ idc = 1 then do
    let v ← ue
    pure (some (idc, v))
  else if idc = 2 then do
    let v ← ue
    pure (some (idc, v))
  else pure none

/-- src/h264_ref_pic_list_modification_parser.cc:46-88 (list 0) and 92-133 (list 1): the flag and the operations. -/
def parseModList : Prog (Nat × List (Nat × Nat)) := do
  let f ← u 1
  let ops ← opt (f ≠ 0) [] parseModOp.loop
  pure (f, ops)

/-- `ParseRefPicListModification(BitBuffer*, slice_type)` (src/h264_ref_pic_list_modification_parser.cc:32-137).
Pushing into the three vectors is represented by collecting the operations. -/
def parseRefPicListMod (slice_type : Nat) : Prog RefPicListMod := do
  let l0 ← opt (slice_type % 5 ≠ 2 ∧ slice_type % 5 ≠ 4) (0, []) parseModList
  let l1 ← opt (slice_type % 5 = 1) (0, []) parseModList
  pure { slice_type, ref_pic_list_modification_flag_l0 := l0.1, ops_l0 := l0.2,
         ref_pic_list_modification_flag_l1 := l1.1, ops_l1 := l1.2 }

/-- The body of the loop of src/h264_dec_ref_pic_marking_parser.cc:65-117. -/
def parseMmcoBody : Prog Mmco := do
  let op ← ue
  guard (¬ op > 6)
  let difference_of_pic_nums_minus1 ← opt (op = 1 ∨ op = 3) 0 ue
  let long_term_pic_num ← opt (op = 2) 0 ue
  let long_term_frame_idx ← opt (op = 3 ∨ op = 6) 0 ue
  let max_long_term_frame_idx_plus1 ← opt (op = 4) 0 ue
  pure { memory_management_control_operation := op, difference_of_pic_nums_minus1, long_term_pic_num,
         long_term_frame_idx, max_long_term_frame_idx_plus1 }

/-- One iteration, with the loop condition of src/h264_dec_ref_pic_marking_parser.cc:118-119; `none` for the closing 0. -/
def parseMmco : Prog (Option Mmco) := do
  let o ← parseMmcoBody
  pure (if o.memory_management_control_operation ≠ 0 then some o else none)

/-- `ParseDecRefPicMarking(BitBuffer*, IdrPicFlag)` (src/h264_dec_ref_pic_marking_parser.cc:31-124). -/
def parseDecRefPicMarking (IdrPicFlag : Nat) : Prog DecRefPicMarking :=
  if IdrPicFlag ≠ 0 then do
    let no_output_of_prior_pics_flag ← u 1
    let long_term_reference_flag ← u 1
    pure { IdrPicFlag, no_output_of_prior_pics_flag, long_term_reference_flag }
  else do
    let adaptive_ref_pic_marking_mode_flag ← u 1
    let ops ← opt (adaptive_ref_pic_marking_mode_flag ≠ 0) [] parseMmco.loop
    pure { IdrPicFlag, adaptive_ref_pic_marking_mode_flag, ops }

/-- src/h264_pred_weight_table_parser.cc:104-116 and 155-167: (luma_weight, luma_offset). -/
def parseLumaWeight : Prog (Int × Int) := do
  let w ← se
  let o ← se
  pure (w, o)

/-- src/h264_pred_weight_table_parser.cc:125-141 and 177-193: (chroma_weight_flag, weight 0, offset 0, weight 1, offset 1). -/
def parseChromaWeight : Prog (Nat × Int × Int × Int × Int) := do
  let f ← u 1
  let c ← opt (f ≠ 0) (0, 0, 0, 0) do
    let w0 ← se
    let o0 ← se
    let w1 ← se
    let o1 ← se
    pure (w0, o0, w1, o1)
  pure (f, c)

/-- One iteration of the loops of src/h264_pred_weight_table_parser.cc:96-143 and 147-195. -/
def parseWeight (chroma_array_type : Nat) : Prog Weight := do
  let luma_weight_flag ← u 1
  let l ← opt (luma_weight_flag ≠ 0) (0, 0) parseLumaWeight
  let c ← opt (chroma_array_type ≠ 0) (0, 0, 0, 0, 0) parseChromaWeight
  pure { luma_weight_flag, luma_weight := l.1, luma_offset := l.2, chroma_weight_flag := c.1,
         chroma_weight_0 := c.2.1, chroma_offset_0 := c.2.2.1, chroma_weight_1 := c.2.2.2.1,
         chroma_offset_1 := c.2.2.2.2 }

/-- `ParsePredWeightTable(BitBuffer*, ...)` (src/h264_pred_weight_table_parser.cc:35-199).  A
num_ref_idx_lX_active_minus1 of 2^32-1, for which the `<=` of the loops never fails, cannot come from a slice header
and is not modelled. -/
def parsePredWeightTable (chroma_array_type slice_type num_ref_idx_l0_active_minus1 num_ref_idx_l1_active_minus1 : Nat) :
    Prog PredWeightTable := do
  let luma_log2_weight_denom ← ueIn 0 7
  let chroma_log2_weight_denom ← opt (chroma_array_type ≠ 0) 0 (ueIn 0 7)
  let l0 ← (parseWeight chroma_array_type).rep (num_ref_idx_l0_active_minus1 + 1)
  let l1 ← opt (slice_type = 1 ∨ slice_type = 6) []
    ((parseWeight chroma_array_type).rep (num_ref_idx_l1_active_minus1 + 1))
  pure { chroma_array_type, slice_type, num_ref_idx_l0_active_minus1, num_ref_idx_l1_active_minus1,
         luma_log2_weight_denom, chroma_log2_weight_denom, l0, l1 }

end H264

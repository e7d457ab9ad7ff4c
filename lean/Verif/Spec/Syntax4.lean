import Verif.Spec.Syntax3
import Verif.Types.Slice

/-
Specification: reference picture list modification (7.3.3.1), prediction weight table (7.3.3.2) and decoded reference
picture marking (7.3.3.3) syntax.
-/

namespace H264

/-- modification_of_pic_nums_idc 0..2 and its operand. -/
def encModOp (o : Nat × Nat) : List Bool := encUE o.1 ++ encUE o.2

/-- A list of modifications, ended by 3. -/
def encModList (flag : Nat) (ops : List (Nat × Nat)) : List Bool :=
  encU 1 flag ++ encIf (flag = 1) (ops.flatMap encModOp ++ encUE 3)

/-- Ranges of one list. -/
def ModListOk (flag : Nat) (ops : List (Nat × Nat)) : Prop :=
  flag < 2 ∧ if flag = 1 then ∀ o ∈ ops, o.1 ≤ 2 ∧ ueRange o.2 else ops = []

/-- ref_pic_list_modification(): list 0 for slices other than I and SI, list 1 for B slices. -/
def encRefPicListMod (m : RefPicListMod) : List Bool :=
  encIf (m.slice_type % 5 ≠ 2 ∧ m.slice_type % 5 ≠ 4) (encModList m.ref_pic_list_modification_flag_l0 m.ops_l0) ++
  encIf (m.slice_type % 5 = 1) (encModList m.ref_pic_list_modification_flag_l1 m.ops_l1)

/-- Ranges and defaults. -/
structure RefPicListMod.Ok (st : Nat) (m : RefPicListMod) : Prop where
  slice_type : m.slice_type = st
  l0 : if st % 5 ≠ 2 ∧ st % 5 ≠ 4 then ModListOk m.ref_pic_list_modification_flag_l0 m.ops_l0
    else m.ref_pic_list_modification_flag_l0 = 0 ∧ m.ops_l0 = []
  l1 : if st % 5 = 1 then ModListOk m.ref_pic_list_modification_flag_l1 m.ops_l1
    else m.ref_pic_list_modification_flag_l1 = 0 ∧ m.ops_l1 = []

/-- A memory management control operation with its operands. -/
def encMmco (o : Mmco) : List Bool :=
  encUE o.memory_management_control_operation ++
  encIf (o.memory_management_control_operation = 1 ∨ o.memory_management_control_operation = 3)
    (encUE o.difference_of_pic_nums_minus1) ++
  encIf (o.memory_management_control_operation = 2) (encUE o.long_term_pic_num) ++
  encIf (o.memory_management_control_operation = 3 ∨ o.memory_management_control_operation = 6)
    (encUE o.long_term_frame_idx) ++
  encIf (o.memory_management_control_operation = 4) (encUE o.max_long_term_frame_idx_plus1)

/-- Ranges and defaults. -/
structure Mmco.Ok (o : Mmco) : Prop where
  op : 1 ≤ o.memory_management_control_operation ∧ o.memory_management_control_operation ≤ 6
  difference : if o.memory_management_control_operation = 1 ∨ o.memory_management_control_operation = 3
    then ueRange o.difference_of_pic_nums_minus1 else o.difference_of_pic_nums_minus1 = 0
  long_term_pic_num : if o.memory_management_control_operation = 2 then ueRange o.long_term_pic_num
    else o.long_term_pic_num = 0
  long_term_frame_idx : if o.memory_management_control_operation = 3 ∨ o.memory_management_control_operation = 6
    then ueRange o.long_term_frame_idx else o.long_term_frame_idx = 0
  max_long_term_frame_idx_plus1 : if o.memory_management_control_operation = 4
    then ueRange o.max_long_term_frame_idx_plus1 else o.max_long_term_frame_idx_plus1 = 0

/-- dec_ref_pic_marking(): the operations are ended by 0. -/
def encDecRefPicMarking (m : DecRefPicMarking) : List Bool :=
  if m.IdrPicFlag ≠ 0 then encU 1 m.no_output_of_prior_pics_flag ++ encU 1 m.long_term_reference_flag
  else encU 1 m.adaptive_ref_pic_marking_mode_flag ++
    encIf (m.adaptive_ref_pic_marking_mode_flag = 1) (m.ops.flatMap encMmco ++ encUE 0)

/-- Ranges and defaults. -/
structure DecRefPicMarking.Ok (idr : Nat) (m : DecRefPicMarking) : Prop where
  IdrPicFlag : m.IdrPicFlag = idr
  no_output_of_prior_pics_flag : m.no_output_of_prior_pics_flag < 2
  long_term_reference_flag : m.long_term_reference_flag < 2
  adaptive : m.adaptive_ref_pic_marking_mode_flag < 2
  isIdr : idr ≠ 0 → m.adaptive_ref_pic_marking_mode_flag = 0
  nonIdr : idr = 0 → m.no_output_of_prior_pics_flag = 0 ∧ m.long_term_reference_flag = 0
  ops : if m.adaptive_ref_pic_marking_mode_flag = 1 then ∀ o ∈ m.ops, o.Ok else m.ops = []

/-- The weights of one reference picture. -/
def encWeight (chroma_array_type : Nat) (w : Weight) : List Bool :=
  encU 1 w.luma_weight_flag ++ encIf (w.luma_weight_flag = 1) (encSE w.luma_weight ++ encSE w.luma_offset) ++
  encIf (chroma_array_type ≠ 0)
    (encU 1 w.chroma_weight_flag ++
     encIf (w.chroma_weight_flag = 1) (encSE w.chroma_weight_0 ++ encSE w.chroma_offset_0 ++ encSE w.chroma_weight_1 ++
       encSE w.chroma_offset_1))

/-- Ranges and defaults.  The standard's range -128..127 of weights and offsets is not enforced by the library. -/
structure Weight.Ok (chroma_array_type : Nat) (w : Weight) : Prop where
  luma_weight_flag : w.luma_weight_flag < 2
  luma : if w.luma_weight_flag = 1 then seRange w.luma_weight ∧ seRange w.luma_offset
    else w.luma_weight = 0 ∧ w.luma_offset = 0
  chroma_weight_flag : if chroma_array_type ≠ 0 then w.chroma_weight_flag < 2 else w.chroma_weight_flag = 0
  chroma : if w.chroma_weight_flag = 1
    then seRange w.chroma_weight_0 ∧ seRange w.chroma_offset_0 ∧ seRange w.chroma_weight_1 ∧ seRange w.chroma_offset_1
    else w.chroma_weight_0 = 0 ∧ w.chroma_offset_0 = 0 ∧ w.chroma_weight_1 = 0 ∧ w.chroma_offset_1 = 0

/-- pred_weight_table(): weights for list 0, and for list 1 in B slices. -/
def encPredWeightTable (t : PredWeightTable) : List Bool :=
  encUE t.luma_log2_weight_denom ++ encIf (t.chroma_array_type ≠ 0) (encUE t.chroma_log2_weight_denom) ++
  t.l0.flatMap (encWeight t.chroma_array_type) ++
  encIf (t.slice_type % 5 = 1) (t.l1.flatMap (encWeight t.chroma_array_type))

/-- Ranges, lengths and defaults. -/
structure PredWeightTable.Ok (cat st n0 n1 : Nat) (t : PredWeightTable) : Prop where
  chroma_array_type : t.chroma_array_type = cat
  slice_type : t.slice_type = st
  num_l0 : t.num_ref_idx_l0_active_minus1 = n0
  num_l1 : t.num_ref_idx_l1_active_minus1 = n1
  luma : t.luma_log2_weight_denom ≤ 7
  chroma : if cat ≠ 0 then t.chroma_log2_weight_denom ≤ 7 else t.chroma_log2_weight_denom = 0
  l0_length : t.l0.length = n0 + 1
  l0 : ∀ w ∈ t.l0, w.Ok cat
  l1_length : t.l1.length = if st % 5 = 1 then n1 + 1 else 0
  l1 : ∀ w ∈ t.l1, w.Ok cat

end H264

import Verif.Spec.Syntax6
import Verif.Types.Sets

/-
Specification: what the library makes of scaling lists that are not well formed, and with it exactly which bits it
accepts as a sequence or picture parameter set.  scaling_list() returns false at the first delta_scale that is out of
range or cannot be read; the parsers ignore that and go on reading from there.
-/

namespace H264

/-- Where reading goes on after a delta_scale that cannot be read: with assertions nothing is consumed, without them
(`nd`) the zero bits up to the first one bit are. -/
def afterUnreadable (nd : Bool) (l : List Bool) : List Bool := if nd then l.dropWhile (fun b => !b) else l

/-- scaling_list() as the library reads it: with `n` entries to go, the bits `l` give the entries `out` and the values
`deltas`, reading goes on at `r`, and `ok` tells whether the list is well formed. -/
inductive ListRead (nd : Bool) : (n lastScale nextScale : Nat) → (l r : List Bool) → (out : List Nat) →
    (deltas : List Int) → (ok : Bool) → Prop
  | done (last next : Nat) (l : List Bool) : ListRead nd 0 last next l l [] [] true
  | read {n last next : Nat} {d : Int} {l r : List Bool} {ds : List Int} {nextScale entry : Nat} {out : List Nat}
      {ok : Bool} :
      next ≠ 0 → -128 ≤ d → d ≤ 127 →
      (nextScale : Int) = ((last : Int) + d + 256) % 256 →
      entry = (if nextScale = 0 then last else nextScale) →
      ListRead nd n entry nextScale l r out ds ok →
      ListRead nd (n + 1) last next (encSE d ++ l) r (entry :: out) (d :: ds) ok
  | keep {n last : Nat} {l r : List Bool} {ds : List Int} {out : List Nat} {ok : Bool} :
      ListRead nd n last 0 l r out ds ok → ListRead nd (n + 1) last 0 l r (last :: out) ds ok
  | outOfRange {n last next : Nat} {d : Int} {r : List Bool} :
      next ≠ 0 → seRange d → ¬ (-128 ≤ d ∧ d ≤ 127) →
      ListRead nd (n + 1) last next (encSE d ++ r) r [] [d] false
  | unreadable {n last next : Nat} {l : List Bool} :
      next ≠ 0 → (∀ d r, seRange d → l ≠ encSE d ++ r) →
      ListRead nd (n + 1) last next l (afterUnreadable nd l) [] [] false

/-- The useDefault flags after list number `i`: written if a first delta_scale in range was read. -/
def flagsAfter (flags : List Nat) (i : Nat) : (deltas : List Int) → List Nat
  | [] => flags
  | d :: _ => if -128 ≤ d ∧ d ≤ 127 then setEntry flags i (if d = -8 then 1 else 0) else flags

/-- What is kept after list number `i` was present: the entries read replace those of the list of the same kind read
before. -/
def storeList (i : Nat) (s : Scal) (out : List Nat) (ds : List Int) : Scal :=
  if i < 6 then
    { scaling_list_present_flag := s.scaling_list_present_flag ++ [1],
      ScalingList4x4 := out ++ s.ScalingList4x4.drop out.length,
      UseDefaultScalingMatrix4x4Flag := flagsAfter s.UseDefaultScalingMatrix4x4Flag i ds,
      ScalingList8x8 := s.ScalingList8x8, delta_scale := ds.getLast?.getD s.delta_scale }
  else
    { scaling_list_present_flag := s.scaling_list_present_flag ++ [1], ScalingList4x4 := s.ScalingList4x4,
      UseDefaultScalingMatrix4x4Flag := flagsAfter s.UseDefaultScalingMatrix4x4Flag (i - 6) ds,
      ScalingList8x8 := out ++ s.ScalingList8x8.drop out.length, delta_scale := ds.getLast?.getD s.delta_scale }

/-- The loop over the scaling lists as the library reads it: `n` lists from number `i` on, well formed or not. -/
inductive ListsRead (nd : Bool) : (n i : Nat) → Scal → (l r : List Bool) → Scal → Prop
  | done (i : Nat) (s : Scal) (l : List Bool) : ListsRead nd 0 i s l l s
  | absent {n i : Nat} {s s' : Scal} {l r : List Bool} :
      ListsRead nd n (i + 1) { s with scaling_list_present_flag := s.scaling_list_present_flag ++ [0] } l r s' →
      ListsRead nd (n + 1) i s (encU 1 0 ++ l) r s'
  | present {n i : Nat} {s s' : Scal} {l m r : List Bool} {out : List Nat} {ds : List Int} {ok : Bool} :
      ListRead nd (if i < 6 then 16 else 64) 8 8 l m out ds ok →
      ListsRead nd n (i + 1) (storeList i s out ds) m r s' →
      ListsRead nd (n + 1) i s (encU 1 1 ++ l) r s'

/-- The bits `l` are taken for the sequence parameter set data `st`; `r` follows. -/
def SpsRead (nd : Bool) (st : SpsData) (l r : List Bool) : Prop :=
  st.toSpsHead.Ok ∧ st.toSpsTail.Ok st.toSpsHead ∧
  ∃ l1 l2, l = encSpsHead st.toSpsHead ++ l1 ∧ ListsRead nd (spsListCount st.toSpsHead) 0 {} l1 l2 st.toScal ∧
    l2 = encSpsTail st.toSpsTail ++ r

/-- The bits `l` are taken for the picture parameter set `st`: the optional end is read unless the data ends after the
first part, possibly with trailing bits. -/
def PpsRead (nd : Bool) (chroma_format_idc : Nat) (st : Pps) (l : List Bool) : Prop :=
  st.toPpsHead.Ok ∧ st.chroma_format_idc = chroma_format_idc ∧
  ∃ l1, l = encPpsHead st.toPpsHead ++ l1 ∧
    (((l1 = [] ∨ ∃ k, k ≤ 7 ∧ l1 = trailingBits k) ∧ st.transform_8x8_mode_flag = 0 ∧
        st.pic_scaling_matrix_present_flag = 0 ∧ st.toScal = {} ∧ st.second_chroma_qp_index_offset = 0) ∨
     (¬ (l1 = [] ∨ ∃ k, k ≤ 7 ∧ l1 = trailingBits k) ∧
        st.transform_8x8_mode_flag < 2 ∧ st.pic_scaling_matrix_present_flag < 2 ∧
        seRange st.second_chroma_qp_index_offset ∧
        ∃ l2 l3 r, l1 = encU 1 st.transform_8x8_mode_flag ++ encU 1 st.pic_scaling_matrix_present_flag ++ l2 ∧
          ListsRead nd (ppsListCount chroma_format_idc st.transform_8x8_mode_flag st.pic_scaling_matrix_present_flag) 0
            {} l2 l3 st.toScal ∧
          l3 = encSE st.second_chroma_qp_index_offset ++ r))

/-- The part of a subset sequence parameter set that depends on the profile, as the library reads it: nothing of the
VUI extensions and of the multiview extensions themselves. -/
def SubsetExtRead (st : SubsetSps) (l r : List Bool) : Prop :=
  let p := st.seq_parameter_set_data.profile_idc
  if svcProfile p then
    ∃ e, st.seq_parameter_set_svc_extension = some e ∧ e.Ok (chromaArrayType st.seq_parameter_set_data.toSpsHead) ∧
      st.svc_vui_parameters_present_flag < 2 ∧ st.bit_equal_to_one = 0 ∧ st.mvc_vui_parameters_present_flag = 0 ∧
      l = encSpsSvcExt e ++ encU 1 st.svc_vui_parameters_present_flag ++ r
  else
    st.seq_parameter_set_svc_extension = none ∧ st.svc_vui_parameters_present_flag = 0 ∧
    if mvcProfile p then
      st.bit_equal_to_one < 2 ∧ st.mvc_vui_parameters_present_flag < 2 ∧
        l = encU 1 st.bit_equal_to_one ++ encU 1 st.mvc_vui_parameters_present_flag ++ r
    else if mvcdProfile p then
      st.bit_equal_to_one < 2 ∧ st.mvc_vui_parameters_present_flag = 0 ∧ l = encU 1 st.bit_equal_to_one ++ r
    else st.bit_equal_to_one = 0 ∧ st.mvc_vui_parameters_present_flag = 0 ∧ l = r

/-- The bits `l` are taken for the subset sequence parameter set `st`.  With additional_extension2_flag 1 everything up
to the trailing bits is data, or everything up to the end if the data does not end with trailing bits. -/
def SubsetRead (nd : Bool) (st : SubsetSps) (l : List Bool) : Prop :=
  ∃ l1 l2 l3, SpsRead nd st.seq_parameter_set_data l l1 ∧ SubsetExtRead st l1 l2 ∧
    l2 = encU 1 st.additional_extension2_flag ++ l3 ∧
    ((st.additional_extension2_flag = 0 ∧ st.additional_extension2_data_flag = 0) ∨
     (st.additional_extension2_flag = 1 ∧ ∃ data r, l3 = data ++ r ∧
        ((∃ k, k ≤ 7 ∧ r = trailingBits k) ∨ (r = [] ∧ ¬ ∃ p k, k ≤ 7 ∧ l3 = p ++ trailingBits k)) ∧
        st.additional_extension2_data_flag = if data.getLast? = some true then 1 else 0))

end H264

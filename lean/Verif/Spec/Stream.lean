import Verif.Spec.Bytes
import Verif.Spec.Nal
import Verif.Spec.Syntax4
import Verif.Spec.Syntax5
import Verif.Spec.Syntax6
import Verif.Spec.Syntax7
import Verif.Spec.Syntax8

/-
Specification: what an encoder writes.  `UnitSyntax σ h bits p σ'` says that `bits` code, between the NAL unit header `h` and
the trailing bits, the payload `p`, when the parameter sets sent so far are `σ`, and that the parameter sets are `σ'` after it.
-/

namespace H264.Spec

/-- The payload of one NAL unit. -/
inductive UnitSyntax (σ : Store) (h : NalHeader) : List Bool → Payload → Store → Prop
  /-- A sequence parameter set replaces the one with its id. -/
  | sps (x : SpsSyn) : h.nal_unit_type = 7 → x.Ok →
      UnitSyntax σ h (encSps x) { sps := some x.state }
        { σ with sps := fun k => if k = x.state.seq_parameter_set_id then some x.state else σ.sps k }
  /-- A picture parameter set, for 4:2:0 or without a scaling matrix for 8x8 blocks (C30). -/
  | pps (x : PpsSyn) : h.nal_unit_type = 8 → x.Ok 1 →
      UnitSyntax σ h (encPps x) { pps := some (x.state 1) }
        { σ with pps := fun k => if k = (x.state 1).pic_parameter_set_id then some (x.state 1) else σ.pps k }
  /-- A subset sequence parameter set. -/
  | subset (x : SubsetSyn) : h.nal_unit_type = 15 → x.Ok →
      UnitSyntax σ h (encSubset x) { subset_sps := some x.state }
        { σ with subset_sps := fun k => if k = x.state.seq_parameter_set_data.seq_parameter_set_id then some x.state
                                         else σ.subset_sps k }
  /-- A slice of a picture: the header, coded with the parameter sets it names, then slice data. -/
  | slice (sh : SliceHeader) (p : Pps) (s : SpsData) (data : List Bool) : h.nal_unit_type = 1 ∨ h.nal_unit_type = 5 →
      σ.pps sh.pic_parameter_set_id = some p → σ.sps p.seq_parameter_set_id = some s →
      sh.Ok h.nal_ref_idc h.nal_unit_type s p →
      UnitSyntax σ h (encSliceHeader s p sh ++ data)
        { slice_layer_without_partitioning_rbsp :=
            some { nal_ref_idc := h.nal_ref_idc, nal_unit_type := h.nal_unit_type, slice_header := some sh } } σ
  /-- A slice of an enhancement layer, where the PPS defaults of the reference counts do not matter (C48). -/
  | scalable (sh : ScalHeader) (x : ScalCtx) (data : List Bool) : h.nal_unit_type = 20 → ScalRefers σ h sh x →
      sh.Ok x x.p.num_ref_idx_l0_default_active_minus1 x.p.num_ref_idx_l1_default_active_minus1 →
      ((x.p.num_ref_idx_l0_default_active_minus1 = 0 ∧ x.p.num_ref_idx_l1_default_active_minus1 = 0) ∨
        x.n.quality_id ≠ 0 ∨ sh.slice_type % 5 ≥ 2 ∨ sh.ref.num_ref_idx_active_override_flag = 1) →
      UnitSyntax σ h (encScalHeader x sh ++ data)
        { slice_layer_extension_rbsp :=
            some { svc_extension_flag := 1, nal_ref_idc := h.nal_ref_idc, nal_unit_type := 20,
                   slice_header_in_scalable_extension := some sh } } σ
  /-- A prefix NAL unit (C52). -/
  | pre (x : PrefixSyn) (e : SvcHeaderExt) : h.nal_unit_type = 14 → h.svc_extension = some e →
      x.Ok h.nal_ref_idc e.use_ref_base_pic_flag e.idr_flag → (h.nal_ref_idc = 0 → x.data = []) →
      UnitSyntax σ h (encPrefix h.nal_ref_idc x)
        { prefix_nal_unit := some (x.state h.nal_ref_idc e.use_ref_base_pic_flag e.idr_flag) } σ
  /-- Everything else (SEI, access unit delimiter, filler data, data partitions, ...): the library leaves the payload alone. -/
  | other (bits : List Bool) : h.nal_unit_type ∉ [1, 5, 7, 8, 14, 15, 20] → UnitSyntax σ h bits {} σ

/-- What follows the payload: the stop bit with `k` zero bits and, after slice data, `m` cabac_zero_words.  An end of sequence
or end of stream NAL unit consists of its header only, and so does a prefix NAL unit with nal_ref_idc 0 (whose header ends with
reserved_three_2bits, which an encoder sets to 3). -/
inductive Ending (h : NalHeader) (bits : List Bool) : List Bool → Prop
  | stop (k m : Nat) : k ≤ 7 → (m ≠ 0 → h.nal_unit_type ∈ [1, 2, 3, 4, 5, 19, 20]) →
      Ending h bits (trailingBits k ++ List.replicate (16 * m) false)
  | empty : bits = [] → h.nal_unit_type = 10 ∨ h.nal_unit_type = 11 ∨
      (h.nal_unit_type = 14 ∧ h.nal_ref_idc = 0 ∧ ∀ e, h.svc_extension = some e → e.reserved_three_2bits = 3) →
      Ending h bits []

/-- The bytes `nal` are a NAL unit with header `h` and payload `p`: header, payload and ending; then emulation prevention. -/
def CodedNal (σ : Store) (h : NalHeader) (nal : List UInt8) (p : Payload) (σ' : Store) : Prop :=
  h.Ok ∧ ∃ bits tail rbsp, UnitSyntax σ h bits p σ' ∧ Ending h bits tail ∧
    allBits rbsp = encNalHeader h ++ bits ++ tail ∧ nal = escapeNal rbsp

/-- A sequence of NAL units, each coded with the parameter sets sent before it.  The flag says whether it is sent with a four
byte start code. -/
inductive CodedStream : Store → List (Bool × List UInt8) → List (NalHeader × Payload) → Store → Prop
  | nil (σ : Store) : CodedStream σ [] [] σ
  | cons {σ σ1 σ2 : Store} {long : Bool} {nal : List UInt8} {h : NalHeader} {p : Payload} {us : List (Bool × List UInt8)}
      {hps : List (NalHeader × Payload)} : CodedNal σ h nal p σ1 → CodedStream σ1 us hps σ2 →
      CodedStream σ ((long, nal) :: us) ((h, p) :: hps) σ2

end H264.Spec

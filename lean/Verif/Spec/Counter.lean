import Verif.Spec.Syntax1
import Verif.Spec.Syntax7
import Verif.Types.Nal

/-
Specification: what the library does not implement in a NAL unit, as bits of the NAL unit without emulation prevention.
-/

namespace H264.Spec

/-- The bits start with the header of a prefix NAL unit with dec_ref_base_pic_marking() in it: nal_ref_idc is not 0, the picture
is not an IDR picture, and use_ref_base_pic_flag in the header or the bit after it, store_ref_base_pic_flag, is 1. -/
def PrefixMarking (l : List Bool) : Prop :=
  ∃ h e store rest, h.Ok ∧ h.nal_unit_type = 14 ∧ h.nal_ref_idc ≠ 0 ∧ h.svc_extension = some e ∧ e.idr_flag = 0 ∧
    (e.use_ref_base_pic_flag = 1 ∨ store = true) ∧ l = encNalHeader h ++ store :: rest

/-- The SVC extension of an SPS, with slice_header_restriction_flag 1. -/
def _root_.H264.restricted (e : SpsSvcExt) : SpsSvcExt := { e with slice_header_restriction_flag := 1 }
/-- What a scalable slice header refers to, with slice_header_restriction_flag 1: store_ref_base_pic_flag is then not coded. -/
def _root_.H264.ScalCtx.restricted (x : ScalCtx) : ScalCtx := { x with e := H264.restricted x.e }

/-- The bits start with a scalable slice header, under NAL unit header `n`, that has dec_ref_base_pic_marking() in it: nal_ref_idc is
not 0, quality_id and slice_header_restriction_flag are 0, the picture is not an IDR picture, and use_ref_base_pic_flag in the NAL
unit header or store_ref_base_pic_flag, which follows dec_ref_pic_marking(), is 1.  As everywhere in the library, the reference
counts without override are 0 (C48). -/
def HeaderMarking (σ : Store) (n : NalHeader) (l : List Bool) : Prop :=
  ∃ x h store rest, ScalRefers σ n h x ∧ h.first_mb_in_slice ≤ 139263 ∧ h.slice_type ≤ 9 ∧ h.pic_parameter_set_id ≤ 255 ∧
    h.pic.Ok x ∧ h.ref.Ok x.restricted h.slice_type 0 0 ∧
    x.nal_ref_idc ≠ 0 ∧ x.n.quality_id = 0 ∧ x.e.slice_header_restriction_flag = 0 ∧ x.n.idr_flag = 0 ∧
    (x.n.use_ref_base_pic_flag = 1 ∨ store = true) ∧
    l = encUE h.first_mb_in_slice ++ encUE h.slice_type ++ encUE h.pic_parameter_set_id ++ encScalPic x h.pic ++
      encScalRef x.restricted h.slice_type h.ref ++ store :: rest

/-- The bits start with the header of a slice of an enhancement layer with dec_ref_base_pic_marking() in its slice header. -/
def LayerMarking (σ : Store) (l : List Bool) : Prop :=
  ∃ h rest, h.Ok ∧ h.nal_unit_type = 20 ∧ HeaderMarking σ h rest ∧ l = encNalHeader h ++ rest

end H264.Spec

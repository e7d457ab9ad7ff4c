import Verif.Spec.Syntax1
import Verif.Types.Nal

/-
Specification: prefix_nal_unit_svc() (G.7.3.2.12.1), for prefix NAL units without dec_ref_base_pic_marking(), which the
library does not implement.
-/

namespace H264

/-- What a prefix NAL unit codes after its header. -/
structure PrefixSyn where
  store_ref_base_pic_flag : Nat := 0
  additional_prefix_nal_unit_extension_flag : Nat := 0
  data : List Nat := []

/-- The two flags are coded if nal_ref_idc is not 0; then come the extension data flags. -/
def encPrefix (nal_ref_idc : Nat) (x : PrefixSyn) : List Bool :=
  encIf (nal_ref_idc ≠ 0) (encU 1 x.store_ref_base_pic_flag ++ encU 1 x.additional_prefix_nal_unit_extension_flag) ++
  x.data.flatMap (encU 1)

/-- Ranges.  The last member excludes dec_ref_base_pic_marking(). -/
structure PrefixSyn.Ok (nal_ref_idc use_ref_base_pic_flag idr_flag : Nat) (x : PrefixSyn) : Prop where
  store : if nal_ref_idc ≠ 0 then x.store_ref_base_pic_flag < 2 else x.store_ref_base_pic_flag = 0
  ext : if nal_ref_idc ≠ 0 then x.additional_prefix_nal_unit_extension_flag < 2
    else x.additional_prefix_nal_unit_extension_flag = 0
  data : ∀ v ∈ x.data, v < 2
  no_data : nal_ref_idc ≠ 0 → x.additional_prefix_nal_unit_extension_flag = 0 → x.data = []
  no_marking : nal_ref_idc ≠ 0 → use_ref_base_pic_flag = 1 ∨ x.store_ref_base_pic_flag = 1 → idr_flag ≠ 0

/-- The state that holds it; of the data flags, the last one. -/
def PrefixSyn.state (nal_ref_idc use_ref_base_pic_flag idr_flag : Nat) (x : PrefixSyn) : PrefixRbsp :=
  { svc_extension_flag := 1, nal_ref_idc, use_ref_base_pic_flag, idr_flag,
    prefix_nal_unit_svc := some
      { nal_ref_idc, use_ref_base_pic_flag, idr_flag, store_ref_base_pic_flag := x.store_ref_base_pic_flag,
        additional_prefix_nal_unit_extension_flag := x.additional_prefix_nal_unit_extension_flag,
        additional_prefix_nal_unit_extension_data_flag := x.data.getLastD 0 } }

end H264

import Verif.Spec.Stream

/-
Specification: STAP-A packets (RFC 6184, 5.7.1) whose NAL units end where the library stops reading them.
-/

namespace H264.Spec

/-- The STAP-A NAL unit header: forbidden_zero_bit, NRI and type 24. -/
def stapIndicator (f nri : Nat) : UInt8 := UInt8.ofNat (f * 128 + nri * 32 + 24)

/-- The 16-bit size before each NAL unit. -/
def size16 (n : Nat) : List UInt8 := [UInt8.ofNat (n / 256), UInt8.ofNat (n % 256)]

/-- The aggregation units. -/
def stapUnits : List (List UInt8) → List UInt8
  | [] => []
  | nal :: us => size16 nal.length ++ nal ++ stapUnits us

/-- The packet. -/
def stapPacket (f nri : Nat) (us : List (List UInt8)) : List UInt8 := stapIndicator f nri :: stapUnits us

/-- The NAL units that the library reads to their end: `bits` code the payload `p` and its ending.  `last` says that it is the
last NAL unit of the packet; then there are more of them. -/
inductive StapUnit (σ : Store) (h : NalHeader) (last : Bool) : List Bool → Payload → Store → Prop
  /-- A sequence parameter set. -/
  | sps (x : SpsSyn) (k : Nat) : h.nal_unit_type = 7 → x.Ok → k ≤ 7 →
      StapUnit σ h last (encSps x ++ trailingBits k) { sps := some x.state }
        { σ with sps := fun k => if k = x.state.seq_parameter_set_id then some x.state else σ.sps k }
  /-- A picture parameter set; before the last unit, with the fields after transform_8x8_mode_flag. -/
  | pps (x : PpsSyn) (k : Nat) : h.nal_unit_type = 8 → x.Ok 1 → k ≤ 7 → (x.ext = none → last = true) →
      StapUnit σ h last (encPps x ++ trailingBits k) { pps := some (x.state 1) }
        { σ with pps := fun k => if k = (x.state 1).pic_parameter_set_id then some (x.state 1) else σ.pps k }
  /-- A subset sequence parameter set; before the last unit, without additional_extension2_data_flag. -/
  | subset (x : SubsetSyn) (k : Nat) : h.nal_unit_type = 15 → x.Ok → k ≤ 7 → (x.additional_extension2_flag = 1 → last = true) →
      StapUnit σ h last (encSubset x ++ trailingBits k) { subset_sps := some x.state }
        { σ with subset_sps := fun k => if k = x.state.seq_parameter_set_data.seq_parameter_set_id then some x.state
                                         else σ.subset_sps k }
  /-- End of sequence, end of stream, and the prefix NAL unit of a picture that is not a reference. -/
  | header (p : Payload) : UnitSyntax σ h [] p σ →
      h.nal_unit_type = 10 ∨ h.nal_unit_type = 11 ∨ (h.nal_unit_type = 14 ∧ h.nal_ref_idc = 0) →
      StapUnit σ h last [] p σ

/-- A list of such NAL units, each coded with the parameter sets sent before it. -/
inductive StapUnits : Store → List (List UInt8) → List (NalHeader × Payload) → Store → Prop
  | nil (σ : Store) : StapUnits σ [] [] σ
  | cons {σ σ1 σ2 : Store} {nal : List UInt8} {h : NalHeader} {p : Payload} {bits : List Bool} {us : List (List UInt8)}
      {hps : List (NalHeader × Payload)} : h.Ok → StapUnit σ h us.isEmpty bits p σ1 → allBits nal = encNalHeader h ++ bits →
      nal.length < 65536 → StapUnits σ1 us hps σ2 → StapUnits σ (nal :: us) ((h, p) :: hps) σ2

end H264.Spec

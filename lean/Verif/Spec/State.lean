import Verif.Model.Rtp

/-
Parser states that hold more than others (C68).
-/

namespace H264.Spec

/-- Whatever `σ` holds, `τ` holds too; `τ` may hold other parameter sets under ids that are free in `σ`. -/
def Holds (τ σ : Store) : Prop :=
  (∀ id x, σ.sps id = some x → τ.sps id = some x) ∧ (∀ id x, σ.pps id = some x → τ.pps id = some x) ∧
  (∀ id x, σ.subset_sps id = some x → τ.subset_sps id = some x)

/-- A NAL unit that is a slice (types 1, 5 and 20) was returned with its slice header. -/
def HasHeader (n : NalUnit) : Prop :=
  (n.nal_unit_header.nal_unit_type = 1 ∨ n.nal_unit_header.nal_unit_type = 5 →
    n.nal_unit_payload.slice_layer_without_partitioning_rbsp.isSome) ∧
  (n.nal_unit_header.nal_unit_type = 20 → ∃ x, n.nal_unit_payload.slice_layer_extension_rbsp = some x ∧
    (x.slice_header.isSome ∨ x.slice_header_in_scalable_extension.isSome))

/-- The slices of an RTP packet were returned with their slice headers: the NAL unit of a single NAL unit packet, every NAL unit of a
STAP-A packet, the first fragment of a NAL unit. -/
def RtpHasHeaders (r : Rtp) : Prop :=
  (∀ x, r.rtp_single = some x → HasHeader { nal_unit_header := x.nal_unit_header, nal_unit_payload := x.nal_unit_payload }) ∧
  (∀ x, r.rtp_stapa = some x → ∀ u ∈ x.nal_units, HasHeader { nal_unit_header := u.2.1, nal_unit_payload := u.2.2 }) ∧
  (∀ x p, r.rtp_fua = some x → x.nal_unit_payload = some p →
    HasHeader { nal_unit_header := { x.header with nal_unit_type := x.fu_type }, nal_unit_payload := p })

/-- The RTP packets are parsed one after the other with the same parser state, and each of them is returned. -/
inductive Packets (nd : Bool) : List (List UInt8) → Store → Nat → List Rtp → Store → Nat → Prop
  | nil (σ : Store) (c : Nat) : Packets nd [] σ c [] σ c
  | cons {p : List UInt8} {ps : List (List UInt8)} {σ σ1 σ' : Store} {c c1 c' : Nat} {x : Rtp} {xs : List Rtp} :
      parseRtpData nd p 0 p.length σ c = .val (some x, σ1, c1) → Packets nd ps σ1 c1 xs σ' c' → Packets nd (p :: ps) σ c (x :: xs) σ' c'

end H264.Spec

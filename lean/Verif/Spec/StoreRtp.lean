import Verif.Spec.Nal
import Verif.Model.Rtp

/-
What a sequence of RTP packets leaves in the parser state (C69).
-/

namespace H264.Spec

/-- The payloads in a returned packet, in order. -/
def rtpPayloads (x : Rtp) : List Payload :=
  x.rtp_single.toList.map (·.nal_unit_payload) ++
  (x.rtp_stapa.toList.flatMap fun y => y.nal_units.map (·.2.2)) ++
  (x.rtp_fua.toList.flatMap fun y => y.nal_unit_payload.toList)

/-- The packet type in the first byte of a packet. -/
def packetType (p : List UInt8) : Option Nat := p.head?.map fun b => b.toNat % 32

/-- The RTP packets are parsed one after the other with the same parser state; `none` stands for null. -/
inductive Session (nd : Bool) : List (List UInt8) → Store → Nat → List (Option Rtp) → Store → Nat → Prop
  | nil (σ : Store) (c : Nat) : Session nd [] σ c [] σ c
  | cons {p : List UInt8} {ps : List (List UInt8)} {σ σ1 σ' : Store} {c c1 c' : Nat} {x : Option Rtp} {xs : List (Option Rtp)} :
      parseRtpData nd p 0 p.length σ c = .val (x, σ1, c1) → Session nd ps σ1 c1 xs σ' c' → Session nd (p :: ps) σ c (x :: xs) σ' c'

end H264.Spec

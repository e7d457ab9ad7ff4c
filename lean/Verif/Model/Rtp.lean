import Verif.Model.Nal

/-
Model of the RTP payload parsers (RFC 6184).
-/

namespace H264
open Prog

/-- `RtpSingleState` (include/h264_rtp_single_parser.h:21-43). -/
structure RtpSingle where
  nal_unit_header : NalHeader
  nal_unit_payload : Payload
  deriving DecidableEq, Repr

/-- `RtpStapAState` (include/h264_rtp_stapa_parser.h:22-47).  The three vectors always have the same length in a returned state;
they are kept as one list of triples. -/
structure RtpStapA where
  header : NalHeader
  nal_units : List (Nat × NalHeader × Payload)
  deriving DecidableEq, Repr

/-- `RtpFuAState` (include/h264_rtp_fua_parser.h:21-50). -/
structure RtpFuA where
  nal_ref_idc : Nat
  header : NalHeader
  s_bit : Nat
  e_bit : Nat
  r_bit : Nat
  fu_type : Nat
  nal_unit_payload : Option Payload := none
  deriving DecidableEq, Repr

/-- `RtpState` (include/h264_rtp_parser.h:23-43). -/
structure Rtp where
  nal_unit_header : NalHeader
  rtp_single : Option RtpSingle := none
  rtp_stapa : Option RtpStapA := none
  rtp_fua : Option RtpFuA := none
  deriving DecidableEq, Repr

/-- Call a parser that can change the store: on null the store is as before. -/
def runStore {α : Type} (nd : Bool) (σ : Store) (p : Prog (α × Store)) (s : St) : Res (Option α × Store × St) :=
  match run nd p s with
  | .ok (a, σ') s' => .val (some a, σ', s')
  | .null s' => .val (none, σ, s')
  | .bad e => .bad e

/-- `ParseRtpSingle(BitBuffer*, ...)` (src/h264_rtp_single_parser.cc:32-57). -/
def parseRtpSingle (σ : Store) : Prog (RtpSingle × Store) := do
  let h ← parseNalHeader
  let (p, σ') ← parsePayload σ h
  pure ({ nal_unit_header := h, nal_unit_payload := p }, σ')

/-- One iteration of the loop of `ParseRtpStapA` (src/h264_rtp_stapa_parser.cc:51-83). -/
def parseStapAUnit (σ : Store) : Prog ((Nat × NalHeader × Payload) × Store) := do
  let nalu_size ← u 16
  let rem ← remaining
  guard (nalu_size * 8 ≤ rem)
  let h ← parseNalHeader
  let (p, σ') ← parsePayload σ h
  pure ((nalu_size, h, p), σ')

/-- The loop of `ParseRtpStapA` (src/h264_rtp_stapa_parser.cc:50-84).  The units already parsed have changed the store when a
later one makes it return null. -/
def stapALoop (nd : Bool) : Nat → Store → St → Res (Option (List (Nat × NalHeader × Payload)) × Store × St)
  | 0, _, _ => .bad .fuel
  | f + 1, σ, s =>
    if s.buf.remaining > 0 then do
      let (x, σ, s) ← runStore nd σ (parseStapAUnit σ) s
      match x with
      | none => pure (none, σ, s)
      | some x => do
        let (xs, σ, s) ← stapALoop nd f σ s
        match xs with
        | none => pure (none, σ, s)
        | some xs => pure (some (x :: xs), σ, s)
    else pure (some [], σ, s)

/-- `ParseRtpStapA(BitBuffer*, ...)` (src/h264_rtp_stapa_parser.cc:34-86). -/
def parseRtpStapA (nd : Bool) (σ : Store) (s : St) : Res (Option RtpStapA × Store × St) := do
  let (h, s) ← (run nd parseNalHeader s).res
  match h with
  | none => pure (none, σ, s)
  | some h => do
    let (xs, σ, s) ← stapALoop nd (s.buf.remaining + 1) σ s
    match xs with
    | none => pure (none, σ, s)
    | some xs => pure (some { header := h, nal_units := xs }, σ, s)

/-- `ParseRtpFuA(BitBuffer*, nal_ref_idc, ...)` (src/h264_rtp_fua_parser.cc:32-75). -/
def parseRtpFuA (σ : Store) (nal_ref_idc : Nat) : Prog (RtpFuA × Store) := do
  let header ← parseNalHeader
  let s_bit ← u 1
  let e_bit ← u 1
  let r_bit ← u 1
  let fu_type ← u 5
  if s_bit = 0 then pure ({ nal_ref_idc, header, s_bit, e_bit, r_bit, fu_type }, σ)
  else do
    let (p, σ') ← parsePayloadRT σ nal_ref_idc fu_type
    pure ({ nal_ref_idc, header, s_bit, e_bit, r_bit, fu_type, nal_unit_payload := some p }, σ')

/-- `ParseRtp(BitBuffer*, ...)` (src/h264_rtp_parser.cc:32-75).  The result of `Seek(0, 0)` is ignored. -/
def parseRtp (nd : Bool) (σ : Store) (s : St) : Res (Option Rtp × Store × St) := do
  let (h, s) ← (run nd parseNalHeader s).res
  match h with
  | none => pure (none, σ, s)
  | some h => do
    let s := { s with buf := (s.buf.seek 0 0).2 }
    if h.nal_unit_type ≤ 23 then do
      let (x, σ, s) ← runStore nd σ (parseRtpSingle σ) s
      pure (x.map fun x => { nal_unit_header := h, rtp_single := some x }, σ, s)
    else if h.nal_unit_type = 24 then do
      let (x, σ, s) ← parseRtpStapA nd σ s
      pure (x.map fun x => { nal_unit_header := h, rtp_stapa := some x }, σ, s)
    else if h.nal_unit_type = 28 then do
      let (x, σ, s) ← runStore nd σ (parseRtpFuA σ h.nal_ref_idc) s
      pure (x.map fun x => { nal_unit_header := h, rtp_fua := some x }, σ, s)
    else pure (some { nal_unit_header := h }, σ, s)

/-- The `(data, length)` overloads: `UnescapeRbsp`, a `BitBuffer` on the result, and the `BitBuffer*` overload.
src/h264_rtp_parser.cc:22-30, src/h264_rtp_single_parser.cc:22-30, src/h264_rtp_stapa_parser.cc:23-32,
src/h264_rtp_fua_parser.cc:23-30, src/h264_nal_unit_payload_parser.cc:29-39, and the overloads of every other parser. -/
def onData {α : Type} (nd : Bool) (f : St → Res (α × Store × St)) (data : List UInt8) (off length cnt : Nat) :
    Res (α × Store × Nat) := do
  let bytes ← unescapeRbsp data off length
  let b ← Buf.new nd bytes
  let (x, σ, s) ← f ⟨b, cnt⟩
  pure (x, σ, s.cnt)

/-- `ParseRtp(data, length, ...)` (src/h264_rtp_parser.cc:22-30). -/
def parseRtpData (nd : Bool) (data : List UInt8) (off length : Nat) (σ : Store) (cnt : Nat) : Res (Option Rtp × Store × Nat) :=
  onData nd (parseRtp nd σ) data off length cnt

/-- `ParseRtpSingle(data, length, ...)` (src/h264_rtp_single_parser.cc:22-30). -/
def parseRtpSingleData (nd : Bool) (data : List UInt8) (off length : Nat) (σ : Store) (cnt : Nat) :
    Res (Option RtpSingle × Store × Nat) :=
  onData nd (runStore nd σ (parseRtpSingle σ)) data off length cnt

/-- `ParseRtpStapA(data, length, ...)` (src/h264_rtp_stapa_parser.cc:23-32). -/
def parseRtpStapAData (nd : Bool) (data : List UInt8) (off length : Nat) (σ : Store) (cnt : Nat) :
    Res (Option RtpStapA × Store × Nat) :=
  onData nd (parseRtpStapA nd σ) data off length cnt

/-- `ParseRtpFuA(data, length, nal_ref_idc, ...)` (src/h264_rtp_fua_parser.cc:23-30). -/
def parseRtpFuAData (nd : Bool) (data : List UInt8) (off length nal_ref_idc : Nat) (σ : Store) (cnt : Nat) :
    Res (Option RtpFuA × Store × Nat) :=
  onData nd (runStore nd σ (parseRtpFuA σ nal_ref_idc)) data off length cnt

/-- `ParseNalUnitPayload(data, length, nal_unit_header, ...)` (src/h264_nal_unit_payload_parser.cc:29-39). -/
def parsePayloadData (nd : Bool) (data : List UInt8) (off length : Nat) (h : NalHeader) (σ : Store) (cnt : Nat) :
    Res (Option Payload × Store × Nat) :=
  onData nd (runStore nd σ (parsePayload σ h)) data off length cnt

end H264

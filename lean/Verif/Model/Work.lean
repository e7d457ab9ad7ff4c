import Verif.Model.Rtp
import Verif.Model.Checksum

/-
How often the library looks at the data.  What is counted is the loads of bytes in `UnescapeRbsp`, `FindNaluIndices` and
`read_nalu_length`, and the calls of `BitBuffer::PeekBits` (src/rtc_common.cc:114-155; at most nine bytes per call), through which
all other access goes.  The functions below follow the code that is modelled by the functions with similar names; where a value is
needed it is taken from there.  After an outcome that is not defined nothing is counted.
-/

namespace H264

/-- Calls of `PeekBits` in the prefix loop of `ReadExponentialGolomb` (src/rtc_common.cc:248-251). -/
def Buf.ueZerosWork : Nat → Buf → Nat
  | 0, _ => 0
  | f + 1, b => (if (b.peekBits 32 1).passes (· == some 0) then ueZerosWork f (b.consumeBits 1).2 else 0) + 1

/-- Calls of `PeekBits` in `ReadExponentialGolomb` (src/rtc_common.cc:239-266): the loop, the assertion of line 254, and `ReadBits`.
The count is an upper bound: the assertion is absent with `NDEBUG`, and `ReadBits` is not called for more than 32 bits. -/
def Buf.ueWork (b : Buf) : Nat := Buf.ueZerosWork (b.remaining + 1) b + 1 + 1

/-- Calls of `PeekBits` of one call (`ReadBits`: src/rtc_common.cc:193-199). -/
def Op.work (s : St) : Op → Nat
  | .bits _ => 1
  | .peek _ => 1
  | .ue => s.buf.ueWork
  | .se => s.buf.ueWork
  | .remaining => 0
  | .aligned => 0
  | .unimpl => 0

/-- Calls of `PeekBits` in a run of a parser. -/
def work {α : Type} (nd : Bool) : Prog α → St → Nat
  | .ret _, _ => 0
  | .null, _ => 0
  | .bad _, _ => 0
  | .op o k, s => o.work s +
    match o.run nd s with
    | .val (r, s') => work nd (k r) s'
    | .bad _ => 0

/-- What is done with the value of a call. -/
def Res.work {α : Type} (f : α → Nat) : Res α → Nat
  | .val a => f a
  | .bad _ => 0

/-- What is done when the value is not null. -/
def someWork {α : Type} (f : α → Nat) : Option α → Nat
  | some a => f a
  | none => 0

/-- What is done after a parser that did not return null. -/
def Out.work {α : Type} (f : α → St → Nat) : Out St α → Nat
  | .ok a s => f a s
  | .null _ => 0
  | .bad _ => 0

/-- Calls of `PeekBits` in the loop over 32-bit words of the checksum (src/h264_common.cc:414-416). -/
def checksumWordsWork : Nat → Buf → Nat
  | 0, _ => 0
  | f + 1, b => 1 + b.readUInt32.work (fun r => someWork (fun _ => checksumWordsWork f r.2) r.1)

/-- The checksum (src/h264_common.cc:394-456): the words, and at most four bytes. -/
def checksumWork (opts : ParsingOptions) (b : Buf) : Nat :=
  if opts.add_checksum then checksumWordsWork (b.remaining + 1) b + 4 else 0

/-- `ParseNalUnit(BitBuffer*, ...)` (src/h264_nal_unit_parser.cc:52-89). -/
def workNalUnitBuf (nd : Bool) (opts : ParsingOptions) (σ : Store) (s : St) : Nat :=
  checksumWork opts s.buf +
  (unitChecksum opts s.buf).work (fun r =>
    work nd parseNalHeader { s with buf := r.2 } +
    (run nd parseNalHeader { s with buf := r.2 }).work (fun h s => work nd (parsePayload σ h) s))

/-- Loads in the loop of `UnescapeRbsp` (src/h264_common.cc:229-245) at index `i`. -/
def unescapeReads (data : List UInt8) (off length : Nat) : Nat → Nat → Nat
  | 0, _ => 0
  | f + 1, i =>
    if i < length then
      let three := decide (sub64 length i ≥ 3)
      let a := three && (load data (off + i)).passes (· == 0)
      let b := a && (load data (off + (i + 1))).passes (· == 0)
      let esc := b && (load data (off + (i + 2))).passes (· == 3)
      three.toNat + a.toNat + b.toNat +
        (if esc = true then 2 + unescapeReads data off length f (i + 1 + 1 + 1) else 1 + unescapeReads data off length f (i + 1))
    else 0

/-- `ParseNalUnit(data, length, ...)` (src/h264_nal_unit_parser.cc:30-50). -/
def workNalUnit (nd : Bool) (opts : ParsingOptions) (data : List UInt8) (off length : Nat) (σ : Store) (cnt : Nat) : Nat :=
  (unescapeRbsp data off length).work (fun bytes =>
    unescapeReads data off length length 0 + (Buf.new nd bytes).work (fun b => workNalUnitBuf nd opts σ ⟨b, cnt⟩))

/-- The loop of `ParseBitstream` (src/h264_bitstream_parser.cc:143-161). -/
def workUnits (nd : Bool) (opts : ParsingOptions) (data : List UInt8) : List NaluIndex → Store → Nat → Nat
  | [], _, _ => 0
  | ix :: ixs, σ, cnt => workNalUnit nd opts data ix.payload_start_offset ix.payload_size σ cnt +
    (parseNalUnit nd opts data ix.payload_start_offset ix.payload_size σ cnt).work (fun r => workUnits nd opts data ixs r.2.1 r.2.2)

/-- Loads in the loop of `FindNaluIndices` (src/h264_bitstream_parser.cc:63-83). -/
def findReads (data : List UInt8) (e : Nat) : Nat → Nat → Nat
  | 0, _ => 0
  | f + 1, i =>
    if i < e then
      if (load data (i + 2)).passes (fun c => decide (c > 1)) = true then 1 + findReads data e f (i + 3)
      else
        let one := (load data (i + 2)).passes (· == 1)
        let b := one && (load data (i + 1)).passes (· == 0)
        let hit := b && (load data i).passes (· == 0)
        1 + one.toNat + b.toNat +
          (if hit = true then (if i > 0 then 1 else 0) + findReads data e f (i + 3) else findReads data e f (i + 1))
    else 0

/-- `ParseBitstream` (src/h264_bitstream_parser.cc:127-164). -/
def workBitstream (nd : Bool) (opts : ParsingOptions) (data : List UInt8) (σ : Store) (cnt : Nat) : Nat :=
  (if data.length < 3 then 0 else findReads data (data.length - 3) data.length 0) +
  (findNaluIndices data).work (fun ixs => workUnits nd opts data ixs σ cnt)

/-- The loop of `ParseBitstreamNALULength` (src/h264_bitstream_parser.cc:209-245) at offset `i`: the bytes of the prefix, which
`read_nalu_length` (31-41) loads when they are all there, and the NAL unit. -/
def workLengthLoop (nd : Bool) (opts : ParsingOptions) (data : List UInt8) (nalu_length_bytes : Nat) : Nat → Nat → Store → Nat → Nat
  | 0, _, _, _ => 0
  | f + 1, i, σ, cnt =>
    if i < data.length then
      (if nalu_length_bytes > sub64 data.length i then 0 else nalu_length_bytes) +
      (nextNalu data nalu_length_bytes i).work (someWork fun x =>
        workNalUnit nd opts data x.1 x.2 σ cnt +
        (parseNalUnit nd opts data x.1 x.2 σ cnt).work (fun r =>
          workLengthLoop nd opts data nalu_length_bytes f (add64 x.1 x.2) r.2.1 r.2.2))
    else 0

/-- `ParseBitstreamNALULength` (src/h264_bitstream_parser.cc:192-248). -/
def workBitstreamNALULength (nd : Bool) (opts : ParsingOptions) (data : List UInt8) (nalu_length_bytes : Nat) (σ : Store) (cnt : Nat) :
    Nat := workLengthLoop nd opts data nalu_length_bytes data.length 0 σ cnt

/-- The loop of `ParseRtpStapA` (src/h264_rtp_stapa_parser.cc:50-84). -/
def workStapA (nd : Bool) : Nat → Store → St → Nat
  | 0, _, _ => 0
  | f + 1, σ, s =>
    if s.buf.remaining > 0 then
      work nd (parseStapAUnit σ) s + (run nd (parseStapAUnit σ) s).work (fun x s => workStapA nd f x.2 s)
    else 0

/-- `ParseRtpStapA(BitBuffer*, ...)` (src/h264_rtp_stapa_parser.cc:34-86). -/
def workRtpStapA (nd : Bool) (σ : Store) (s : St) : Nat :=
  work nd parseNalHeader s + (run nd parseNalHeader s).work (fun _ s => workStapA nd (s.buf.remaining + 1) σ s)

/-- `ParseRtp` (src/h264_rtp_parser.cc:32-75) after the header and `Seek(0, 0)`. -/
def workRtpBody (nd : Bool) (σ : Store) (h : NalHeader) (s : St) : Nat :=
  if h.nal_unit_type ≤ 23 then work nd (parseRtpSingle σ) s
  else if h.nal_unit_type = 24 then workRtpStapA nd σ s
  else if h.nal_unit_type = 28 then work nd (parseRtpFuA σ h.nal_ref_idc) s
  else 0

/-- `ParseRtp(BitBuffer*, ...)` (src/h264_rtp_parser.cc:32-75). -/
def workRtp (nd : Bool) (σ : Store) (s : St) : Nat :=
  work nd parseNalHeader s +
  (run nd parseNalHeader s).work (fun h s => workRtpBody nd σ h { s with buf := (s.buf.seek 0 0).2 })

/-- `ParseRtp(data, length, ...)` (src/h264_rtp_parser.cc:22-30). -/
def workRtpData (nd : Bool) (data : List UInt8) (off length : Nat) (σ : Store) (cnt : Nat) : Nat :=
  (unescapeRbsp data off length).work (fun bytes =>
    unescapeReads data off length length 0 + (Buf.new nd bytes).work (fun b => workRtp nd σ ⟨b, cnt⟩))

end H264

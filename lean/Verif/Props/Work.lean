import Verif.WorkUnits
import Verif.Props.StapA

/-
C64: the library looks at the data a number of times that is at most proportional to its length.  What is counted is defined in
Verif/Model/Work.lean: loads of bytes outside of the bit reader, and calls of `PeekBits` in it.  The bounds hold for any bytes, any
parameter sets known before, any options, and both builds.
-/

namespace H264.Props
open H264 Prog H264.Spec

/-- C64 for `ParseNalUnit`. -/
theorem C64_nal_unit (nd : Bool) (opts : ParsingOptions) (data : List UInt8) (hl : data.length < 2 ^ 61) (off length : Nat)
    (σ : Store) (cnt : Nat) : workNalUnit nd opts data off length σ cnt ≤ 61 * length + 419 :=
  workNalUnit_le nd opts data hl off length σ cnt

/-- C64 for `ParseBitstream`: no constant is needed, since every NAL unit has a start code. -/
theorem C64_stream (nd : Bool) (opts : ParsingOptions) (data : List UInt8) (hl : data.length < 2 ^ 61) (σ : Store) (cnt : Nat) :
    workBitstream nd opts data σ cnt ≤ 144 * data.length :=
  workBitstream_le nd opts data hl σ cnt

/-- C64 for `ParseBitstreamNALULength`, with any size of the prefix. -/
theorem C64_length (nd : Bool) (opts : ParsingOptions) (data : List UInt8) (hl : data.length < 2 ^ 61) (nalu_length_bytes : Nat)
    (σ : Store) (cnt : Nat) : workBitstreamNALULength nd opts data nalu_length_bytes σ cnt ≤ 241 * data.length + 419 :=
  workLength_le nd opts data hl nalu_length_bytes σ cnt

/-- C64 for `ParseRtp`, whatever the number of NAL units in the packet. -/
theorem C64_rtp (nd : Bool) (data : List UInt8) (hl : data.length < 2 ^ 61) (off length : Nat) (σ : Store) (cnt : Nat) :
    workRtpData nd data off length σ cnt ≤ 245 * length + 466 :=
  workRtpData_le nd data hl off length σ cnt

/-! ### Some counts -/

/-- An SPS, a PPS and a slice, as a stream of 43 bytes and as a packet of 38. -/
example (nd : Bool) : workBitstream nd {} (annexB [(true, exStapSpsNal), (true, exStapPps601), (true, exStapSlice)]) {} 0 = 305 ∧
    workRtpData nd (stapPacket 0 3 [exStapSpsNal, exStapPps601, exStapSlice]) 0 38 {} 0 = 271 := by
  cases nd <;> decide +kernel

/-- Ten NAL units in one packet, each of which begins with the longest run of zeros there is. -/
example (nd : Bool) : workRtpData nd (0x78 :: List.replicate 30 0) 0 31 {} 0 = 162 := by
  cases nd <;> decide +kernel

/-- Where a Golomb code should be there is a run of 240 zeros: they are looked at once, when the SPS gives up. -/
example (nd : Bool) : workNalUnit nd {} (0x67 :: 0x42 :: 0 :: 10 :: List.replicate 30 0) 0 34 {} 0 = 391 := by
  cases nd <;> decide +kernel

/-- Start codes only. -/
example (nd : Bool) : workBitstream nd {} ((List.replicate 10 [0, 0, 1, 0x67]).flatten) {} 0 = 148 := by
  cases nd <;> decide +kernel

end H264.Props

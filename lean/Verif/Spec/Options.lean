import Verif.Types.Nal

/-
Specification for C79: what may differ between two calls with different ParsingOptions.
-/

namespace H264.Spec

/-- A NAL unit with its checksum removed. -/
def withoutChecksum (n : NalUnit) : NalUnit := { n with checksum := none }

/-- Two results for one NAL unit that differ at most in the checksum. -/
def SameUnit (a b : Option NalUnit) : Prop := a.map withoutChecksum = b.map withoutChecksum

/-- The checksum is there if and only if it was asked for. -/
def ChecksumAsAsked (opts : ParsingOptions) (n : NalUnit) : Prop := n.checksum.isSome = opts.add_checksum

end H264.Spec

import Verif.BitBuffer

/-
Machine-level model of the bit writer of src/rtc_common.cc (include/rtc_common.h:148-187).
A `BitBufferWriter` is a `BitBuffer` whose bytes can be stored to, so it is the same `Buf` structure.
-/

namespace H264

/-- `HighestByte` (src/rtc_common.cc:48). -/
def highestByte (val : Nat) : Nat := (val >>> 56) % 256

/-- `WritePartialByte` (src/rtc_common.cc:53-68). -/
def writePartialByte (source sourceBits target off : Nat) : Res Nat := do
  Res.check (off < 8)
  Res.check (sourceBits < 9)
  Res.check (sourceBits ≤ 8 - off)
  let mask := ((0xFF <<< (8 - sourceBits)) % 256) >>> off
  pure ((target &&& (0xFF ^^^ mask)) ||| (source >>> off))

/-- Store a byte at index `i`; outside the array this is undefined behaviour. -/
def store (bs : List UInt8) (i v : Nat) : Res (List UInt8) :=
  if i < bs.length then .val (bs.set i (UInt8.ofNat v)) else .bad .oob

namespace Buf

/-- The `while (bit_count >= 8)` loop of `WriteBits` (src/rtc_common.cc:352-356): bytes, pointer (as an index),
`val`, `bit_count`. -/
def writeLoop : Nat → List UInt8 → Nat → Nat → Nat → Res (List UInt8 × Nat × Nat × Nat)
  | 0, _, _, _, _ => .bad .fuel
  | f + 1, bs, i, v, bc =>
    if bc < 8 then .val (bs, i, v, bc)
    else do
      let bs' ← store bs i (highestByte v)
      writeLoop f bs' (i + 1) ((v <<< 8) % 2 ^ 64) (bc - 8)

/-- `BitBufferWriter::WriteBits` (src/rtc_common.cc:323-366).  `val <<= 64 - bit_count` is undefined for
`bit_count = 0` (shift by 64) and for `bit_count > 64` (the unsigned subtraction wraps). -/
def writeBits (val n : Nat) (b : Buf) : Res (Bool × Buf) := do
  if n > b.remaining then pure (false, b)
  else if n = 0 ∨ n > 64 then .bad .shift
  else do
    let v := (val <<< (64 - n)) % 2 ^ 64
    let inFirst := min n (8 - b.bitOff)
    let x ← load b.bytes b.byteOff
    let y ← writePartialByte (highestByte v) inFirst x b.bitOff
    let bs ← store b.bytes b.byteOff y
    if n ≤ 8 - b.bitOff then pure ({ b with bytes := bs }.consumeBits n)
    else do
      let (bs, i, v, bc) ← writeLoop (n + 1) bs (b.byteOff + 1) ((v <<< inFirst) % 2 ^ 64) (n - inFirst)
      if bc > 0 then do
        let x ← load bs i
        let y ← writePartialByte (highestByte v) bc x 0
        let bs ← store bs i y
        pure ({ b with bytes := bs }.consumeBits n)
      else pure ({ b with bytes := bs }.consumeBits n)

/-- `BitBufferWriter::WriteUInt8` (src/rtc_common.cc:311-313). -/
def writeUInt8 (val : Nat) (b : Buf) : Res (Bool × Buf) := b.writeBits (val % 2 ^ 8) 8
/-- `BitBufferWriter::WriteUInt16` (src/rtc_common.cc:315-317). -/
def writeUInt16 (val : Nat) (b : Buf) : Res (Bool × Buf) := b.writeBits (val % 2 ^ 16) 16
/-- `BitBufferWriter::WriteUInt32` (src/rtc_common.cc:319-321). -/
def writeUInt32 (val : Nat) (b : Buf) : Res (Bool × Buf) := b.writeBits (val % 2 ^ 32) 32

/-- `BitBufferWriter::WriteNonSymmetric` (src/rtc_common.cc:368-377). -/
def writeNonSymmetric (val numValues : Nat) (b : Buf) : Res (Bool × Buf) := do
  Res.check (val < numValues)
  Res.check (numValues ≤ 2 ^ 31)
  let countB := countBits numValues
  if countB ≥ 32 then .bad .shift
  else
    let minBits := sub32 ((1 <<< countB) % 2 ^ 32) numValues
    if val < minBits then b.writeBits val (sub64 countB 1)
    else b.writeBits (add32 val minBits) countB

/-- `BitBufferWriter::SizeNonSymmetricBits` (src/rtc_common.cc:379-387). -/
def sizeNonSymmetricBits (val numValues : Nat) : Res Nat := do
  Res.check (val < numValues)
  Res.check (numValues ≤ 2 ^ 31)
  let countB := countBits numValues
  if countB ≥ 32 then .bad .shift
  else
    let minBits := sub32 ((1 <<< countB) % 2 ^ 32) numValues
    if val < minBits then pure (sub64 countB 1) else pure countB

/-- `BitBufferWriter::WriteExponentialGolomb` (src/rtc_common.cc:389-401); `val` is a `uint32_t`. -/
def writeUE (val : Nat) (b : Buf) : Res (Bool × Buf) :=
  if val = 2 ^ 32 - 1 then pure (false, b)
  else b.writeBits (add64 val 1) (sub64 (mul64 (countBits (add64 val 1)) 2) 1)

/-- `BitBufferWriter::WriteSignedExponentialGolomb` (src/rtc_common.cc:403-415); `val` is an `int32_t`. -/
def writeSE (val : Int) (b : Buf) : Res (Bool × Buf) :=
  if val = 0 then b.writeUE 0
  else if val > 0 then b.writeUE (sub32 (mul32 val.toNat 2) 1)
  else if val = -(2 ^ 31) then pure (false, b)
  else do
    let v ← sint (-val)
    b.writeUE (mul32 v.toNat 2)

attribute [irreducible] writeBits

end Buf
end H264

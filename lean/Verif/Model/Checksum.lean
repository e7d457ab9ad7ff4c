import Verif.BitWriter

/-
`NaluChecksum` (include/h264_common.h:173-190, src/h264_common.cc:394-488).
-/

namespace H264

/-- `class NaluChecksum` (include/h264_common.h:173-190): the array `char checksum[32]` (as unsigned bytes; `make_shared`
value-initialises it to zeros) and `int length`. -/
structure NaluChecksum where
  checksum : List UInt8
  length : Nat
  deriving DecidableEq, Repr

/-- `while (bit_buffer->ReadUInt32(val)) sum += val;` (src/h264_common.cc:414-416).  The structural argument bounds the
number of rounds. -/
def checksumWords : Nat → Buf → Nat → Res (Nat × Buf)
  | 0, _, _ => .bad .fuel
  | f + 1, b, sum => do
    let (r, b') ← b.readUInt32
    match r with
    | none => pure (sum, b')
    | some v => checksumWords f b' (add64 sum v)

/-- The loop over the unread bytes (src/h264_common.cc:429-435).  A shift by 8 * (3 - i) with `i > 3` would be undefined;
the loop condition excludes it. -/
def checksumTail : Nat → Buf → Nat → Nat → Res (Nat × Nat × Buf)
  | 0, _, _, _ => .bad .fuel
  | f + 1, b, i, val =>
    if b.remaining ≥ 8 ∧ i < 4 then do
      let (r, b') ← b.readUInt8
      match r with
      | none => pure (i, val, b')
      | some v => checksumTail f b' (i + 1) (val ||| ((v <<< (8 * (3 - i))) % 2 ^ 32))
    else pure (i, val, b)

/-- The carry folding and complement (src/h264_common.cc:441-449): `sum` is a `uint64_t`, the result a `uint32_t`. -/
def checksumFold (sum : Nat) : Nat :=
  let s1 := add64 (sum >>> 32) (sum % 2 ^ 32)
  let s2 := add64 s1 (s1 >>> 32)
  (2 ^ 64 - 1 - s2) % 2 ^ 32

/-- `NaluChecksum::GetNaluChecksum` (src/h264_common.cc:394-456).  Storing `htonl(answer)` through a `uint32_t*` puts the
bytes of `answer` most significant first, on any host; that the store is through a pointer to another type (into a `char`
array) is not modelled. -/
def getNaluChecksum (b : Buf) : Res (NaluChecksum × Buf) := do
  let (byteOff, bitOff) := b.currentOffset
  let (sum, b1) ← checksumWords (b.remaining + 1) b 0
  let (i, val, b2) ← checksumTail 5 b1 0 0
  let sum := if i > 0 then add64 sum val else sum
  let answer := checksumFold sum
  let (_, b3) := b2.seek byteOff bitOff
  let bytes := [UInt8.ofNat (answer / 2 ^ 24), UInt8.ofNat (answer / 2 ^ 16), UInt8.ofNat (answer / 2 ^ 8), UInt8.ofNat answer]
  pure ({ checksum := bytes ++ List.replicate 28 0, length := 4 }, b3)

/-- A lower-case hexadecimal digit, as `snprintf` prints it in `NaluChecksum::fdump` (src/h264_common.cc:458-470). -/
def hexDigit (n : Nat) : Nat := if n < 10 then 48 + n else 87 + n

/-- `NaluChecksum::fdump` (src/h264_common.cc:458-470): `output` is the array the caller passes, of which `output_len` says
the size.  `snprintf(output + oi, output_len - oi, "%02x", c)` writes two digits and a terminating zero, and the guard leaves
room for all three.  `output_len` is an `int`; only non-negative values are modelled. -/
def checksumDump (ck : NaluChecksum) (output_len : Nat) : Nat → Nat → Nat → List UInt8 → Res (List UInt8)
  | 0, i, _, output => if i < ck.length then .bad .fuel else .val output
  | f + 1, i, oi, output =>
    if i < ck.length then
      if oi + 2 ≥ output_len then
        if output_len = 0 then .bad .oob else store output (output_len - 1) 0
      else do
        let c ← load ck.checksum i
        let output ← store output oi (hexDigit (c / 16))
        let output ← store output (oi + 1) (hexDigit (c % 16))
        let output ← store output (oi + 2) 0
        checksumDump ck output_len f (i + 1) (oi + 2) output
    else .val output

/-- `std::string(buffer)`: the characters before the first zero; reading on past the end of the array is undefined. -/
def cString (buffer : List UInt8) : Res (List UInt8) :=
  if buffer.contains 0 then .val (buffer.takeWhile (· ≠ 0)) else .bad .oob

/-- `NaluChecksum::GetPrintableChecksum` (src/h264_common.cc:472-488). -/
def printableChecksum (ck : NaluChecksum) : Res (List UInt8) := do
  let buffer ← checksumDump ck 65 ck.length 0 0 (List.replicate 65 0)
  cString buffer

end H264

import Verif.Bits
import Verif.Res

/-
Machine-level model of the bit reader of src/rtc_common.cc (include/rtc_common.h:67-146).
-/

namespace H264

/-- `LowestBits` (src/rtc_common.cc:31-34). -/
def lowestBits (byte bitCount : Nat) : Res Nat := do
  Res.check (bitCount ≤ 8)
  pure (byte &&& ((1 <<< bitCount) - 1))

/-- `HighestBits` (src/rtc_common.cc:38-45).  `byte` is a `uint8_t` parameter: the argument is truncated. -/
def highestBits (byte bitCount : Nat) : Res Nat := do
  Res.check (bitCount ≤ 8)
  let shift := 8 - bitCount
  let mask := (0xFF <<< shift) % 256
  pure (((byte % 256) &&& mask) >>> shift)

/-- `CountBits` (src/rtc_common.cc:71-78): number of shifts until zero.  The loop runs at most 64 times; the
structural argument counts the iterations left. -/
def countBitsLoop : Nat → Nat → Nat → Nat
  | 0, _, c => c
  | f + 1, val, c => if val = 0 then c else countBitsLoop f (val >>> 1) (c + 1)

/-- `CountBits` (src/rtc_common.cc:71-78). -/
def countBits (val : Nat) : Nat := countBitsLoop 64 val 0

/-- `class BitBuffer` (include/rtc_common.h:136-143): the bytes, and the byte/bit offset of the next
unread bit.  `byte_count_` is the length of `bytes`. -/
structure Buf where
  bytes : List UInt8
  byteOff : Nat
  bitOff : Nat
  deriving DecidableEq, Repr

namespace Buf

/-- Constructor `BitBuffer::BitBuffer` (src/rtc_common.cc:80-84), including its assertion. -/
def mk' (bytes : List UInt8) : Res Buf := do
  Res.check (bytes.length ≤ 2 ^ 32 - 1)
  pure { bytes := bytes, byteOff := 0, bitOff := 0 }

/-- `BitBuffer::RemainingBitCount` (src/rtc_common.cc:86-88), in wrapping `uint64_t` arithmetic. -/
def remaining (b : Buf) : Nat :=
  sub64 (mul64 (sub64 b.bytes.length b.byteOff) 8) b.bitOff

/-- The `while (bit_count >= 8)` loop of `PeekBits` (src/rtc_common.cc:143-146 and 179-182): `i` is the
`bytes` pointer as an index, `bits` the accumulator (of `w` bits, 32 or 64). -/
def peekLoop (w : Nat) (bytes : List UInt8) : Nat → Nat → Nat → Nat → Res (Nat × Nat × Nat)
  | 0, _, _, _ => .bad .fuel
  | f + 1, i, bits, bc =>
    if bc < 8 then .val (i, bits, bc)
    else do
      let x ← load bytes i
      peekLoop w bytes f (i + 1) (((bits <<< 8) % 2 ^ w) ||| x) (bc - 8)

/-- `BitBuffer::PeekBits` (src/rtc_common.cc:114-155 with `w = 32`, 157-191 with `w = 64`).
`none` = the call returned false. -/
def peekBits (w : Nat) (n : Nat) (b : Buf) : Res (Option Nat) :=
  if n = 0 ∨ n > w then .val none
  else if n > b.remaining then .val none
  else do
    let rembits := 8 - b.bitOff
    let x ← load b.bytes b.byteOff
    let bits ← lowestBits x rembits
    if n < rembits then do
      let v ← highestBits bits (b.bitOff + n)
      pure (some v)
    else do
      let (i, bits, bc) ← peekLoop w b.bytes (n + 1) (b.byteOff + 1) bits (n - rembits)
      if bc > 0 then do
        let y ← load b.bytes i
        let h ← highestBits y bc
        pure (some (((bits <<< bc) % 2 ^ w) ||| h))
      else pure (some bits)

/-- `BitBuffer::ConsumeBits` (src/rtc_common.cc:206-214). -/
def consumeBits (n : Nat) (b : Buf) : Bool × Buf :=
  if n > b.remaining then (false, b)
  else (true, { b with
    byteOff := add64 b.byteOff (add64 b.bitOff n / 8)
    bitOff := add64 b.bitOff n % 8 })

/-- `BitBuffer::ConsumeBytes` (src/rtc_common.cc:201-204). -/
def consumeBytes (n : Nat) (b : Buf) : Bool × Buf :=
  if n > (2 ^ 64 - 1) / 8 then (false, b) else b.consumeBits (mul64 n 8)

/-- `BitBuffer::ReadBits` (src/rtc_common.cc:193-199): `PeekBits && ConsumeBits`. -/
def readBits (w : Nat) (n : Nat) (b : Buf) : Res (Option Nat × Buf) := do
  match ← b.peekBits w n with
  | none => pure (none, b)
  | some v =>
    let (ok, b') := b.consumeBits n
    if ok then pure (some v, b') else pure (none, b')

/-- `BitBuffer::ReadUInt8` (src/rtc_common.cc:90-98). -/
def readUInt8 (b : Buf) : Res (Option Nat × Buf) := do
  let (r, b') ← b.readBits 32 8
  match r with
  | none => pure (none, b')
  | some v => do Res.check (v ≤ 255); pure (some (v % 2 ^ 8), b')

/-- `BitBuffer::ReadUInt16` (src/rtc_common.cc:100-108). -/
def readUInt16 (b : Buf) : Res (Option Nat × Buf) := do
  let (r, b') ← b.readBits 32 16
  match r with
  | none => pure (none, b')
  | some v => do Res.check (v ≤ 65535); pure (some (v % 2 ^ 16), b')

/-- `BitBuffer::ReadUInt32` (src/rtc_common.cc:110-112). -/
def readUInt32 (b : Buf) : Res (Option Nat × Buf) := b.readBits 32 32

/-- `BitBuffer::Seek` (src/rtc_common.cc:298-306). -/
def seek (byteOff bitOff : Nat) (b : Buf) : Bool × Buf :=
  if byteOff > b.bytes.length ∨ bitOff > 7 ∨ (byteOff = b.bytes.length ∧ bitOff > 0) then (false, b)
  else (true, { b with byteOff := byteOff, bitOff := bitOff })

/-- The prefix loop of `ReadExponentialGolomb` (src/rtc_common.cc:248-251); returns the zero count. -/
def ueZeros : Nat → Nat → Buf → Res (Nat × Buf)
  | 0, _, _ => .bad .fuel
  | f + 1, z, b => do
    match ← b.peekBits 32 1 with
    | some 0 => ueZeros f (z + 1) (b.consumeBits 1).2
    | _ => pure (z, b)

/-- `BitBuffer::ReadExponentialGolomb` (src/rtc_common.cc:239-266).  `ndebug` tells whether assertions are
compiled out: the restoring `Seek` of line 261 is an argument of `assert`, so with `NDEBUG` it is not executed. -/
def readUE (ndebug : Bool) (b : Buf) : Res (Option Nat × Buf) := do
  let (z, b1) ← ueZeros (b.remaining + 1) 0 b
  -- RTC_DCHECK(!PeekBits(1, peeked_bit) || peeked_bit == 1)  (line 254)
  let p ← b1.peekBits 32 1
  Res.check (p == none || p == some 1)
  let (r, b2) ← if z + 1 > 32 then pure (none, b1) else b1.readBits 32 (z + 1)
  match r with
  | none =>
    if ndebug then pure (none, b2)
    else do
      let (ok, b3) := b2.seek b.byteOff b.bitOff
      Res.check ok
      pure (none, b3)
  | some v => pure (some (sub32 v 1), b2)

/-- `BitBuffer::ReadSignedExponentialGolomb` (src/rtc_common.cc:268-288). -/
def readSE (ndebug : Bool) (b : Buf) : Res (Option Int × Buf) := do
  let (r, b') ← b.readUE ndebug
  match r with
  | none => pure (none, b')
  | some k =>
    if k &&& 1 = 0 then do
      let v ← sint (-(toI32 (k / 2)))
      pure (some v, b')
    else pure (some (toI32 (add32 k 1 / 2)), b')

/-- `BitBuffer::ReadNonSymmetric` (src/rtc_common.cc:216-237).  `uint32_t{1} << count_bits` is undefined when
`count_bits` reaches 32 (`numValues = 2^31`). -/
def readNonSymmetric (numValues : Nat) (b : Buf) : Res (Option Nat × Buf) := do
  Res.check (numValues > 0)
  Res.check (numValues ≤ 2 ^ 31)
  let countB := countBits numValues
  if countB ≥ 32 then .bad .shift
  else do
    let minBits := sub32 ((1 <<< countB) % 2 ^ 32) numValues
    let (r, b1) ← b.readBits 32 (sub64 countB 1)
    match r with
    | none => pure (none, b1)
    | some v =>
      if v < minBits then pure (some v, b1)
      else do
        let (e, b2) ← b1.readBits 32 1
        match e with
        | none => pure (none, b2)
        | some x => pure (some (sub32 (add32 ((v <<< 1) % 2 ^ 32) x) minBits), b2)

/-- `BitBuffer::GetCurrentOffset` (src/rtc_common.cc:290-296). -/
def currentOffset (b : Buf) : Nat × Nat := (b.byteOff, b.bitOff)

attribute [irreducible] remaining consumeBits peekBits

end Buf
end H264

import Verif.BitBuffer

/-
Byte-level functions: emulation prevention, NAL unit splitting, the checksum.  A C++ `(const uint8_t* data, size_t length)`
argument that points into a larger array is modelled by the whole array, an offset and the length, so that a read outside
the array is visible.
-/

namespace H264

/-- The largest size a `std::vector<uint8_t>` can have (`PTRDIFF_MAX`); `reserve` throws `std::length_error` above it. -/
def maxVector : Nat := 2 ^ 63 - 1

/-- The loop of `UnescapeRbsp` (src/h264_common.cc:229-245) at index `i`; `out` is the output vector. -/
def unescapeLoop (data : List UInt8) (off length : Nat) : Nat → Nat → List UInt8 → Res (List UInt8)
  | 0, i, out => if i < length then .bad .fuel else .val out
  | f + 1, i, out =>
    if i < length then do
      let esc ← if sub64 length i ≥ 3 then do
          let a ← load data (off + i)
          if a = 0 then do
            let b ← load data (off + (i + 1))
            if b = 0 then do
              let c ← load data (off + (i + 2))
              pure (decide (c = 3))
            else pure false
          else pure false
        else pure false
      if esc then do
        let a ← load data (off + i)
        let b ← load data (off + (i + 1))
        unescapeLoop data off length f (i + 1 + 1 + 1) (out ++ [UInt8.ofNat a] ++ [UInt8.ofNat b])
      else do
        let a ← load data (off + i)
        unescapeLoop data off length f (i + 1) (out ++ [UInt8.ofNat a])
    else .val out

/-- `UnescapeRbsp` (src/h264_common.cc:225-247) on the `length` bytes at `data + off`. -/
def unescapeRbsp (data : List UInt8) (off length : Nat) : Res (List UInt8) :=
  if length > maxVector then .bad .terminate else unescapeLoop data off length length 0 []

/-- `H264BitstreamParser::NaluIndex` (include/h264_bitstream_parser.h:66-73). -/
structure NaluIndex where
  start_offset : Nat
  payload_start_offset : Nat
  payload_size : Nat
  deriving DecidableEq, Repr

/-- `auto it = sequences.rbegin(); if (it != sequences.rend()) it->payload_size = end - it->payload_start_offset`
(src/h264_bitstream_parser.cc:73-75 and 86-88). -/
def closeLast (seqs : List NaluIndex) (e : Nat) : List NaluIndex :=
  match seqs.getLast? with
  | none => seqs
  | some it => seqs.dropLast ++ [{ it with payload_size := sub64 e it.payload_start_offset }]

/-- The loop of `FindNaluIndices` (src/h264_bitstream_parser.cc:63-83). -/
def findLoop (data : List UInt8) (e : Nat) : Nat → Nat → List NaluIndex → Res (List NaluIndex)
  | 0, i, seqs => if i < e then .bad .fuel else .val seqs
  | f + 1, i, seqs =>
    if i < e then do
      let c ← load data (i + 2)
      if c > 1 then findLoop data e f (i + 3) seqs
      else do
        let hit ← if c = 1 then do
            let b ← load data (i + 1)
            if b = 0 then do
              let a ← load data i
              pure (decide (a = 0))
            else pure false
          else pure false
        if hit then do
          let long ← if i > 0 then do
              let p ← load data (i - 1)
              pure (decide (p = 0))
            else pure false
          let start := if long then i - 1 else i
          findLoop data e f (i + 3) (closeLast seqs start ++ [⟨start, i + 3, 0⟩])
        else findLoop data e f (i + 1) seqs
    else .val seqs

/-- `H264BitstreamParser::FindNaluIndices` (src/h264_bitstream_parser.cc:50-91). -/
def findNaluIndices (data : List UInt8) : Res (List NaluIndex) :=
  if data.length < 3 then .val []
  else do
    let seqs ← findLoop data (data.length - 3) data.length 0 []
    pure (closeLast seqs data.length)

/-- `memcpy` of four bytes and `ntohl` (src/h264_bitstream_parser.cc:105-107): a big-endian number, whatever the host. -/
def loadBE32 (data : List UInt8) (i : Nat) : Res Nat := do
  let a ← load data i
  let b ← load data (i + 1)
  let c ← load data (i + 2)
  let d ← load data (i + 3)
  pure (((a * 256 + b) * 256 + c) * 256 + d)

/-- The loop of `FindNaluIndicesExplicitFraming` (src/h264_bitstream_parser.cc:100-116).  In `i += (4 + nal_unit_size)` the
`4` is an `int` and `nal_unit_size` a `uint32_t`, so the sum is a `uint32_t` and wraps. -/
def explicitLoop (data : List UInt8) : Nat → Nat → List NaluIndex → Res (List NaluIndex)
  | 0, i, seqs => if i < data.length then .bad .fuel else .val seqs
  | f + 1, i, seqs =>
    if i < data.length then
      if add64 i 4 > data.length then .val seqs
      else do
        let n ← loadBE32 data i
        if n > sub64 (sub64 data.length i) 4 then .val seqs
        else explicitLoop data f (add64 i (add32 4 n)) (seqs ++ [⟨i, add64 i 4, n⟩])
    else .val seqs

/-- `H264BitstreamParser::FindNaluIndicesExplicitFraming` (src/h264_bitstream_parser.cc:94-119). -/
def findNaluIndicesExplicitFraming (data : List UInt8) : Res (List NaluIndex) := explicitLoop data data.length 0 []

end H264

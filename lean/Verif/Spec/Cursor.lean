import Verif.BitBuffer

/-
Abstract view of a `BitBuffer`: a list of bits and a position in it.
-/

namespace H264

/-- Overwrite the segment of `l` starting at `p` with `s`. -/
def ovw (l : List Bool) (p : Nat) (s : List Bool) : List Bool :=
  l.take p ++ s ++ l.drop (p + s.length)

namespace Buf

/-- Bit position of the cursor. -/
def pos (b : Buf) : Nat := 8 * b.byteOff + b.bitOff

/-- The unread bits. -/
def rem (b : Buf) : List Bool := (allBits b.bytes).drop b.pos

/-- Well-formed reader states: the cursor is inside the buffer, and the buffer is one a 64-bit address space can
hold (less than 2^61 bytes). -/
structure WF (b : Buf) : Prop where
  size : b.bytes.length < 2 ^ 61
  bit : b.bitOff < 8
  inside : b.pos ≤ 8 * b.bytes.length

/-- Advance the cursor by `n` bits. -/
def adv (b : Buf) (n : Nat) : Buf :=
  { b with byteOff := (b.pos + n) / 8, bitOff := (b.pos + n) % 8 }

/-- A reader on the bytes of `b'`, placed where `b` stands. -/
def rewind (b b' : Buf) : Buf := { bytes := b'.bytes, byteOff := b.byteOff, bitOff := b.bitOff }

/-- What a successful write does to a buffer. -/
def Wrote (b b' : Buf) (s : List Bool) : Prop :=
  allBits b'.bytes = ovw (allBits b.bytes) b.pos s ∧ b'.bytes.length = b.bytes.length ∧
  b'.pos = b.pos + s.length ∧ b'.WF

end Buf
end H264

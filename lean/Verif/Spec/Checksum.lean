/-
Specification of the NAL unit checksum, independent of the code: the one's-complement sum of the data taken as big-endian
32-bit words, padded with zero bytes (the Internet checksum of RFC 1071, with 32-bit words).
-/

namespace H264.Spec

/-- The data as big-endian 32-bit words; a last incomplete word is padded with zero bytes. -/
def beWords : List UInt8 → List Nat
  | a :: b :: c :: d :: r => (((a.toNat * 256 + b.toNat) * 256 + c.toNat) * 256 + d.toNat) :: beWords r
  | [a, b, c] => [((a.toNat * 256 + b.toNat) * 256 + c.toNat) * 256]
  | [a, b] => [(a.toNat * 256 + b.toNat) * 65536]
  | [a] => [a.toNat * 16777216]
  | [] => []

/-- One's-complement addition of 32-bit words: a carry out of the top is added back at the bottom. -/
def onesAdd (a b : Nat) : Nat := if a + b < 2 ^ 32 then a + b else a + b - 2 ^ 32 + 1

/-- The one's complement of the one's-complement sum of the words. -/
def checksum (data : List UInt8) : Nat := 2 ^ 32 - 1 - (beWords data).foldl onesAdd 0

/-- The same with the plain sum of the words kept in 64 bits: its upper and lower 32 bits are added in the end.  What goes
beyond 64 bits is lost, which takes more than 16 GiB of data. -/
def checksum64 (data : List UInt8) : Nat :=
  let sum := (beWords data).sum % 2 ^ 64
  2 ^ 32 - 1 - onesAdd (sum / 2 ^ 32) (sum % 2 ^ 32)

/-- The digits of a 32-bit value in hexadecimal, as characters. -/
def hex8 (v : Nat) : List Char := (List.range 8).map fun k => Nat.digitChar (v / 16 ^ (7 - k) % 16)

end H264.Spec

import Verif.Bits

/-
Specification of the truncated binary ("non-symmetric") code of include/rtc_common.h (comment above
`ReadNonSymmetric`): with `k = floor(log2 n)`, the first `2^(k+1) - n` values take `k` bits, the others `k + 1`.
-/

namespace H264

/-- Codeword of `v < n`. -/
def encNS (n v : Nat) : List Bool :=
  if v < 2 ^ (Nat.log2 n + 1) - n then encU (Nat.log2 n) v
  else encU (Nat.log2 n + 1) (v + (2 ^ (Nat.log2 n + 1) - n))

example : encNS 5 0 = [false, false] := by decide
example : encNS 5 2 = [true, false] := by decide
example : encNS 5 3 = [true, true, false] := by decide
example : encNS 5 4 = [true, true, true] := by decide

end H264

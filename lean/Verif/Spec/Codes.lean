import Verif.Bits

/-
Specification of the syntax element codings of H.264 (clauses 7.2 and 9.1), independent of the reader.
`encU n v` (u(n)) is in `Verif.Bits`.
-/

namespace H264

/-- ue(v), clause 9.1: `leadingZeroBits` zeros, a one, and `leadingZeroBits` suffix bits, with
`codeNum = 2^leadingZeroBits - 1 + read_bits(leadingZeroBits)`. -/
def encUE (v : Nat) : List Bool :=
  List.replicate (Nat.log2 (v + 1)) false ++ true :: encU (Nat.log2 (v + 1)) (v + 1 - 2 ^ Nat.log2 (v + 1))

/-- Clause 9.1.1, Table 9-3: the codeNum of a signed value (0, 1, -1, 2, -2, ... are 0, 1, 2, 3, 4, ...). -/
def seCode (v : Int) : Nat := if v > 0 then 2 * v.toNat - 1 else 2 * (-v).toNat

/-- se(v), clause 9.1.1. -/
def encSE (v : Int) : List Bool := encUE (seCode v)

/-- A one-bit flag, u(1). -/
def encB (b : Bool) : List Bool := [b]

example : encUE 0 = [true] := by decide
example : encUE 1 = [false, true, false] := by decide
example : encUE 2 = [false, true, true] := by decide
example : encUE 3 = [false, false, true, false, false] := by decide
example : encUE 8 = [false, false, false, true, false, false, true] := by decide
example : encSE (-2) = encUE 4 := rfl
example : encSE 3 = encUE 5 := rfl

end H264

import Verif.Types.Store

/-
Specification for C80: parameter sets that the program, and not the parser, has put into the parser state.
-/

namespace H264

/-- A value of bit_depth_luma_minus8 for which the bounds of slice_qp_delta, `-(51 + 6 * x)` and `51 + 6 * x`, are within the range of
`int`, where `x` is the value read as an `int`: the values up to `(2^31 - 1 - 51) / 6`, and those that stand for negative numbers down
to `-(2^31) / 6`. -/
def UsableDepth (v : Nat) : Prop := v ≤ 357913932 ∨ (2 ^ 32 - 357913941 ≤ v ∧ v < 2 ^ 32)

/-- A value of slice_group_change_rate_minus1 whose successor, as a `uint32_t`, is not zero. -/
def UsableRate (v : Nat) : Prop := v < 2 ^ 32 - 1

/-- A parser state that can be used for parsing, whoever has filled it.  Nothing else about the parameter sets matters: they may be
stored under any id and have any values.  The last two fields are not needed by any proof, but by the model: with UINT32_MAX the loop
over the entries of a prediction weight table would not end after 2^32 entries. -/
structure Store.Usable (σ : Store) : Prop where
  depth : ∀ k s, σ.sps k = some s → UsableDepth s.bit_depth_luma_minus8
  rate : ∀ k p, σ.pps k = some p → UsableRate p.slice_group_change_rate_minus1
  l0 : ∀ k p, σ.pps k = some p → p.num_ref_idx_l0_default_active_minus1 < 2 ^ 32 - 1
  l1 : ∀ k p, σ.pps k = some p → p.num_ref_idx_l1_default_active_minus1 < 2 ^ 32 - 1

end H264

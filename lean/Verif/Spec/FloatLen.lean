import Mathlib.Analysis.SpecialFunctions.Log.Base
import Verif.Model.FloatLen

/-
What the lengths should be, and what is asked of `std::log2`.
-/

namespace H264.Spec

/-- A usable `std::log2`: exact on powers of two, and within 2^-40 of the logarithm for arguments from 1 to 2^22.  (Libraries give
53 correct bits, or nearly so.) -/
def UsableLog2 (log2 : ℚ → ℝ) : Prop :=
  (∀ k : ℕ, log2 (2 ^ k) = k) ∧ ∀ x : ℚ, 1 ≤ x → x ≤ 2 ^ 22 → |log2 x - Real.logb 2 x| ≤ 1 / 2 ^ 40

/-- Ceil(Log2(PicSizeInMapUnits ÷ SliceGroupChangeRate + 1)), formula 7-21: ÷ is exact division. -/
noncomputable def stdCycleLen (P R : ℕ) : ℤ := ⌈Real.logb 2 ((P : ℝ) / R + 1)⌉

/-- Ceil(Log2(num_slice_groups_minus1 + 1)), 7.4.2.2. -/
noncomputable def stdIdLen (n : ℕ) : ℤ := ⌈Real.logb 2 ((n : ℝ) + 1)⌉

end H264.Spec

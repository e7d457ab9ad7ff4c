import Mathlib.Data.Rat.Lemmas
import Mathlib.Algebra.Order.Field.Rat
import Mathlib.Algebra.Order.AbsoluteValue.Basic
import Verif.Model.Framerate

/-
What IEEE 754 rounding to nearest means, over the rational numbers.
-/

namespace H264.Spec

/-- The values of a format that are finite and not negative. -/
def InFormat (F : Format) (y : ℚ) : Prop :=
  ∃ (m : ℕ) (e : ℤ), m < 2 ^ F.p ∧ F.emin ≤ e ∧ e ≤ F.emax ∧ y = m * (2 : ℚ) ^ e

/-- `y` is `x` rounded to the format: no value of the format is nearer, and of two that are as near it is the one whose last
binary digit, at the place in which they differ by one, is zero. -/
def RoundsTo (F : Format) (x y : ℚ) : Prop :=
  InFormat F y ∧
  (∀ z, InFormat F z → |y - x| ≤ |z - x|) ∧
  (∀ z, InFormat F z → z ≠ y → |z - x| = |y - x| →
    ∃ (k : ℤ) (e : ℤ), y = 2 * k * (2 : ℚ) ^ e ∧ (z = (2 * k + 1) * (2 : ℚ) ^ e ∨ z = (2 * k - 1) * (2 : ℚ) ^ e))

/-- The rational number a finite value stands for. -/
def IsVal (f : Fl) (y : ℚ) : Prop := ∃ m e, f = .fin m e ∧ y = m * (2 : ℚ) ^ e

end H264.Spec

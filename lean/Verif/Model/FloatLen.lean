import Mathlib.Data.Real.Basic
import Mathlib.Algebra.Order.Archimedean.Real.Basic
import Verif.Model.Framerate

/-
The bit lengths that the code computes in floating point.  `std::log2` is not specified by the C++ standard to be exact, so it is
a parameter here.
-/

namespace H264

/-- The rational number a finite value stands for; 0 for the others. -/
def Fl.toRat : Fl → ℚ
  | .fin m e => m * (2 : ℚ) ^ e
  | _ => 0

/-- `((1.0 * PicSizeInMapUnits) / SliceGroupChangeRate) + 1` (src/h264_slice_header_parser.cc:533 and
src/h264_slice_header_in_scalable_extension_parser.cc:690), with the conversions of `uint32_t` and `int` to `double`. -/
def cycleLenArg (P R : Nat) : Fl := (((Fl.fin 1 0).mul (Fl.ofNat P)).div (Fl.ofNat R)).add (Fl.ofNat 1)

/-- `1.0 * num_slice_groups_minus1 + 1` (src/h264_pps_parser.cc:342). -/
def idLenArg (n : Nat) : Fl := ((Fl.fin 1 0).mul (Fl.ofNat n)).add (Fl.ofNat 1)

/-- `std::ceil(std::log2(x))` with `log2` for `std::log2`. -/
noncomputable def ceilLog (log2 : ℚ → ℝ) (x : Fl) : ℤ := ⌈log2 x.toRat⌉

end H264

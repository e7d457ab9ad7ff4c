import Verif.Types.Basic

/-
Model of `VuiParametersState::getFramerate` (src/h264_vui_parameters_parser.cc:349-355): IEEE 754 arithmetic, round to nearest,
ties to even, on values that are not negative.
-/

namespace H264

/-- A binary format: bits of the significand, and the least and greatest exponent of its last place. -/
structure Format where
  p : Nat
  emin : Int
  emax : Int

/-- `double`, IEEE 754 binary64. -/
def binary64 : Format := ⟨53, -1074, 971⟩
/-- `float`, IEEE 754 binary32. -/
def binary32 : Format := ⟨24, -149, 104⟩

/-- A value that is not negative: `fin m e` is m times 2 to the power e. -/
inductive Fl where
  | nan
  | inf
  | fin (m : Nat) (e : Int)
  deriving DecidableEq, Repr

namespace Fl

/-- The natural number nearest to n / d, the even one of two. -/
def nearestNat (n d : Nat) : Nat :=
  if 2 * (n % d) < d then n / d
  else if 2 * (n % d) > d then n / d + 1
  else n / d + n / d % 2

/-- 2 to the power e times b is not greater than a, for any integer e. -/
def powLe (e : Int) (b a : Nat) : Bool := decide (2 ^ e.toNat * b ≤ a * 2 ^ (-e).toNat)

/-- The greatest e with 2 to the power e at most n / d. -/
def ilog (n d : Nat) : Int :=
  if powLe ((n.log2 : Int) - d.log2) d n then (n.log2 : Int) - d.log2 else (n.log2 : Int) - d.log2 - 1

/-- n / d rounded to the format. -/
def round (F : Format) (n d : Nat) : Fl :=
  if n = 0 then .fin 0 0
  else
    let e := max F.emin (ilog n d - (F.p - 1))
    if e > F.emax then .inf
    else
      let m := nearestNat (n * 2 ^ (-e).toNat) (d * 2 ^ e.toNat)
      if m < 2 ^ F.p then .fin m e
      else if e + 1 > F.emax then .inf
      else .fin (2 ^ (F.p - 1)) (e + 1)

/-- Conversion of an unsigned integer to `double`. -/
def ofNat (n : Nat) : Fl := round binary64 n 1

/-- Product of two `double` values. -/
def mul : Fl → Fl → Fl
  | .fin m e, .fin k f => round binary64 (m * k * 2 ^ (e + f).toNat) (2 ^ (-(e + f)).toNat)
  | .nan, _ => .nan
  | _, .nan => .nan
  | .inf, .fin 0 _ => .nan
  | .fin 0 _, .inf => .nan
  | _, _ => .inf

/-- Sum of two `double` values. -/
def add : Fl → Fl → Fl
  | .fin m e, .fin k f =>
    round binary64 (m * 2 ^ (e - min e f).toNat * 2 ^ (min e f).toNat + k * 2 ^ (f - min e f).toNat * 2 ^ (min e f).toNat)
      (2 ^ (-(min e f)).toNat)
  | .nan, _ => .nan
  | _, .nan => .nan
  | _, _ => .inf

/-- Quotient of two `double` values. -/
def div : Fl → Fl → Fl
  | .fin m e, .fin k f =>
    if k = 0 then (if m = 0 then .nan else .inf)
    else round binary64 (m * 2 ^ (e - f).toNat) (k * 2 ^ (f - e).toNat)
  | .nan, _ => .nan
  | _, .nan => .nan
  | .inf, .inf => .nan
  | .inf, _ => .inf
  | .fin _ _, .inf => .fin 0 0

/-- `static_cast<float>` of a `double`. -/
def toFloat : Fl → Fl
  | .fin m e => round binary32 (m * 2 ^ e.toNat) (2 ^ (-e).toNat)
  | .nan => .nan
  | .inf => .inf

end Fl

/-- `VuiParametersState::getFramerate` (src/h264_vui_parameters_parser.cc:349-355): `time_scale` is converted to `double`,
`2.0 * num_units_in_tick` and the quotient are `double`, and the result is narrowed to `float`. -/
def Vui.getFramerate (v : Vui) : Fl :=
  ((Fl.ofNat v.time_scale).div ((Fl.fin 2 0).mul (Fl.ofNat v.num_units_in_tick))).toFloat

end H264

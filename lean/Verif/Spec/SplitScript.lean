import Verif.Types.Nal
import Verif.Spec.Bytes
import Verif.Spec.Pieces
import Verif.Spec.Syntax7

/-
Specification of splitting a stream where the resolution changes (C82).
-/

namespace H264.Spec

/-- The size of the cropped picture (7-13 to 7-22). -/
def resolutionOf (x : SpsData) : Nat × Nat :=
  (picWidth x.toSpsTail - cropX x.toSpsHead x.toSpsTail, frameHeight x.toSpsTail - cropY x.toSpsHead x.toSpsTail)

/-- sar_width and sar_height, if the SPS has them. -/
def sampleAspect (x : SpsData) : Option (Nat × Nat) :=
  if x.vui_parameters_present_flag = 1 then
    match x.vui_parameters with
    | some v => if v.aspect_ratio_info_present_flag = 1 ∧ v.aspect_ratio_idc = 255 then some (v.sar_width, v.sar_height) else none
    | none => none
  else none

/-- The SPS a NAL unit holds. -/
def heldSps (n : NalUnit) : Option SpsData := if n.nal_unit_header.nal_unit_type = 7 then n.nal_unit_payload.sps else none

/-- What h264nal-split.py compares: the sample aspect ratio if the SPS has one, otherwise the resolution. -/
def comparedSize (n : NalUnit) : Option (Nat × Nat) := (heldSps n).map fun x => (sampleAspect x).getD (resolutionOf x)

/-- The NAL units `groups` are what is between changes of `f`: it has one value in each group, where it has any, and each group but the
first begins with a NAL unit for which it has another value than it had in the group before. -/
inductive ChangesBetween (f : NalUnit → Option (Nat × Nat)) : List (List NalUnit) → Prop
  | last {g : List NalUnit} : (∀ m ∈ g, ∀ n ∈ g, ∀ r s, f m = some r → f n = some s → r = s) → ChangesBetween f [g]
  | next {g : List NalUnit} {n : NalUnit} {h : List NalUnit} {gs : List (List NalUnit)} :
      (∀ m ∈ g, ∀ n ∈ g, ∀ r s, f m = some r → f n = some s → r = s) →
      (∃ m ∈ g, ∃ r s, f m = some r ∧ f n = some s ∧ r ≠ s) →
      ChangesBetween f ((n :: h) :: gs) → ChangesBetween f (g :: (n :: h) :: gs)

/-- The NAL units of each group are in the piece with the same number; `off` bytes precede the pieces. -/
inductive Within : Nat → List (List UInt8) → List (List NalUnit) → Prop
  | nil (off : Nat) : Within off [] []
  | cons {off : Nat} {a : List UInt8} {rest : List (List UInt8)} {g : List NalUnit} {gs : List (List NalUnit)} :
      (∀ n ∈ g, off + 3 ≤ n.offset ∧ n.offset + n.length ≤ off + a.length) → Within (off + a.length) rest gs →
      Within off (a :: rest) (g :: gs)

end H264.Spec

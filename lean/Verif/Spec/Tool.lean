import Verif.Types.Nal
import Verif.Model.Common
import Verif.Spec.Common

/-
Specification of the output of the tool: the bytes of a NAL unit in hexadecimal, and the table of NAL units and frames.
-/

namespace H264.Spec

/-! ### Contents -/

/-- A hexadecimal digit. -/
def hexChar (n : Nat) : Char := "0123456789abcdef".toList[n]?.getD '?'

/-- The bytes, each as a space and two digits, with one more space after every 16 bytes; `i` bytes come before them. -/
def hexBytes (i : Nat) : List UInt8 → List Char
  | [] => []
  | b :: bs => ' ' :: hexChar (b.toNat / 16) :: hexChar (b.toNat % 16) ::
      ((if i % 16 = 15 then [' '] else []) ++ hexBytes (i + 1) bs)

/-- What is written for one NAL unit, which has the bytes `bytes` and the dump `text`. -/
def unitText (contents : Bool) (bytes : List UInt8) (text : List Char) : List Char :=
  text ++ (if contents then " contents {".toList ++ hexBytes 0 bytes ++ " }".toList else []) ++ ['\n']

/-! ### The exit status -/

/-- A NAL unit of a type whose payload is parsed, without a payload. -/
def Unparsed (n : NalUnit) : Prop := n.nal_unit_header.nal_unit_type ∈ parsedTypes ∧ n.nal_unit_payload = {}

/-! ### The table -/

/-- A line of comma-separated values. -/
def csvLine (cells : List String) : List Char := (String.intercalate "," cells ++ "\n").toList

/-- The NAL unit is a slice or a part of one. -/
def IsSlice (n : NalUnit) : Prop := n.nal_unit_header.nal_unit_type ∈ [1, 2, 3, 4, 5, 19, 20]

instance (n : NalUnit) : Decidable (IsSlice n) := by unfold IsSlice; infer_instance

/-- first_mb_in_slice of a slice (type 1 or 5) with a slice header; 0 for every other NAL unit. -/
def firstMb (n : NalUnit) : Nat :=
  ((n.nal_unit_payload.slice_layer_without_partitioning_rbsp.bind (·.slice_header)).map (·.first_mb_in_slice)).getD 0

/-- The line of NAL unit number `i`, in frame number `f`. -/
def unitLine (i f : Nat) (n : NalUnit) : List Char :=
  csvLine [toString i, toString f, toString n.nal_unit_header.nal_unit_type, nalUnitTypeToString n.nal_unit_header.nal_unit_type,
    toString n.length, "", if IsSlice n then toString (firstMb n) else ""]

/-- The lines of the NAL units `ns`, the first with number `i`, all in frame `f`. -/
def unitLines (i f : Nat) : List NalUnit → List Char
  | [] => []
  | n :: ns => unitLine i f n ++ unitLines (i + 1) f ns

/-- The number of bytes in the slices among `ns`. -/
def sliceBytes (ns : List NalUnit) : Nat := ((ns.filter (fun n => decide (IsSlice n))).map (·.length)).sum

/-- The type of the last slice among `ns`. -/
def lastSliceType (ns : List NalUnit) : Option Nat :=
  (ns.filter (fun n => decide (IsSlice n))).getLast?.map (·.nal_unit_header.nal_unit_type)

/-- The line of frame number `f`, made of the NAL units `g`: the type of its last slice, and the bit rate if every frame has the
size of this one. -/
def frameLine (fps : Int) (f : Nat) (g : List NalUnit) : List Char :=
  csvLine ["", toString f, toString ((lastSliceType g).getD 0), "frame", "", toString (8 * sliceBytes g * fps), ""]

/-- `ns` are the NAL units `before` the first slice, and then those of the `frames`.  A frame is a slice and everything up to the
next slice whose first_mb_in_slice is 0. -/
structure FrameSplit (ns before : List NalUnit) (frames : List (List NalUnit)) : Prop where
  all : ns = before ++ frames.flatten
  before : ∀ n ∈ before, ¬ IsSlice n
  frame : ∀ g ∈ frames, ∃ n r, g = n :: r ∧ IsSlice n ∧ ∀ m ∈ r, IsSlice m → firstMb m ≠ 0
  first : ∀ g ∈ frames.tail, ∃ n r, g = n :: r ∧ firstMb n = 0

/-- The lines of the frames, each after those of its NAL units. -/
def frameLines (fps : Int) (i f : Nat) : List (List NalUnit) → List Char
  | [] => []
  | g :: gs => unitLines i f g ++ (frameLine fps f g ++ frameLines fps (i + g.length) (f + 1) gs)

/-- The whole table. -/
def csvTable (fps : Int) (before : List NalUnit) (frames : List (List NalUnit)) : List Char :=
  csvLine ["nal_num", "frame_num", "nal_unit_type", "nal_unit_type_str", "nal_length_bytes", "bitrate_bps", "first_mb_in_slice"] ++
    (unitLines 0 0 before ++ frameLines fps before.length 0 frames)

end H264.Spec

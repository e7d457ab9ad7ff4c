import Verif.Spec.SplitScript

/-
Specification: what a summary of a stream says.
-/

namespace H264.Spec

/-- The SPS in a NAL unit: an SPS, or that in a subset SPS. -/
def spsIn (n : NalUnit) : Option SpsData :=
  if n.nal_unit_header.nal_unit_type = 7 then n.nal_unit_payload.sps
  else if n.nal_unit_header.nal_unit_type = 15 then n.nal_unit_payload.subset_sps.map (·.seq_parameter_set_data)
  else none

/-- A NAL unit that should hold one slice header: a slice (types 1 and 5) or a slice of an enhancement layer or of another view (type 20). -/
def isSlice (n : NalUnit) : Bool := decide (n.nal_unit_header.nal_unit_type ∈ [1, 5, 20])

/-- The library returned a slice header for the NAL unit. -/
def hasSliceHeader (n : NalUnit) : Bool :=
  if n.nal_unit_header.nal_unit_type ∈ [1, 5] then
    match n.nal_unit_payload.slice_layer_without_partitioning_rbsp with
    | some x => x.slice_header.isSome
    | none => false
  else if n.nal_unit_header.nal_unit_type = 20 then
    match n.nal_unit_payload.slice_layer_extension_rbsp with
    | some x => x.slice_header_in_scalable_extension.isSome || x.slice_header.isSome
    | none => false
  else false

/-- The level an SPS states (A.3): level 1b is stated by level_idc 11 and constraint_set3_flag for profile_idc 66, 77 and 88, and by level_idc 9
for the others; any other level is a tenth of level_idc. -/
def levelName (x : SpsData) : List Char :=
  if x.profile_idc ∈ [66, 77, 88] then
    if x.level_idc = 11 ∧ x.constraint_set3_flag = 1 then "1b".toList
    else (toString (x.level_idc / 10) ++ "." ++ toString (x.level_idc % 10)).toList
  else if x.level_idc = 9 then "1b".toList
  else (toString (x.level_idc / 10) ++ "." ++ toString (x.level_idc % 10)).toList

/-- The resolution, as shown. -/
def resolutionName (x : SpsData) : List Char := (toString (resolutionOf x).1 ++ "x" ++ toString (resolutionOf x).2).toList

/-- Different values, in the order of their first occurrence, with semicolons between them. -/
def listed (vs : List (List Char)) : List Char := (vs.eraseDups.intersperse [';']).flatten

/-- What an exit status says. -/
def exitReason (code : Int) : List (List Char) :=
  if code = 0 then []
  else if code = 1 then ["h264nal: invalid bitstream".toList]
  else if code = 2 then ["h264nal: unimplemented syntax".toList]
  else [("h264nal exited with " ++ toString code).toList]

/-- A message that may occur more than once. -/
def counted (ms : List (List Char)) (m : List Char) : List Char :=
  if ms.count m = 1 then m else m ++ (" (x" ++ toString (ms.count m) ++ ")").toList

/-- What is reported for an exit status and messages: the reason, then each message once, in the order of first occurrence, with the number
of times it occurs if that is more than one; or 0. -/
def reported (code : Int) (ms : List (List Char)) : List Char :=
  if code = 0 ∧ ms = [] then "0".toList
  else ((exitReason code ++ ms.eraseDups.map (counted ms)).intersperse "; ".toList).flatten

/-- A line with a message: something without line feeds, not starting or ending with a blank. -/
def IsMessage (m : List Char) : Prop := m ≠ [] ∧ '\n' ∉ m ∧ m.head? ≠ some ' ' ∧ m.getLast? ≠ some ' '

end H264.Spec

import Verif.Model.Dump
import Verif.Model.Common

/-
Model of the command line tool (tools/h264nal.cc): what `main` writes to the output and the exit status, given the options and
the bytes of the input file.  `parse_args` (137-349) and the rest of `main` - reading the input, opening the output, the debug
output - are in `Model/ToolArgs.lean`.  Not modelled: the usage text (84-135) and the messages on `stderr`.
-/

namespace H264

/-- `Dumpmode` (tools/h264nal.cc:46). -/
inductive Dumpmode where
  | dump_all
  | dump_length
  deriving DecidableEq, Repr

/-- The members of `arg_options` that matter after the files have been opened (tools/h264nal.cc:48-63), with the default values
(66-81). -/
structure ToolArgs where
  dumpmode : Dumpmode := .dump_all
  as_one_line : Bool := true
  add_offset : Bool := false
  add_length : Bool := false
  add_parsed_length : Bool := false
  add_checksum : Bool := false
  add_resolution : Bool := false
  add_contents : Bool := false
  nalu_length_bytes : Int := -1
  frames_per_second : Int := 30
  deriving DecidableEq, Repr

/-- tools/h264nal.cc:381-398: the parsing options. -/
def toolOptions (a : ToolArgs) : ParsingOptions :=
  { add_offset := a.add_offset || a.add_contents
    add_length := (a.add_length || a.add_contents) || decide (a.dumpmode = .dump_length)
    add_parsed_length := a.add_parsed_length
    add_checksum := a.add_checksum
    add_resolution := a.add_resolution }

/-- tools/h264nal.cc:432-450: the parsed bitstream and the counter of unimplemented syntax, which has been reset. -/
def toolParse (nd : Bool) (a : ToolArgs) (data : List UInt8) : Res (Bitstream × Nat) := do
  if a.nalu_length_bytes < 0 then
    let (bs, _, cnt) ← parseBitstream nd (toolOptions a) data {} 0
    pure (bs, cnt)
  else
    let (bs, _, cnt) ← parseBitstreamNALULength nd (toolOptions a) data a.nalu_length_bytes.toNat {} 0
    pure (bs, cnt)

/-- `fprintf(outfp, " %02x", v)` (tools/h264nal.cc:502). -/
def hex02 (v : Nat) : Text :=
  let d := Nat.toDigits 16 v
  ' ' :: (List.replicate (2 - d.length) '0' ++ d)

/-- The loop at tools/h264nal.cc:499-506 from index `i` on. -/
def contentsLoop (data : List UInt8) (offset length : Nat) : Nat → Nat → Dump
  | 0, _ => .bad .fuel
  | f + 1, i =>
    if i < length ∧ add64 offset i < data.length then do
      let x ← load data (add64 offset i)
      let t ← contentsLoop data offset length f (i + 1)
      pure (hex02 x ++ ((if (i + 1) % 16 = 0 then [' '] else []) ++ t))
    else .val []

/-- tools/h264nal.cc:496-509: one NAL unit in the mode `dump_all`. -/
def dumpAllUnit (a : ToolArgs) (data : List UInt8) (n : NalUnit) : Dump := cat [
  n.fdump (if a.as_one_line then -1 else 0) (toolOptions a),
  whenD (a.add_contents = true) [
    .val " contents {".toList,
    contentsLoop data n.offset n.length (n.length + 1) 0,
    .val " }".toList],
  .val ['\n']]

/-- `int64_t` arithmetic that must not overflow (tools/h264nal.cc:532-533, 551-552). -/
def sint64 (x : Int) : Res Int := if -(2 ^ 63) ≤ x ∧ x < 2 ^ 63 then .val x else .bad .overflow

/-- The local variables of the loop in the mode `dump_length` (tools/h264nal.cc:490-493). -/
structure CsvState where
  total_bytes : Int := 0
  nal_num : Int := 0
  frame_num : Int := 0
  last_slice_nal_unit_type : Int := -1
  deriving DecidableEq, Repr

/-- tools/h264nal.cc:532-535 and 551-554: the row of a frame. -/
def frameRow (frames_per_second : Int) (s : CsvState) : Dump := do
  let bits ← sint64 (s.total_bytes * 8)
  let bitrate ← sint64 (bits * frames_per_second)
  pure (',' :: (decI s.frame_num ++ (',' :: (decI s.last_slice_nal_unit_type ++ (",frame,,".toList ++ (decI bitrate ++ [',', '\n']))))))

/-- tools/h264nal.cc:519-529: `first_mb_in_slice` of a slice. -/
def csvFirstMb (n : NalUnit) : Res Int :=
  match n.nal_unit_payload.slice_layer_without_partitioning_rbsp with
  | some x =>
    match x.slice_header with
    | some h => .val (toI32 h.first_mb_in_slice)
    | none => .bad .nullDeref
  | none => .val 0

/-- tools/h264nal.cc:530-538: a new frame.  The row of the frame before it, and the state. -/
def csvNewFrame (fps first_mb : Int) (s : CsvState) : Res (Text × CsvState) :=
  if first_mb = 0 ∧ s.total_bytes > 0 then do
    let t ← frameRow fps s
    let f ← sint (s.frame_num + 1)
    pure (t, { s with frame_num := f, total_bytes := 0 })
  else .val ([], s)

/-- tools/h264nal.cc:542-544: the row of a NAL unit; `first_mb` is what `opt_value` (351-353) returns. -/
def unitRow (n : NalUnit) (s : CsvState) (first_mb : Text) : Text :=
  decI s.nal_num ++ (',' :: (decI s.frame_num ++ (',' :: (decI (toI32 n.nal_unit_header.nal_unit_type) ++ (',' ::
    ((nalUnitTypeToString n.nal_unit_header.nal_unit_type).toList ++ (',' ::
      (decI (toI32 (n.length % 2 ^ 32)) ++ (',' :: ',' :: (first_mb ++ ['\n']))))))))))

/-- tools/h264nal.cc:511-545: one NAL unit in the mode `dump_length`. -/
def csvUnit (fps : Int) (n : NalUnit) (s : CsvState) : Res (Text × CsvState) :=
  if isSliceSegment n.nal_unit_header.nal_unit_type then do
    let first_mb ← csvFirstMb n
    let (t, s) ← csvNewFrame fps first_mb s
    let total ← sint (s.total_bytes + toI32 (n.length % 2 ^ 32))
    let s := { s with last_slice_nal_unit_type := toI32 n.nal_unit_header.nal_unit_type, total_bytes := total }
    let num ← sint (s.nal_num + 1)
    pure (t ++ unitRow n s (decI first_mb), { s with nal_num := num })
  else do
    let num ← sint (s.nal_num + 1)
    pure (unitRow n s [], { s with nal_num := num })

/-- tools/h264nal.cc:494-547: the loop over the NAL units in the mode `dump_length`, and the row of the last frame (548-556). -/
def csvUnits (fps : Int) : List NalUnit → CsvState → Dump
  | [], s => if s.total_bytes > 0 then frameRow fps s else .val []
  | n :: ns, s => do
    let (t, s) ← csvUnit fps n s
    let r ← csvUnits fps ns s
    pure (t ++ r)

/-- tools/h264nal.cc:485-487: the first line. -/
def csvHeader : Text :=
  "nal_num,frame_num,nal_unit_type,nal_unit_type_str,".toList ++ "nal_length_bytes,bitrate_bps,first_mb_in_slice\n".toList

/-- tools/h264nal.cc:482-557: what is written. -/
def toolDump (a : ToolArgs) (data : List UInt8) (bs : Bitstream) : Dump :=
  match a.dumpmode with
  | .dump_all => cat (bs.nal_units.map (dumpAllUnit a data))
  | .dump_length => cat [.val csvHeader, csvUnits a.frames_per_second bs.nal_units {}]

/-- tools/h264nal.cc:578-590: the number of NAL units left unparsed. -/
def unparsedUnits (a : ToolArgs) (data : List UInt8) (bs : Bitstream) : Res Nat := do
  let missing ← if a.nalu_length_bytes < 0 then do
      let ixs ← findNaluIndices data
      pure (sub64 ixs.length bs.nal_units.length)
    else pure 0
  pure (bs.nal_units.foldl
    (fun m n => if n.nal_unit_payload.isPayloadParsed n.nal_unit_header.nal_unit_type = false then add64 m 1 else m) missing)

/-- tools/h264nal.cc:591-605: the exit status.  The counter is a `uint32_t`. -/
def toolExit (unparsed cnt : Nat) : Int :=
  if cnt % 2 ^ 32 > 0 then 2 else if unparsed > 0 then 1 else 0

/-- `main` (tools/h264nal.cc:355-606) once the input has been read into `data`: the output and the exit status. -/
def toolMain (nd : Bool) (a : ToolArgs) (data : List UInt8) : Res (Text × Int) := do
  let (bs, cnt) ← toolParse nd a data
  let out ← toolDump a data bs
  let m ← unparsedUnits a data bs
  pure (out, toolExit m cnt)

end H264

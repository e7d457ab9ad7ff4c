import Verif.Model.Subset
import Verif.Model.Scalable
import Verif.Model.Bytes
import Verif.Types.Nal

/-
Model of the NAL unit parsers and of the bitstream parsers.
-/

namespace H264
open Prog

/-! ### Payload parsers -/

/-- `ParseSliceLayerWithoutPartitioningRbsp(BitBuffer*, ...)`
(src/h264_slice_layer_without_partitioning_rbsp_parser.cc:40-70). -/
def parseSliceLayer (σ : Store) (nal_ref_idc nal_unit_type : Nat) : Prog SliceLayer := do
  let slice_header ← parseSliceHeader σ nal_ref_idc nal_unit_type
  pure { nal_ref_idc, nal_unit_type, slice_header := some slice_header }

/-- `ParseSliceLayerExtensionRbsp(BitBuffer*, ...)` (src/h264_slice_layer_extension_rbsp_parser.cc:39-87).  A scalable slice
header that does not parse leaves a null pointer in the returned state (60-67). -/
def parseSliceLayerExt (σ : Store) (h : NalHeader) : Prog SliceLayerExt :=
  let base : SliceLayerExt := { svc_extension_flag := h.svc_extension_flag, avc_3d_extension_flag := h.avc_3d_extension_flag,
                                nal_ref_idc := h.nal_ref_idc, nal_unit_type := h.nal_unit_type }
  if h.svc_extension_flag ≠ 0 then do
    let sh ← (parseScalHeader σ h).attempt
    pure { base with slice_header_in_scalable_extension := sh }
  else if h.avc_3d_extension_flag ≠ 0 then pure base
  else do
    let sh ← parseSliceHeader σ h.nal_ref_idc h.nal_unit_type
    pure { base with slice_header := some sh }

/-- The two copies of the loop over `additional_prefix_nal_unit_extension_data_flag` with the trailing bits after it
(src/h264_prefix_nal_unit_parser.cc:71-80 and 83-92): the last flag read.  One iteration is the same code as in the subset
SPS (`parseExt2Step`); the result of `rbsp_trailing_bits` is ignored. -/
def parsePrefixExtData : Prog Nat := do
  let l ← parseExt2Step.loop
  let _ ← rbspTrailingBits.attempt
  pure (l.getLastD 0)

/-- src/h264_prefix_nal_unit_parser.cc:63-93: `additional_prefix_nal_unit_extension_flag` and the last data flag. -/
def parsePrefixExt : Prog (Nat × Nat) := do
  let f ← u 1
  if f = 1 then do
    let d ← parsePrefixExtData
    pure (f, d)
  else do
    let more ← moreRbspData
    if more = true then do
      let d ← parsePrefixExtData
      pure (f, d)
    else pure (f, 0)

/-- `ParsePrefixNalUnitSvc(BitBuffer*, ...)` (src/h264_prefix_nal_unit_parser.cc:35-97). -/
def parsePrefixSvc (nal_ref_idc use_ref_base_pic_flag idr_flag : Nat) : Prog PrefixSvc :=
  if nal_ref_idc ≠ 0 then do
    let store_ref_base_pic_flag ← u 1
    if (use_ref_base_pic_flag ≠ 0 ∨ store_ref_base_pic_flag ≠ 0) ∧ idr_flag = 0 then do
      unimpl
      null
    else do
      let x ← parsePrefixExt
      pure { nal_ref_idc, use_ref_base_pic_flag, idr_flag, store_ref_base_pic_flag,
             additional_prefix_nal_unit_extension_flag := x.1, additional_prefix_nal_unit_extension_data_flag := x.2 }
  else pure { nal_ref_idc, use_ref_base_pic_flag, idr_flag }

/-- `ParsePrefixNalUnitRbsp(BitBuffer*, ...)` (src/h264_prefix_nal_unit_parser.cc:111-139). -/
def parsePrefixRbsp (svc_extension_flag nal_ref_idc use_ref_base_pic_flag idr_flag : Nat) : Prog PrefixRbsp := do
  let svc ← opt (svc_extension_flag = 1) none (do
    let x ← parsePrefixSvc nal_ref_idc use_ref_base_pic_flag idr_flag
    pure (some x))
  pure { svc_extension_flag, nal_ref_idc, use_ref_base_pic_flag, idr_flag, prefix_nal_unit_svc := svc }

/-- `bitstream_parser_state->sps[sps_id] = nal_unit_payload->sps` when it is not null
(src/h264_nal_unit_payload_parser.cc:93-97). -/
def Store.addSps (σ : Store) (x : Option SpsData) : Store :=
  match x with
  | some s => { σ with sps := upd σ.sps s.seq_parameter_set_id s }
  | none => σ

/-- Same for the PPS (src/h264_nal_unit_payload_parser.cc:119-123). -/
def Store.addPps (σ : Store) (x : Option Pps) : Store :=
  match x with
  | some p => { σ with pps := upd σ.pps p.pic_parameter_set_id p }
  | none => σ

/-- Same for the subset SPS (src/h264_nal_unit_payload_parser.cc:150-157). -/
def Store.addSubsetSps (σ : Store) (x : Option SubsetSps) : Store :=
  match x with
  | some s => { σ with subset_sps := upd σ.subset_sps s.seq_parameter_set_data.seq_parameter_set_id s }
  | none => σ

/-- src/h264_nal_unit_payload_parser.cc:132-145: the prefix NAL unit. -/
def parsePrefixPayload (h : NalHeader) : Prog (Option PrefixRbsp) :=
  if h.svc_extension_flag ≠ 0 then
    match h.svc_extension with
    | some e => (parsePrefixRbsp h.svc_extension_flag h.nal_ref_idc e.use_ref_base_pic_flag e.idr_flag).attempt
    | none => pure none
  else pure none

/-- `ParseNalUnitPayload(BitBuffer*, nal_unit_header, ...)` (src/h264_nal_unit_payload_parser.cc:55-199), with the store it
leaves. -/
def parsePayload (σ : Store) (h : NalHeader) : Prog (Payload × Store) :=
  if h.nal_unit_type = 1 ∨ h.nal_unit_type = 5 then do
    let x ← (parseSliceLayer σ h.nal_ref_idc h.nal_unit_type).attempt
    pure ({ slice_layer_without_partitioning_rbsp := x }, σ)
  else if h.nal_unit_type = 7 then do
    let x ← parseSps.attempt
    pure ({ sps := x }, σ.addSps x)
  else if h.nal_unit_type = 8 then do
    let x ← (parsePps 1).attempt
    pure ({ pps := x }, σ.addPps x)
  else if h.nal_unit_type = 14 then do
    let x ← parsePrefixPayload h
    pure ({ prefix_nal_unit := x }, σ)
  else if h.nal_unit_type = 15 then do
    let x ← parseSubsetSps.attempt
    pure ({ subset_sps := x }, σ.addSubsetSps x)
  else if h.nal_unit_type = 20 then do
    let x ← (parseSliceLayerExt σ h).attempt
    pure ({ slice_layer_extension_rbsp := x }, σ)
  else pure ({}, σ)

/-- `ParseNalUnitPayload(BitBuffer*, nal_ref_idc, nal_unit_type, ...)` (src/h264_nal_unit_payload_parser.cc:41-53).  The
header's `nal_unit_header_svc_extension` stays null. -/
def parsePayloadRT (σ : Store) (nal_ref_idc nal_unit_type : Nat) : Prog (Payload × Store) :=
  parsePayload σ { forbidden_zero_bit := 0, nal_ref_idc, nal_unit_type, svc_extension_flag := 0, avc_3d_extension_flag := 0,
                   svc_extension := none }

/-- `NalUnitPayloadState::IsPayloadParsed` (src/h264_nal_unit_payload_parser.cc:201-221). -/
def Payload.isPayloadParsed (p : Payload) (nal_unit_type : Nat) : Bool :=
  if nal_unit_type = 7 then p.sps.isSome
  else if nal_unit_type = 8 then p.pps.isSome
  else if nal_unit_type = 15 then p.subset_sps.isSome
  else if nal_unit_type = 14 then p.prefix_nal_unit.isSome
  else if nal_unit_type = 1 ∨ nal_unit_type = 5 then p.slice_layer_without_partitioning_rbsp.isSome
  else if nal_unit_type = 20 then p.slice_layer_extension_rbsp.isSome
  else true

/-! ### NAL units -/

/-- A parser call seen from its caller: the value, or null, and the state it leaves. -/
def Out.res {σ α : Type} : Out σ α → Res (Option α × σ)
  | .ok a s => .val (some a, s)
  | .null s => .val (none, s)
  | .bad e => .bad e

/-- `BitBuffer bit_buffer(data, size)` (src/rtc_common.cc:80-84); its assertion on the size is only there when `NDEBUG` is
not defined. -/
def Buf.new (nd : Bool) (bytes : List UInt8) : Res Buf :=
  if nd then .val { bytes := bytes, byteOff := 0, bitOff := 0 } else Buf.mk' bytes

/-- `get_current_offset` (src/h264_common.cc:261-266). -/
def currentByte (b : Buf) : Nat := b.byteOff + (if b.bitOff ≠ 0 then 1 else 0)

/-- src/h264_nal_unit_parser.cc:62-66: the checksum, if asked for. -/
def unitChecksum (opts : ParsingOptions) (b : Buf) : Res (Option NaluChecksum × Buf) :=
  if opts.add_checksum then do
    let x ← getNaluChecksum b
    pure (some x.1, x.2)
  else pure (none, b)

/-- `ParseNalUnit(BitBuffer*, ...)` (src/h264_nal_unit_parser.cc:52-89).  `offset` and `length` are value-initialised by
`make_unique`. -/
def parseNalUnitBuf (nd : Bool) (opts : ParsingOptions) (σ : Store) (s : St) : Res (Option NalUnit × Store × St) := do
  let (checksum, b) ← unitChecksum opts s.buf
  let (h, s) ← (run nd parseNalHeader { s with buf := b }).res
  match h with
  | none => pure (none, σ, s)
  | some h => do
    let (p, s) ← (run nd (parsePayload σ h) s).res
    match p with
    | none => pure (none, σ, s)
    | some (p, σ) =>
      pure (some { parsed_length := currentByte s.buf, checksum, nal_unit_header := h, nal_unit_payload := p }, σ, s)

/-- `ParseNalUnitUnescaped` (src/h264_nal_unit_parser.cc:30-38).  `cnt` is the process-wide counter of unimplemented syntax. -/
def parseNalUnitUnescaped (nd : Bool) (opts : ParsingOptions) (bytes : List UInt8) (σ : Store) (cnt : Nat) :
    Res (Option NalUnit × Store × Nat) := do
  let b ← Buf.new nd bytes
  let (n, σ, s) ← parseNalUnitBuf nd opts σ ⟨b, cnt⟩
  pure (n, σ, s.cnt)

/-- `ParseNalUnit(data, length, ...)` (src/h264_nal_unit_parser.cc:41-50) on the `length` bytes at `data + off`. -/
def parseNalUnit (nd : Bool) (opts : ParsingOptions) (data : List UInt8) (off length : Nat) (σ : Store) (cnt : Nat) :
    Res (Option NalUnit × Store × Nat) := do
  let bytes ← unescapeRbsp data off length
  parseNalUnitUnescaped nd opts bytes σ cnt

/-! ### Bitstreams -/

/-- The loop of `ParseBitstream` (src/h264_bitstream_parser.cc:143-161) over the NAL unit index. -/
def parseUnits (nd : Bool) (opts : ParsingOptions) (data : List UInt8) :
    List NaluIndex → Store → Nat → Res (List NalUnit × Store × Nat)
  | [], σ, cnt => .val ([], σ, cnt)
  | ix :: ixs, σ, cnt => do
    let (n, σ, cnt) ← parseNalUnit nd opts data ix.payload_start_offset ix.payload_size σ cnt
    let (ns, σ, cnt) ← parseUnits nd opts data ixs σ cnt
    match n with
    | none => pure (ns, σ, cnt)
    | some n => pure ({ n with offset := ix.payload_start_offset, length := ix.payload_size } :: ns, σ, cnt)

/-- `ParseBitstream(data, length, bitstream_parser_state, parsing_options)` (src/h264_bitstream_parser.cc:127-164).
`parsing_options_` keeps its default value. -/
def parseBitstream (nd : Bool) (opts : ParsingOptions) (data : List UInt8) (σ : Store) (cnt : Nat) :
    Res (Bitstream × Store × Nat) := do
  let ixs ← findNaluIndices data
  let (ns, σ, cnt) ← parseUnits nd opts data ixs σ cnt
  pure ({ nal_units := ns }, σ, cnt)

/-- `ParseBitstream(data, length, parsing_options)` (src/h264_bitstream_parser.cc:166-184). -/
def parseBitstreamFresh (nd : Bool) (opts : ParsingOptions) (data : List UInt8) (cnt : Nat) : Res (Bitstream × Nat) := do
  let (bs, _, cnt) ← parseBitstream nd opts data {} cnt
  pure ({ bs with parsing_options := opts }, cnt)

/-- The loop of `read_nalu_length` (src/h264_bitstream_parser.cc:37-39) at byte `i`, `n` bytes still to read. -/
def readLengthLoop (data : List UInt8) : Nat → Nat → Nat → Res Nat
  | 0, _, acc => .val acc
  | n + 1, i, acc => do
    let x ← load data i
    readLengthLoop data n (i + 1) (add64 (mul64 acc 256) x)

/-- `read_nalu_length` (src/h264_bitstream_parser.cc:31-41) at `data + off`; `none` = it returned false. -/
def readNaluLength (data : List UInt8) (off nalu_length_bytes : Nat) : Res (Option Nat) :=
  if nalu_length_bytes > sub64 data.length off then .val none
  else do
    let v ← readLengthLoop data nalu_length_bytes off 0
    pure (some v)

/-- src/h264_bitstream_parser.cc:210-225: offset and size of the next NAL unit; `none` = `break`. -/
def nextNalu (data : List UInt8) (nalu_length_bytes i : Nat) : Res (Option (Nat × Nat)) :=
  if nalu_length_bytes > 0 then do
    let r ← readNaluLength data i nalu_length_bytes
    match r with
    | none => pure none
    | some n =>
      let i := add64 i nalu_length_bytes
      if n = 0 ∨ add64 i n > data.length then pure none else pure (some (i, n))
  else pure (some (i, data.length))

/-- The loop of `ParseBitstreamNALULength` (src/h264_bitstream_parser.cc:209-245) at offset `i`.  `nal_unit->length` is set to
`nalu_length_bytes`, as in the code (240). -/
def parseLengthLoop (nd : Bool) (opts : ParsingOptions) (data : List UInt8) (nalu_length_bytes : Nat) :
    Nat → Nat → Store → Nat → Res (List NalUnit × Store × Nat)
  | 0, i, σ, cnt => if i < data.length then .bad .fuel else .val ([], σ, cnt)
  | f + 1, i, σ, cnt =>
    if i < data.length then do
      let next ← nextNalu data nalu_length_bytes i
      match next with
      | none => pure ([], σ, cnt)
      | some (i, n) => do
        let (r, σ, cnt) ← parseNalUnit nd opts data i n σ cnt
        let (ns, σ, cnt) ← parseLengthLoop nd opts data nalu_length_bytes f (add64 i n) σ cnt
        match r with
        | none => pure (ns, σ, cnt)
        | some r => pure ({ r with offset := i, length := nalu_length_bytes } :: ns, σ, cnt)
    else .val ([], σ, cnt)

/-- `ParseBitstreamNALULength(data, length, nalu_length_bytes, bitstream_parser_state, parsing_options)`
(src/h264_bitstream_parser.cc:192-248). -/
def parseBitstreamNALULength (nd : Bool) (opts : ParsingOptions) (data : List UInt8) (nalu_length_bytes : Nat) (σ : Store)
    (cnt : Nat) : Res (Bitstream × Store × Nat) := do
  let (ns, σ, cnt) ← parseLengthLoop nd opts data nalu_length_bytes data.length 0 σ cnt
  pure ({ nal_units := ns }, σ, cnt)

/-- `ParseBitstreamNALULength(data, length, nalu_length_bytes, parsing_options)` (src/h264_bitstream_parser.cc:250-271). -/
def parseBitstreamNALULengthFresh (nd : Bool) (opts : ParsingOptions) (data : List UInt8) (nalu_length_bytes cnt : Nat) :
    Res (Bitstream × Nat) := do
  let (bs, _, cnt) ← parseBitstreamNALULength nd opts data nalu_length_bytes {} cnt
  pure ({ bs with parsing_options := opts }, cnt)

end H264

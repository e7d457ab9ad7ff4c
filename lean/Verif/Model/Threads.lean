import Verif.Model.Rtp

/-
Threads.  Several threads call the library at the same time, each with its own `BitstreamParserState`.  What they share is the
counter of unimplemented syntax (src/h264_common.cc:371-373), the only variable with static storage duration that the library
writes.  It is an atomic variable: its accesses have one order that all threads agree on, and none falls between the two halves
of a `fetch_add`.  That the order is relaxed matters only for other variables.

A thread is a `Task`: steps of its own, and accesses to the counter.  One call of the `BitBuffer` API is one step; where a
thread does several things of its own at once that is a simplification, which others cannot notice.
-/

namespace H264
open Prog

/-- What a thread still has to do. -/
inductive Task (α : Type) where
  /-- It has finished. -/
  | done (r : Res α)
  /-- A step of its own. -/
  | tick (t : Task α)
  /-- `report_unimplemented` (src/h264_common.cc:375-383) -/
  | report (t : Task α)
  /-- `get_unimplemented_count` (src/h264_common.cc:385-387) -/
  | look (k : Nat → Task α)
  /-- `reset_unimplemented_count` (src/h264_common.cc:389-391) -/
  | clear (t : Task α)

namespace Task

/-- One task after the other; undefined behaviour ends the thread. -/
def bind {α β : Type} : Task α → (α → Task β) → Task β
  | .done (.val a), f => f a
  | .done (.bad e), _ => .done (.bad e)
  | .tick t, f => .tick (bind t f)
  | .report t, f => .report (bind t f)
  | .look k, f => .look (fun v => bind (k v) f)
  | .clear t, f => .clear (bind t f)

instance : Monad Task where
  pure a := .done (.val a)
  bind := Task.bind

/-- A computation on the thread's own data. -/
def own {α : Type} (r : Res α) : Task α := .tick (.done r)

end Task

/-- A parser program in a thread, on a `BitBuffer` of the thread: each call is a step, `report_unimplemented` goes to the shared
counter.  Compare `run` (Verif/Prog.lean). -/
def runT {α : Type} (nd : Bool) : Prog α → Buf → Task (Option α × Buf)
  | .ret a, b => .done (.val (some a, b))
  | .null, b => .done (.val (none, b))
  | .bad e, _ => .done (.bad e)
  | .op .unimpl k, b => .report (runT nd (k ()) b)
  | .op o k, b => (Task.own (o.run nd ⟨b, 0⟩)).bind fun x => runT nd (k x.1) x.2.buf

/-- Call a parser that can change the store; compare `runStore`. -/
def runStoreT {α : Type} (nd : Bool) (σ : Store) (p : Prog (α × Store)) (b : Buf) : Task (Option α × Store × Buf) := do
  let x ← runT nd p b
  pure (x.1.map Prod.fst, (x.1.map Prod.snd).getD σ, x.2)

/-- `ParseNalUnit(BitBuffer*, ...)` (src/h264_nal_unit_parser.cc:52-89); compare `parseNalUnitBuf`. -/
def nalUnitBufT (nd : Bool) (opts : ParsingOptions) (σ : Store) (b : Buf) : Task (Option NalUnit × Store) := do
  let (checksum, b) ← Task.own (unitChecksum opts b)
  let (h, b) ← runT nd parseNalHeader b
  match h with
  | none => pure (none, σ)
  | some h => do
    let (p, b) ← runT nd (parsePayload σ h) b
    match p with
    | none => pure (none, σ)
    | some (p, σ) => pure (some { parsed_length := currentByte b, checksum, nal_unit_header := h, nal_unit_payload := p }, σ)

/-- `ParseNalUnit(data, length, ...)` (src/h264_nal_unit_parser.cc:30-50); compare `parseNalUnit`. -/
def nalUnitT (nd : Bool) (opts : ParsingOptions) (data : List UInt8) (off length : Nat) (σ : Store) : Task (Option NalUnit × Store) := do
  let bytes ← Task.own (unescapeRbsp data off length)
  let b ← Task.own (Buf.new nd bytes)
  nalUnitBufT nd opts σ b

/-- The loop of `ParseBitstream` (src/h264_bitstream_parser.cc:143-161); compare `parseUnits`. -/
def unitsT (nd : Bool) (opts : ParsingOptions) (data : List UInt8) : List NaluIndex → Store → Task (List NalUnit × Store)
  | [], σ => .done (.val ([], σ))
  | ix :: ixs, σ => do
    let (n, σ) ← nalUnitT nd opts data ix.payload_start_offset ix.payload_size σ
    let (ns, σ) ← unitsT nd opts data ixs σ
    match n with
    | none => pure (ns, σ)
    | some n => pure ({ n with offset := ix.payload_start_offset, length := ix.payload_size } :: ns, σ)

/-- `ParseBitstream(data, length, bitstream_parser_state, parsing_options)` (src/h264_bitstream_parser.cc:127-164). -/
def bitstreamT (nd : Bool) (opts : ParsingOptions) (data : List UInt8) (σ : Store) : Task (Bitstream × Store) := do
  let ixs ← Task.own (findNaluIndices data)
  let (ns, σ) ← unitsT nd opts data ixs σ
  pure ({ nal_units := ns }, σ)

/-- The loop of `ParseBitstreamNALULength` (src/h264_bitstream_parser.cc:204-245); compare `parseLengthLoop`. -/
def lengthLoopT (nd : Bool) (opts : ParsingOptions) (data : List UInt8) (nalu_length_bytes : Nat) :
    Nat → Nat → Store → Task (List NalUnit × Store)
  | 0, i, σ => if i < data.length then .done (.bad .fuel) else .done (.val ([], σ))
  | f + 1, i, σ =>
    if i < data.length then do
      let next ← Task.own (nextNalu data nalu_length_bytes i)
      match next with
      | none => pure ([], σ)
      | some (i, n) => do
        let (r, σ) ← nalUnitT nd opts data i n σ
        let (ns, σ) ← lengthLoopT nd opts data nalu_length_bytes f (add64 i n) σ
        match r with
        | none => pure (ns, σ)
        | some r => pure ({ r with offset := i, length := nalu_length_bytes } :: ns, σ)
    else .done (.val ([], σ))

/-- `ParseBitstreamNALULength(data, length, nalu_length_bytes, bitstream_parser_state, parsing_options)`
(src/h264_bitstream_parser.cc:192-248). -/
def lengthT (nd : Bool) (opts : ParsingOptions) (data : List UInt8) (nalu_length_bytes : Nat) (σ : Store) : Task (Bitstream × Store) := do
  let (ns, σ) ← lengthLoopT nd opts data nalu_length_bytes data.length 0 σ
  pure ({ nal_units := ns }, σ)

/-- The loop of `ParseRtpStapA` (src/h264_rtp_stapa_parser.cc:50-84); compare `stapALoop`. -/
def stapALoopT (nd : Bool) : Nat → Store → Buf → Task (Option (List (Nat × NalHeader × Payload)) × Store × Buf)
  | 0, _, _ => .done (.bad .fuel)
  | f + 1, σ, b =>
    if b.remaining > 0 then do
      let (x, σ, b) ← runStoreT nd σ (parseStapAUnit σ) b
      match x with
      | none => pure (none, σ, b)
      | some x => do
        let (xs, σ, b) ← stapALoopT nd f σ b
        match xs with
        | none => pure (none, σ, b)
        | some xs => pure (some (x :: xs), σ, b)
    else pure (some [], σ, b)

/-- `ParseRtpStapA(BitBuffer*, ...)` (src/h264_rtp_stapa_parser.cc:34-86). -/
def stapAT (nd : Bool) (σ : Store) (b : Buf) : Task (Option RtpStapA × Store × Buf) := do
  let (h, b) ← runT nd parseNalHeader b
  match h with
  | none => pure (none, σ, b)
  | some h => do
    let (xs, σ, b) ← stapALoopT nd (b.remaining + 1) σ b
    match xs with
    | none => pure (none, σ, b)
    | some xs => pure (some { header := h, nal_units := xs }, σ, b)

/-- `ParseRtp(BitBuffer*, ...)` (src/h264_rtp_parser.cc:32-75); compare `parseRtp`. -/
def rtpBufT (nd : Bool) (σ : Store) (b : Buf) : Task (Option Rtp × Store × Buf) := do
  let (h, b) ← runT nd parseNalHeader b
  match h with
  | none => pure (none, σ, b)
  | some h => do
    let b := (b.seek 0 0).2
    if h.nal_unit_type ≤ 23 then do
      let (x, σ, b) ← runStoreT nd σ (parseRtpSingle σ) b
      pure (x.map fun x => { nal_unit_header := h, rtp_single := some x }, σ, b)
    else if h.nal_unit_type = 24 then do
      let (x, σ, b) ← stapAT nd σ b
      pure (x.map fun x => { nal_unit_header := h, rtp_stapa := some x }, σ, b)
    else if h.nal_unit_type = 28 then do
      let (x, σ, b) ← runStoreT nd σ (parseRtpFuA σ h.nal_ref_idc) b
      pure (x.map fun x => { nal_unit_header := h, rtp_fua := some x }, σ, b)
    else pure (some { nal_unit_header := h }, σ, b)

/-- `ParseRtp(data, length, ...)` (src/h264_rtp_parser.cc:22-30). -/
def rtpT (nd : Bool) (data : List UInt8) (σ : Store) : Task (Option Rtp × Store) := do
  let bytes ← Task.own (unescapeRbsp data 0 data.length)
  let b ← Task.own (Buf.new nd bytes)
  let (x, σ, _) ← rtpBufT nd σ b
  pure (x, σ)

/-- What a thread can call. -/
inductive Call where
  /-- `H264BitstreamParser::ParseBitstream` with the thread's `BitstreamParserState` -/
  | bitstream (opts : ParsingOptions) (data : List UInt8)
  /-- `H264BitstreamParser::ParseBitstreamNALULength` with the thread's `BitstreamParserState` -/
  | lengths (opts : ParsingOptions) (data : List UInt8) (nalu_length_bytes : Nat)
  /-- `H264NalUnitParser::ParseNalUnit` with the thread's `BitstreamParserState` -/
  | nalUnit (opts : ParsingOptions) (data : List UInt8)
  /-- `H264RtpParser::ParseRtp` with the thread's `BitstreamParserState` -/
  | rtp (data : List UInt8)
  /-- `get_unimplemented_count` -/
  | count
  /-- `reset_unimplemented_count` -/
  | reset

/-- What a call returns. -/
inductive Answer where
  | bitstream (bs : Bitstream)
  | nalUnit (n : Option NalUnit)
  | rtp (r : Option Rtp)
  | count (v : Nat)
  | reset

/-- One call. -/
def callT (nd : Bool) (σ : Store) : Call → Task (Answer × Store)
  | .bitstream opts data => do let (bs, σ) ← bitstreamT nd opts data σ; pure (.bitstream bs, σ)
  | .lengths opts data k => do let (bs, σ) ← lengthT nd opts data k σ; pure (.bitstream bs, σ)
  | .nalUnit opts data => do let (n, σ) ← nalUnitT nd opts data 0 data.length σ; pure (.nalUnit n, σ)
  | .rtp data => do let (r, σ) ← rtpT nd data σ; pure (.rtp r, σ)
  | .count => .look fun v => .done (.val (.count v, σ))
  | .reset => .clear (.done (.val (.reset, σ)))

/-- A thread that makes these calls, one after the other, beginning with the parser state `σ`. -/
def threadT (nd : Bool) : List Call → Store → Task (List Answer)
  | [], _ => .done (.val [])
  | c :: cs, σ => do
    let (a, σ) ← callT nd σ c
    let as' ← threadT nd cs σ
    pure (a :: as')

/-- The threads of a program and the counter (its value is `cnt` modulo 2^32). -/
structure Threads where
  tasks : List (Task (List Answer))
  cnt : Nat

/-- A step of a thread, and what it does to the counter. -/
inductive Task.Step {α : Type} : Task α → Nat → Task α → Nat → Prop
  | tick (t : Task α) (c : Nat) : Task.Step (.tick t) c t c
  | report (t : Task α) (c : Nat) : Task.Step (.report t) c t (c + 1)
  | look (k : Nat → Task α) (c : Nat) : Task.Step (.look k) c (k (c % 2 ^ 32)) c
  | clear (t : Task α) (c : Nat) : Task.Step (.clear t) c t 0

/-- A step of the program is a step of one of its threads, whichever. -/
inductive Threads.Step : Threads → Threads → Prop
  | mk (l r : List (Task (List Answer))) {t t' : Task (List Answer)} {c c' : Nat} (h : t.Step c t' c') :
      Threads.Step ⟨l ++ t :: r, c⟩ ⟨l ++ t' :: r, c'⟩

/-- `n` steps. -/
inductive Threads.Steps : Nat → Threads → Threads → Prop
  | refl (g : Threads) : Threads.Steps 0 g g
  | step {n : Nat} {g g' g'' : Threads} (h : Threads.Step g g') (hs : Threads.Steps n g' g'') : Threads.Steps (n + 1) g g''

/-- All threads have finished. -/
def Threads.Finished (g : Threads) : Prop := ∀ t ∈ g.tasks, ∃ r, t = .done r

end H264

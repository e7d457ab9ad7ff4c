import Verif.Model.Nal

/-
Parameter sets and the pointers to them.  The other models treat stored and returned parameter sets as values.  Here they are objects on a
heap, which the maps of the parser state and the returned payloads point to with `std::shared_ptr`: reference counts are kept as
`shared_ptr` keeps them, an object is freed when its count becomes 0, and every access to an object that was freed is a distinct outcome.
Verif/Props/Heap.lean proves that the values are a faithful model of this.

Simplifications: the members of a payload that `std::unique_ptr` owns (slices, prefix NAL units), and the parts of a parameter set, are
values, since no other object points to them.  Parsing with a state asks that all its pointers, not only those that are used, are valid.
-/

namespace H264.Heap
open H264

/-- What a `std::shared_ptr` of the library points to (include/h264_nal_unit_payload_parser.h:52-59). -/
inductive Obj where
  | sps (x : SpsData)
  | pps (x : Pps)
  | subset (x : SubsetSps)

def Obj.asSps : Obj → Option SpsData
  | .sps x => some x
  | _ => none
def Obj.asPps : Obj → Option Pps
  | .pps x => some x
  | _ => none
def Obj.asSubset : Obj → Option SubsetSps
  | .subset x => some x
  | _ => none

/-- The bad outcomes. -/
inductive HBad where
  /-- an access to an object that was freed -/
  | dangling
  /-- a bad outcome of a parser -/
  | parser (e : Bad)

/-- All the objects ever allocated, in this order; an address is an index.  An object and its `use_count`, or none when it was freed. -/
abbrev Mem := List (Option (Obj × Nat))

/-- The object at an address. -/
def obj (m : Mem) (a : Nat) : Option Obj :=
  match m[a]? with
  | some (some c) => some c.1
  | _ => none

/-- `use_count()`. -/
def useCount (m : Mem) (a : Nat) : Nat :=
  match m[a]? with
  | some (some c) => c.2
  | _ => 0

/-- A `shared_ptr` is copied. -/
def incr (m : Mem) (a : Nat) : Except HBad Mem :=
  match m[a]? with
  | some (some (o, n)) => .ok (m.set a (some (o, n + 1)))
  | _ => .error .dangling

/-- A `shared_ptr` is destroyed or overwritten; the last one frees the object. -/
def decr (m : Mem) (a : Nat) : Except HBad Mem :=
  match m[a]? with
  | some (some (o, n)) => .ok (m.set a (if n ≤ 1 then none else some (o, n - 1)))
  | _ => .error .dangling

def incrAll : List Nat → Mem → Except HBad Mem
  | [], m => .ok m
  | a :: l, m => do incrAll l (← incr m a)

def decrAll : List Nat → Mem → Except HBad Mem
  | [], m => .ok m
  | a :: l, m => do decrAll l (← decr m a)

/-- `std::map<uint32_t, std::shared_ptr<...>>` (include/h264_bitstream_parser_state.h:34-40). -/
abbrev PMap := List (Nat × Nat)

def PMap.get (mp : PMap) (k : Nat) : Option Nat := (mp.find? fun e => e.1 == k).map (·.2)
def PMap.ptrs (mp : PMap) : List Nat := mp.map (·.2)
/-- The entries under a key (at most one). -/
def PMap.old (mp : PMap) (k : Nat) : PMap := mp.filter fun e => e.1 == k
/-- The other entries. -/
def PMap.others (mp : PMap) (k : Nat) : PMap := mp.filter fun e => !(e.1 == k)

/-- `map[k] = pointer`: the pointer is copied, and what was there before is released. -/
def assign (m : Mem) (mp : PMap) (k a : Nat) : Except HBad (Mem × PMap) := do
  let m ← incr m a
  let m ← decrAll (mp.old k).ptrs m
  pure (m, (k, a) :: mp.others k)

/-- `H264BitstreamParserState` (include/h264_bitstream_parser_state.h:20-47). -/
structure PStore where
  sps : PMap := []
  pps : PMap := []
  subset_sps : PMap := []

def PStore.ptrs (σ : PStore) : List Nat := σ.sps.ptrs ++ σ.pps.ptrs ++ σ.subset_sps.ptrs

/-- A returned `NalUnitPayloadState`, or pointers that the program keeps: the members that are `unique_ptr`, and the three that are
`shared_ptr` (include/h264_nal_unit_payload_parser.h:52-62). -/
structure PPayload where
  rest : Payload := {}
  sps : Option Nat := none
  pps : Option Nat := none
  subset_sps : Option Nat := none

def PPayload.ptrs (p : PPayload) : List Nat := p.sps.toList ++ p.pps.toList ++ p.subset_sps.toList

/-- What a map holds, seen through its pointers. -/
def derefMap {α : Type} (f : Obj → Option α) (m : Mem) (mp : PMap) : Nat → Option α := fun k => (mp.get k).bind fun a => (obj m a).bind f

/-- A parser state, seen through its pointers. -/
def PStore.deref (m : Mem) (σ : PStore) : Store :=
  { sps := derefMap Obj.asSps m σ.sps, pps := derefMap Obj.asPps m σ.pps, subset_sps := derefMap Obj.asSubset m σ.subset_sps }

/-- A payload, seen through its pointers. -/
def PPayload.deref (m : Mem) (p : PPayload) : Payload :=
  { p.rest with
    sps := p.sps.bind fun a => (obj m a).bind Obj.asSps
    pps := p.pps.bind fun a => (obj m a).bind Obj.asPps
    subset_sps := p.subset_sps.bind fun a => (obj m a).bind Obj.asSubset }

/-- A parameter set that was parsed is allocated with `make_shared`, the payload points to it, and so does the entry of its id
(src/h264_nal_unit_payload_parser.cc:95-99, 121-125, 153-162). -/
def keep (m : Mem) (mp : PMap) : Option (Nat × Obj) → Except HBad (Option Nat × PMap × Mem)
  | none => .ok (none, mp, m)
  | some (k, o) => do
    let (m', mp') ← assign (m ++ [some (o, 1)]) mp k m.length
    pure (some m.length, mp', m')

/-- `ParseNalUnitPayload(BitBuffer*, ...)` (src/h264_nal_unit_payload_parser.cc:55-199) with pointers.  The parsers below it look up
parameter sets by id in the maps of the state and read them through the pointers (src/h264_slice_header_parser.cc:107-126,
src/h264_slice_header_in_scalable_extension_parser.cc:112-138). -/
def parse (nd : Bool) (h : NalHeader) (s : St) (σ : PStore) (m : Mem) : Except HBad (Option PPayload × PStore × Mem) :=
  if σ.ptrs.all fun a => (obj m a).isSome then
    match run nd (parsePayload (σ.deref m) h) s with
    | .bad e => .error (.parser e)
    | .null _ => .ok (none, σ, m)
    | .ok (p, _) _ => do
      let (a, sps, m) ← keep m σ.sps (p.sps.map fun x => (x.seq_parameter_set_id, .sps x))
      let (b, pps, m) ← keep m σ.pps (p.pps.map fun x => (x.pic_parameter_set_id, .pps x))
      let (c, subset_sps, m) ← keep m σ.subset_sps
        (p.subset_sps.map fun x => (x.seq_parameter_set_data.seq_parameter_set_id, .subset x))
      pure (some { rest := { p with sps := none, pps := none, subset_sps := none }, sps := a, pps := b, subset_sps := c },
        { sps, pps, subset_sps }, m)
  else .error .dangling

/-- What a program does with parser states and what they returned. -/
inductive Act where
  /-- a parser state is created -/
  | create
  /-- a parser state is destroyed -/
  | destroy (i : Nat)
  /-- a payload is parsed with a parser state -/
  | parse (nd : Bool) (i : Nat) (h : NalHeader) (s : St)
  /-- `GetSps`, `GetPps`, `GetSubsetSps` (src/h264_bitstream_parser_state.cc:32-60) -/
  | getSps (i k : Nat)
  | getPps (i k : Nat)
  | getSubsetSps (i k : Nat)
  /-- the pointers of a result are copied -/
  | share (j : Nat)
  /-- a result is destroyed -/
  | release (j : Nat)

/-- The heap, the parser states, and the results that the program has; none for those that were destroyed. -/
structure World where
  mem : Mem := []
  states : List (Option PStore) := []
  results : List (Option PPayload) := []

/-- A copy of pointers becomes one more result. -/
def World.hold (w : World) (p : PPayload) : Except HBad World := do
  let m ← incrAll p.ptrs w.mem
  pure { w with mem := m, results := w.results ++ [some p] }

/-- One step.  Nothing happens if the state or result does not exist (any more). -/
def step (w : World) : Act → Except HBad World
  | .create => .ok { w with states := w.states ++ [some {}] }
  | .destroy i =>
    match w.states[i]? with
    | some (some σ) => do
      let m ← decrAll σ.ptrs w.mem
      pure { w with mem := m, states := w.states.set i none }
    | _ => .ok w
  | .parse nd i h s =>
    match w.states[i]? with
    | some (some σ) => do
      let (p, σ', m) ← parse nd h s σ w.mem
      pure { mem := m, states := w.states.set i (some σ'), results := w.results ++ [p] }
    | _ => .ok w
  | .getSps i k =>
    match w.states[i]? with
    | some (some σ) => w.hold { sps := σ.sps.get k }
    | _ => .ok w
  | .getPps i k =>
    match w.states[i]? with
    | some (some σ) => w.hold { pps := σ.pps.get k }
    | _ => .ok w
  | .getSubsetSps i k =>
    match w.states[i]? with
    | some (some σ) => w.hold { subset_sps := σ.subset_sps.get k }
    | _ => .ok w
  | .share j =>
    match w.results[j]? with
    | some (some p) => w.hold { p with rest := {} }
    | _ => .ok w
  | .release j =>
    match w.results[j]? with
    | some (some p) => do
      let m ← decrAll p.ptrs w.mem
      pure { w with mem := m, results := w.results.set j none }
    | _ => .ok w

def exec : List Act → World → Except HBad World
  | [], w => .ok w
  | o :: os, w => do exec os (← step w o)

end H264.Heap

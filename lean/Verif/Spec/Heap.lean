import Verif.Model.Heap
import Verif.Spec.Cursor

/-
The specification of C76 and C77: parser states and results as plain values.  Every result is a value of its own, that nothing changes until
it is destroyed.
-/

namespace H264.Spec
open H264 H264.Heap

/-- Parser states and results as values. -/
structure Values where
  states : List (Option Store) := []
  results : List (Option Payload) := []

/-- One step on values. -/
def Values.step (v : Values) : Act → Values
  | .create => { v with states := v.states ++ [some {}] }
  | .destroy i => { v with states := v.states.set i none }
  | .parse nd i h s =>
    match v.states[i]? with
    | some (some σ) =>
      match run nd (parsePayload σ h) s with
      | .ok (p, σ') _ => { states := v.states.set i (some σ'), results := v.results ++ [some p] }
      | _ => { v with results := v.results ++ [none] }
    | _ => v
  | .getSps i k =>
    match v.states[i]? with
    | some (some σ) => { v with results := v.results ++ [some { sps := σ.sps k }] }
    | _ => v
  | .getPps i k =>
    match v.states[i]? with
    | some (some σ) => { v with results := v.results ++ [some { pps := σ.pps k }] }
    | _ => v
  | .getSubsetSps i k =>
    match v.states[i]? with
    | some (some σ) => { v with results := v.results ++ [some { subset_sps := σ.subset_sps k }] }
    | _ => v
  | .share j =>
    match v.results[j]? with
    | some (some p) => { v with results := v.results ++ [some { sps := p.sps, pps := p.pps, subset_sps := p.subset_sps }] }
    | _ => v
  | .release j => { v with results := v.results.set j none }

/-- What the program sees in a world. -/
def values (w : World) : Values :=
  { states := w.states.map fun o => o.map (PStore.deref w.mem), results := w.results.map fun o => o.map (PPayload.deref w.mem) }

/-- The pointers that the program can reach. -/
def pointers (w : World) : List Nat :=
  (w.states.flatMap fun o => (o.map PStore.ptrs).getD []) ++ (w.results.flatMap fun o => (o.map PPayload.ptrs).getD [])

/-- The readers of the operations are at a position in their buffers. -/
def Readable : Act → Prop
  | .parse _ _ _ s => s.buf.WF
  | _ => True

/-- The program has destroyed all that it had. -/
def AllGone (w : World) : Prop := (∀ x ∈ w.states, x = none) ∧ ∀ x ∈ w.results, x = none

/-- The program assigns to an object through a pointer that it has. -/
def write (w : World) (a : Nat) (o : Obj) : World :=
  { w with mem := match w.mem[a]? with
    | some (some c) => w.mem.set a (some (o, c.2))
    | _ => w.mem }

end H264.Spec

import Verif.Types.Nal
import Verif.Res
import Verif.Spec.Bytes

/-
Specifications at NAL unit level: parsing a list of NAL units in order, and which parameter set is the latest.
-/

namespace H264.Spec

/-- Parsing NAL units one after another: `units` gives for each NAL unit its offset and its bytes.  Each is parsed with the
parameter sets `σ` left by those before it (and the value `c` of the counter of unimplemented syntax).  A NAL unit that does
not parse is left out and changes no parameter set; for the others `offset` and `length` are set. -/
inductive InOrder (parse : List UInt8 → Store → Nat → Res (Option NalUnit × Store × Nat)) :
    (units : List (Nat × List UInt8)) → Store → Nat → List NalUnit → Store → Nat → Prop
  | nil (σ : Store) (c : Nat) : InOrder parse [] σ c [] σ c
  | skip {off : Nat} {bytes : List UInt8} {rest : List (Nat × List UInt8)} {σ σ' : Store} {c c1 c' : Nat} {ns : List NalUnit} :
      parse bytes σ c = .val (none, σ, c1) → InOrder parse rest σ c1 ns σ' c' →
      InOrder parse ((off, bytes) :: rest) σ c ns σ' c'
  | unit {off : Nat} {bytes : List UInt8} {rest : List (Nat × List UInt8)} {σ σ1 σ' : Store} {c c1 c' : Nat} {n : NalUnit}
      {ns : List NalUnit} :
      parse bytes σ c = .val (some n, σ1, c1) → InOrder parse rest σ1 c1 ns σ' c' →
      InOrder parse ((off, bytes) :: rest) σ c ({ n with offset := off, length := bytes.length } :: ns) σ' c'

/-- The last element of `l` with key `id`, or `old` if there is none. -/
def latest {α : Type} (key : α → Nat) (l : List α) (id : Nat) (old : Option α) : Option α :=
  ((l.filter (fun x => key x = id)).getLast?).or old

/-- The parameter sets in a list of payloads, in order. -/
def spsOf (l : List Payload) : List SpsData := l.filterMap (·.sps)
def ppsOf (l : List Payload) : List Pps := l.filterMap (·.pps)
def subsetSpsOf (l : List Payload) : List SubsetSps := l.filterMap (·.subset_sps)

/-- `σ'` is what is stored after parsing `payloads` in order, starting with `σ`: for every id the latest parameter set with
that id, of each of the three kinds. -/
def LatestOf (σ : Store) (payloads : List Payload) (σ' : Store) : Prop :=
  ∀ id,
    σ'.sps id = latest (·.seq_parameter_set_id) (spsOf payloads) id (σ.sps id) ∧
    σ'.pps id = latest (·.pic_parameter_set_id) (ppsOf payloads) id (σ.pps id) ∧
    σ'.subset_sps id = latest (·.seq_parameter_set_data.seq_parameter_set_id) (subsetSpsOf payloads) id (σ.subset_sps id)

/-- Where each NAL unit of an Annex B stream that starts at `pos` is, and its bytes. -/
def annexBUnits (pos : Nat) : List (Bool × List UInt8) → List (Nat × List UInt8)
  | [] => []
  | (long, u) :: r => (pos + (if long then 4 else 3), u) :: annexBUnits (pos + (if long then 4 else 3) + u.length) r

/-- The NAL units found from `pos` on in a stream where each NAL unit follows its size in `k` big-endian bytes; reading stops
where there is no complete prefix, the size is 0, or the NAL unit is cut off. -/
inductive LengthUnits (l : List UInt8) (k : Nat) : Nat → List (Nat × List UInt8) → Prop
  | stop {pos : Nat} : (∀ size, ofBE ((l.drop pos).take k) = size → size ≠ 0 → ¬ pos + k + size ≤ l.length) →
      LengthUnits l k pos []
  | next {pos size : Nat} {us : List (Nat × List UInt8)} : ofBE ((l.drop pos).take k) = size → size ≠ 0 →
      pos + k + size ≤ l.length → LengthUnits l k (pos + k + size) us →
      LengthUnits l k pos ((pos + k, (l.drop (pos + k)).take size) :: us)

/-- What follows the last of the NAL units `us`, which begin at `pos`, can be read as a size: if a size field is there, the end of
the NAL unit it announces is a position below 2^64. -/
def SizeFits (l : List UInt8) (k pos : Nat) (us : List (Nat × List UInt8)) : Prop :=
  ∀ e, e = pos + (us.map (fun u => k + u.2.length)).sum → e + k ≤ l.length → e + k + ofBE ((l.drop e).take k) < 2 ^ 64

/-- Where each NAL unit of a length-prefixed stream is, and its bytes. -/
def framedUnits (k pos : Nat) : List (List UInt8) → List (Nat × List UInt8)
  | [] => []
  | u :: r => (pos + k, u) :: framedUnits k (pos + k + u.length) r

end H264.Spec

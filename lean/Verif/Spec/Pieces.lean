import Verif.Spec.Bytes
import Verif.Model.Nal

/-
A stream that arrives in pieces (C67).
-/

namespace H264.Spec

/-- A stream can be cut between `a` and `b`: `b` begins with a start code of three or four bytes, which has something after it, and `a`
does not end with a start code (nor with a zero byte, if the one at the beginning of `b` has three bytes). -/
structure Cut (a b : List UInt8) : Prop where
  before : ∀ r, a ≠ r ++ [0, 0, 1]
  after : (isStart b 0 ∧ a.getLast? ≠ some 0) ∨ (b[0]? = some 0 ∧ isStart b 1)

/-- Every piece can be cut from the next. -/
def Cuts : List (List UInt8) → Prop
  | a :: b :: rest => Cut a b ∧ Cuts (b :: rest)
  | _ => True

/-- An entry of the index that comes `k` bytes later. -/
def laterBy (k : Nat) (e : NaluIndex) : NaluIndex := ⟨e.start_offset + k, e.payload_start_offset + k, e.payload_size⟩

/-- The NAL unit as it is in a stream in which `k` bytes precede. -/
def moved (k : Nat) (n : NalUnit) : NalUnit := { n with offset := n.offset + k }

/-- The pieces are parsed one after the other with the same parser state; `off` bytes precede them. -/
inductive Fed (nd : Bool) (opts : ParsingOptions) : Nat → List (List UInt8) → Store → Nat → List NalUnit → Store → Nat → Prop
  | nil (off : Nat) (σ : Store) (c : Nat) : Fed nd opts off [] σ c [] σ c
  | cons {off : Nat} {a : List UInt8} {rest : List (List UInt8)} {σ σ1 σ' : Store} {c c1 c' : Nat} {bs : Bitstream} {ns : List NalUnit} :
      parseBitstream nd opts a σ c = .val (bs, σ1, c1) → Fed nd opts (off + a.length) rest σ1 c1 ns σ' c' →
      Fed nd opts off (a :: rest) σ c (bs.nal_units.map (moved off) ++ ns) σ' c'

end H264.Spec

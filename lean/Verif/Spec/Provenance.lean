import Verif.Spec.Size
import Verif.Spec.Syntax6

/-
Where the parameter sets in a parser state come from (C74), and how much a parser state holds (C75).
-/

namespace H264.Spec
open H264

/-- `x` is what a parser returned, in some build, for a reader on some bytes, at some position. -/
def ParsedBy {α : Type} (p : Prog α) (x : α) : Prop :=
  ∃ (nd : Bool) (bytes : List UInt8) (byteOff bitOff cnt : Nat) (s : St), bytes.length < 2 ^ 61 ∧ bitOff < 8 ∧
    8 * byteOff + bitOff ≤ 8 * bytes.length ∧ run nd p ⟨⟨bytes, byteOff, bitOff⟩, cnt⟩ = .ok x s

/-- Every parameter set in the parser state was returned by its parser, under the id it is stored under. -/
structure AllParsed (σ : Store) : Prop where
  sps : ∀ k x, σ.sps k = some x → ParsedBy parseSps x ∧ x.seq_parameter_set_id = k
  pps : ∀ k x, σ.pps k = some x → ParsedBy (parsePps 1) x ∧ x.pic_parameter_set_id = k
  subset_sps : ∀ k x, σ.subset_sps k = some x → ParsedBy parseSubsetSps x ∧ x.seq_parameter_set_data.seq_parameter_set_id = k

/-- The elements of all the vectors of the parameter sets that are stored under ids below 32, 256 and 32. -/
def storeEntries (σ : Store) : Nat :=
  ((List.range 32).map fun k => pointee spsEntries (σ.sps k)).sum + ((List.range 256).map fun k => pointee ppsEntries (σ.pps k)).sum +
  ((List.range 32).map fun k => pointee subsetEntries (σ.subset_sps k)).sum

end H264.Spec

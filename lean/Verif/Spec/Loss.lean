import Verif.Spec.Remux

/-
Streams and sessions of which a part is lost, or sent twice (C71, C72).
-/

namespace H264.Spec

/-- What is left of a list when the elements at the places marked `false` are lost. -/
def kept {α : Type} : List Bool → List α → List α
  | true :: m, x :: xs => x :: kept m xs
  | false :: m, _ :: xs => kept m xs
  | _, _ => []

/-- The NAL unit types of parameter sets: SPS, PPS, subset SPS. -/
def parameterSetTypes : List Nat := [7, 8, 15]

/-- A returned packet has no parameter set in it. -/
def NoParameterSet (x : Rtp) : Prop := ∀ p ∈ rtpPayloads x, p.sps = none ∧ p.pps = none ∧ p.subset_sps = none

end H264.Spec

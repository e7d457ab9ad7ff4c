import Verif.Model.Sps

/-
Specification of NAL unit type classes and profiles, independent of the model's functions.
-/

namespace H264.Spec
open H264

/-- What Table 7-1 of the 2012 edition says about a nal_unit_type. -/
inductive TypeClass where
  | unspecified | slice | other | reserved
  deriving DecidableEq, Repr

/-- Table 7-1, as rows (first value, last value, class).  Values above 31 are no nal_unit_type. -/
def table71 : List (Nat × Nat × TypeClass) :=
  [(0, 0, .unspecified), (1, 5, .slice), (6, 15, .other), (16, 18, .reserved), (19, 20, .slice), (21, 23, .reserved),
   (24, 31, .unspecified)]

/-- `t` is in class `k`. -/
def HasClass (t : Nat) (k : TypeClass) : Prop := ∃ row ∈ table71, row.1 ≤ t ∧ t ≤ row.2.1 ∧ row.2.2 = k

/-- The types for which the library has a payload parser. -/
def parsedTypes : List Nat := [1, 5, 7, 8, 14, 15, 20]

/-- A profile of Annex A: its profile_idc and the numbers of the constraint_setX_flags that must be 1. -/
structure ProfileRow where
  profile : ProfileType
  profile_idc : Nat
  flags : List Nat

/-- Annex A.  (144 is the High 4:4:4 profile of the 2005 edition; the intra variant is modelled on that of 244.) -/
def annexA : List ProfileRow :=
  [⟨.BASELINE, 66, []⟩, ⟨.CONSTRAINED_BASELINE, 66, [1]⟩, ⟨.MAIN, 77, []⟩, ⟨.EXTENDED, 88, []⟩,
   ⟨.HIGH, 100, []⟩, ⟨.PROGRESSIVE_HIGH, 100, [4]⟩, ⟨.CONSTRAINED_HIGH, 100, [4, 5]⟩,
   ⟨.HIGH_10, 110, []⟩, ⟨.PROGRESSIVE_HIGH_10, 110, [4]⟩, ⟨.HIGH_10_INTRA, 110, [3]⟩,
   ⟨.HIGH_422, 122, []⟩, ⟨.HIGH_422_INTRA, 122, [3]⟩, ⟨.HIGH_444, 144, []⟩, ⟨.HIGH_444_INTRA, 144, [3]⟩,
   ⟨.HIGH_444_PRED, 244, []⟩, ⟨.HIGH_444_PRED_INTRA, 244, [3]⟩, ⟨.CAVLC_444_INTRA, 44, []⟩]

/-- constraint_setX_flag. -/
def constraintFlag (h : SpsHead) : Nat → Nat
  | 0 => h.constraint_set0_flag
  | 1 => h.constraint_set1_flag
  | 2 => h.constraint_set2_flag
  | 3 => h.constraint_set3_flag
  | 4 => h.constraint_set4_flag
  | 5 => h.constraint_set5_flag
  | _ => 0

/-- The SPS meets the requirements of the row. -/
def ProfileRow.Meets (h : SpsHead) (r : ProfileRow) : Prop := r.profile_idc = h.profile_idc ∧ ∀ i ∈ r.flags, constraintFlag h i = 1

instance (h : SpsHead) (r : ProfileRow) : Decidable (r.Meets h) := by unfold ProfileRow.Meets; infer_instance

/-- The SPS indicates the profile of row `r`: it meets the requirements, and those of no row that asks for more. -/
def Indicates (h : SpsHead) (r : ProfileRow) : Prop :=
  r ∈ annexA ∧ r.Meets h ∧ ∀ r' ∈ annexA, r'.Meets h → (∀ i ∈ r.flags, i ∈ r'.flags) → ∀ i ∈ r'.flags, i ∈ r.flags

end H264.Spec

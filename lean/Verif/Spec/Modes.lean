import Verif.Spec.Malformed
import Verif.Spec.Syntax3
import Verif.Spec.Nal

/-
Specifications for C45: which NAL units contain a scaling list in which a delta_scale cannot be read, and results that differ
only in parsed_length.
-/

namespace H264.Spec

/-- A scaling list in which a delta_scale cannot be read: with `n` entries to go, the bits `l` start with values in range after
which another one is due, but what follows is not empty and does not start with a signed Exp-Golomb code. -/
inductive UnreadableList : (n lastScale nextScale : Nat) → (l : List Bool) → Prop
  | here {n last next : Nat} {l : List Bool} :
      next ≠ 0 → l ≠ [] → (∀ d r, seRange d → l ≠ encSE d ++ r) → UnreadableList (n + 1) last next l
  | later {n last next : Nat} {d : Int} {nextScale : Nat} {l l' : List Bool} :
      next ≠ 0 → -128 ≤ d → d ≤ 127 →
      (nextScale : Int) = ((last : Int) + d + 256) % 256 →
      l = encSE d ++ l' → UnreadableList n (if nextScale = 0 then last else nextScale) nextScale l' →
      UnreadableList (n + 1) last next l

/-- Among the `n` lists numbered from `i` on, one is present and is such a list (lists with a delta_scale that is out of range
may come before it). -/
inductive UnreadableLists : (n i : Nat) → (l : List Bool) → Prop
  | here {n i : Nat} {l l' : List Bool} :
      l = encU 1 1 ++ l' → UnreadableList (if i < 6 then 16 else 64) 8 8 l' → UnreadableLists (n + 1) i l
  | absent {n i : Nat} {l l' : List Bool} :
      l = encU 1 0 ++ l' → UnreadableLists n (i + 1) l' → UnreadableLists (n + 1) i l
  | present {n i : Nat} {l l' m : List Bool} {out : List Nat} {ds : List Int} {ok : Bool} :
      l = encU 1 1 ++ l' → ListRead false (if i < 6 then 16 else 64) 8 8 l' m out ds ok →
      UnreadableLists n (i + 1) m → UnreadableLists (n + 1) i l

/-- The bits `l` start like a sequence parameter set with such a scaling list. -/
def UnreadableSps (l : List Bool) : Prop :=
  ∃ h rest, h.Ok ∧ l = encSpsHead h ++ rest ∧ UnreadableLists (spsListCount h) 0 rest

/-- The bits `l` start like a picture parameter set with such a scaling list. -/
def UnreadablePps (chroma_format_idc : Nat) (l : List Bool) : Prop :=
  ∃ h t m rest, h.Ok ∧ t < 2 ∧ m < 2 ∧ l = encPpsHead h ++ encU 1 t ++ encU 1 m ++ rest ∧
    UnreadableLists (ppsListCount chroma_format_idc t m) 0 rest

/-- The payload starts with a parameter set (SPS, PPS or subset SPS) with such a scaling list. -/
def UnreadablePayload (nal_unit_type : Nat) (l : List Bool) : Prop :=
  (nal_unit_type = 7 ∧ UnreadableSps l) ∨ (nal_unit_type = 8 ∧ UnreadablePps 1 l) ∨ (nal_unit_type = 15 ∧ UnreadableSps l)

/-- The NAL unit made of these bytes carries such a parameter set. -/
def UnreadableUnit (bytes : List UInt8) : Prop :=
  ∃ h r, h.Ok ∧ allBits (withoutEmulation bytes) = encNalHeader h ++ r ∧ UnreadablePayload h.nal_unit_type r

/-- The NAL unit without its parsed_length. -/
def NalUnit.core (n : NalUnit) : NalUnit := { n with parsed_length := 0 }

end H264.Spec

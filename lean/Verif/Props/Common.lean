import Verif.Model.Common
import Verif.Model.Dump
import Verif.Spec.Common
import Verif.Props.Modes

/-
Properties C22 (GetNalUnitType), C47, C50 (IsPayloadParsed), C54, C55.
-/

namespace H264.Props
open H264 H264.Spec

/-! ### C47: NAL unit types -/

theorem hasClass_iff (t : Nat) (k : TypeClass) : HasClass t k ↔
    (k = .unspecified ∧ (t = 0 ∨ 24 ≤ t ∧ t ≤ 31)) ∨ (k = .slice ∧ (1 ≤ t ∧ t ≤ 5 ∨ 19 ≤ t ∧ t ≤ 20)) ∨
    (k = .other ∧ 6 ≤ t ∧ t ≤ 15) ∨ (k = .reserved ∧ (16 ≤ t ∧ t ≤ 18 ∨ 21 ≤ t ∧ t ≤ 23)) := by
  unfold HasClass table71
  cases k <;> simp <;> omega

/-- C47: `IsSliceSegment` is true of exactly the types that Table 7-1 calls slices. -/
theorem C47_slice (t : Nat) : isSliceSegment t = true ↔ HasClass t .slice := by
  rw [hasClass_iff]
  unfold isSliceSegment
  split <;> simp_all <;> omega

/-- C47: `IsNalUnitTypeReserved` is true of exactly the reserved types. -/
theorem C47_reserved (t : Nat) : isNalUnitTypeReserved t = true ↔ HasClass t .reserved := by
  rw [hasClass_iff]
  unfold isNalUnitTypeReserved
  split <;> simp_all <;> omega

/-- C47: `IsNalUnitTypeUnspecified` is true of exactly the unspecified types other than 0.  Partial: type 0 is unspecified too
(`C47_zero`). -/
theorem C47_unspecified_partial (t : Nat) : isNalUnitTypeUnspecified t = true ↔ HasClass t .unspecified ∧ t ≠ 0 := by
  rw [hasClass_iff]
  unfold isNalUnitTypeUnspecified
  split <;> simp_all <;> omega

/-- C47 fails for type 0. -/
theorem C47_zero : HasClass 0 .unspecified ∧ isNalUnitTypeUnspecified 0 = false := by
  rw [hasClass_iff]; exact ⟨by simp, rfl⟩

/-- C47: no type is in two classes. -/
theorem C47_exclusive (t : Nat) :
    ¬ (isSliceSegment t = true ∧ isNalUnitTypeReserved t = true) ∧
    ¬ (isSliceSegment t = true ∧ isNalUnitTypeUnspecified t = true) ∧
    ¬ (isNalUnitTypeReserved t = true ∧ isNalUnitTypeUnspecified t = true) := by
  rw [C47_slice, C47_reserved, C47_unspecified_partial, hasClass_iff, hasClass_iff, hasClass_iff]
  simp; omega

/-- C47: all three are false outside 0..31. -/
theorem C47_range {t : Nat} (h : 32 ≤ t) :
    isSliceSegment t = false ∧ isNalUnitTypeReserved t = false ∧ isNalUnitTypeUnspecified t = false := by
  have h1 := C47_slice t
  have h2 := C47_reserved t
  have h3 := C47_unspecified_partial t
  rw [hasClass_iff] at h1 h2 h3
  simp only [Bool.eq_false_iff, ne_eq]
  rw [h1, h2, h3]
  simp; omega

theorem typeString_inj : ∀ a < 33, ∀ b < 33, nalUnitTypeToString a = nalUnitTypeToString b → a = b := by decide +kernel

theorem typeString_big {t : Nat} (h : 32 ≤ t) : nalUnitTypeToString t = "unknown" := by
  unfold nalUnitTypeToString
  split <;> first | rfl | omega

/-- C47: the texts of `NalUnitTypeToString` tell the 32 types apart, and "unknown" stands for exactly the values that are no
NAL unit type. -/
theorem C47_names (a b : Nat) : nalUnitTypeToString a = nalUnitTypeToString b ↔ a = b ∨ 32 ≤ a ∧ 32 ≤ b := by
  constructor
  · intro h
    by_cases ha : 32 ≤ a
    · by_cases hb : 32 ≤ b
      · exact .inr ⟨ha, hb⟩
      · rw [typeString_big ha, ← typeString_big (Nat.le_refl 32)] at h
        have := typeString_inj 32 (by omega) b (by omega) h
        omega
    · by_cases hb : 32 ≤ b
      · rw [typeString_big hb, ← typeString_big (Nat.le_refl 32)] at h
        have := typeString_inj a (by omega) 32 (by omega) h
        omega
      · exact .inl (typeString_inj a (by omega) b (by omega) h)
  · rintro (rfl | ⟨h1, h2⟩)
    · rfl
    · rw [typeString_big h1, typeString_big h2]

theorem C47_unknown (t : Nat) : nalUnitTypeToString t = "unknown" ↔ 32 ≤ t := by
  rw [← typeString_big (Nat.le_refl 32), C47_names]; omega

/-! ### C54: profiles -/

/-- C54: `GetProfileType` returns a profile that the profile_idc and constraint flags of the SPS indicate, or UNSPECIFIED if Annex
A has no profile with that profile_idc.  Partial: not for profile_idc 100 with constraint_set5_flag 1 (see
`C54_constrained_high`). -/
theorem C54_profile_partial (h : SpsHead) (hx : ¬ (h.profile_idc = 100 ∧ h.constraint_set5_flag = 1)) :
    (h.getProfileType = .UNSPECIFIED ∧ ∀ r ∈ annexA, r.profile_idc ≠ h.profile_idc) ∨
    ∃ r, Indicates h r ∧ r.profile = h.getProfileType := by
  unfold SpsHead.getProfileType
  split
  · split
    · exact .inr ⟨⟨.CONSTRAINED_BASELINE, 66, [1]⟩, by simp_all [Indicates, annexA, ProfileRow.Meets, constraintFlag], rfl⟩
    · exact .inr ⟨⟨.BASELINE, 66, []⟩, by simp_all [Indicates, annexA, ProfileRow.Meets, constraintFlag], rfl⟩
  · exact .inr ⟨⟨.MAIN, 77, []⟩, by simp_all [Indicates, annexA, ProfileRow.Meets, constraintFlag], rfl⟩
  · exact .inr ⟨⟨.EXTENDED, 88, []⟩, by simp_all [Indicates, annexA, ProfileRow.Meets, constraintFlag], rfl⟩
  · have h5 : h.constraint_set5_flag ≠ 1 := fun k => hx ⟨by assumption, k⟩
    split
    · exact .inr ⟨⟨.PROGRESSIVE_HIGH, 100, [4]⟩, by simp_all [Indicates, annexA, ProfileRow.Meets, constraintFlag], rfl⟩
    · exact .inr ⟨⟨.HIGH, 100, []⟩, by simp_all [Indicates, annexA, ProfileRow.Meets, constraintFlag], rfl⟩
  · split
    · exact .inr ⟨⟨.HIGH_10_INTRA, 110, [3]⟩, by simp_all [Indicates, annexA, ProfileRow.Meets, constraintFlag], rfl⟩
    · split
      · exact .inr ⟨⟨.PROGRESSIVE_HIGH_10, 110, [4]⟩, by simp_all [Indicates, annexA, ProfileRow.Meets, constraintFlag], rfl⟩
      · exact .inr ⟨⟨.HIGH_10, 110, []⟩, by simp_all [Indicates, annexA, ProfileRow.Meets, constraintFlag], rfl⟩
  · split
    · exact .inr ⟨⟨.HIGH_422_INTRA, 122, [3]⟩, by simp_all [Indicates, annexA, ProfileRow.Meets, constraintFlag], rfl⟩
    · exact .inr ⟨⟨.HIGH_422, 122, []⟩, by simp_all [Indicates, annexA, ProfileRow.Meets, constraintFlag], rfl⟩
  · split
    · exact .inr ⟨⟨.HIGH_444_INTRA, 144, [3]⟩, by simp_all [Indicates, annexA, ProfileRow.Meets, constraintFlag], rfl⟩
    · exact .inr ⟨⟨.HIGH_444, 144, []⟩, by simp_all [Indicates, annexA, ProfileRow.Meets, constraintFlag], rfl⟩
  · split
    · exact .inr ⟨⟨.HIGH_444_PRED_INTRA, 244, [3]⟩, by simp_all [Indicates, annexA, ProfileRow.Meets, constraintFlag], rfl⟩
    · exact .inr ⟨⟨.HIGH_444_PRED, 244, []⟩, by simp_all [Indicates, annexA, ProfileRow.Meets, constraintFlag], rfl⟩
  · exact .inr ⟨⟨.CAVLC_444_INTRA, 44, []⟩, by simp_all [Indicates, annexA, ProfileRow.Meets, constraintFlag], rfl⟩
  · refine .inl ⟨rfl, ?_⟩
    simp only [annexA, List.mem_cons, List.not_mem_nil, or_false]
    rintro r (rfl | rfl | rfl | rfl | rfl | rfl | rfl | rfl | rfl | rfl | rfl | rfl | rfl | rfl | rfl | rfl | rfl) <;>
      (intro hh; have := hh.symm; contradiction)

/-- C54: the profile of the SPS is UNSPECIFIED only if no profile of Annex A has its profile_idc. -/
theorem C54_unspecified (h : SpsHead) : h.getProfileType = .UNSPECIFIED ↔ ∀ r ∈ annexA, r.profile_idc ≠ h.profile_idc := by
  constructor
  · intro hu
    by_cases hx : h.profile_idc = 100 ∧ h.constraint_set5_flag = 1
    · simp only [SpsHead.getProfileType, hx.1, hx.2] at hu
      split at hu <;> simp at hu
    · rcases C54_profile_partial h hx with h1 | ⟨r, h1, h2⟩
      · exact h1.2
      · rw [hu] at h2
        have := h1.1
        simp only [annexA, List.mem_cons, List.not_mem_nil, or_false] at this
        rcases this with rfl | rfl | rfl | rfl | rfl | rfl | rfl | rfl | rfl | rfl | rfl | rfl | rfl | rfl | rfl | rfl | rfl <;>
          cases h2
  · intro hr
    simp only [annexA, List.mem_cons, List.not_mem_nil, or_false, forall_eq_or_imp, forall_eq] at hr
    unfold SpsHead.getProfileType
    split <;> first | rfl | omega

/-- C54 fails for Constrained High: an SPS with profile_idc 100 and both constraint_set4_flag and constraint_set5_flag indicates it
and nothing else, but `GetProfileType` returns PROGRESSIVE_HIGH; with constraint_set5_flag alone, which indicates High, it returns
CONSTRAINED_HIGH. -/
theorem C54_constrained_high (h : SpsHead) (hp : h.profile_idc = 100) (h5 : h.constraint_set5_flag = 1) :
    (h.constraint_set4_flag = 1 → (∀ r, Indicates h r → r.profile = .CONSTRAINED_HIGH) ∧
      h.getProfileType = .PROGRESSIVE_HIGH) ∧
    (h.constraint_set4_flag = 0 → (∀ r, Indicates h r → r.profile = .HIGH) ∧ h.getProfileType = .CONSTRAINED_HIGH) := by
  refine ⟨fun h4 => ⟨fun r hr => ?_, ?_⟩, fun h4 => ⟨fun r hr => ?_, ?_⟩⟩
  · obtain ⟨h1, h2, h3⟩ := hr
    have h6 := h3 ⟨.CONSTRAINED_HIGH, 100, [4, 5]⟩ (by simp [annexA]) (by simp [ProfileRow.Meets, constraintFlag, hp, h4, h5])
    have h7 := fun q => h6 q 4
    have h8 := fun q => h6 q 5
    simp only [annexA, List.mem_cons, List.not_mem_nil, or_false] at h1
    rcases h1 with rfl | rfl | rfl | rfl | rfl | rfl | rfl | rfl | rfl | rfl | rfl | rfl | rfl | rfl | rfl | rfl | rfl <;>
      simp_all [ProfileRow.Meets]
  · simp [SpsHead.getProfileType, hp, h4]
  · obtain ⟨h1, h2, -⟩ := hr
    simp only [annexA, List.mem_cons, List.not_mem_nil, or_false] at h1
    rcases h1 with rfl | rfl | rfl | rfl | rfl | rfl | rfl | rfl | rfl | rfl | rfl | rfl | rfl | rfl | rfl | rfl | rfl <;>
      simp_all [ProfileRow.Meets, constraintFlag]
  · simp [SpsHead.getProfileType, hp, h4, h5]

/-- C54: the texts of `profileTypeToString` tell the profiles apart. -/
theorem C54_names (a b : ProfileType) (h : profileTypeToString a = profileTypeToString b) : a = b := by
  revert h; cases a <;> cases b <;> decide

example : Indicates { profile_idc := 100, constraint_set4_flag := 1 } ⟨.PROGRESSIVE_HIGH, 100, [4]⟩ := by
  simp [Indicates, annexA, ProfileRow.Meets, constraintFlag]

/-! ### C55: the `(data, length)` overloads -/

/-- `res`, the result of a `(data, length)` overload on `bytes`, is what the `BitBuffer*` overload `p` gives on a fresh reader over
the bytes without their emulation prevention bytes. -/
def SameAsReader {α : Type} (nd : Bool) (p : Prog α) (bytes : List UInt8) (c : Nat) (res : Res (Option α × Nat)) : Prop :=
  (∀ a c', res = .val (some a, c') ↔ ∃ b', run nd p ⟨Buf.start (withoutEmulation bytes), c⟩ = .ok a ⟨b', c'⟩) ∧
  (∀ c', res = .val (none, c') ↔ ∃ b', run nd p ⟨Buf.start (withoutEmulation bytes), c⟩ = .null ⟨b', c'⟩) ∧
  ∀ e, res = .bad e ↔ run nd p ⟨Buf.start (withoutEmulation bytes), c⟩ = .bad e

theorem progData_eq {α : Type} {nd : Bool} (p : Prog α) {data : List UInt8} {off len : Nat} (h : off + len ≤ data.length)
    (hl : data.length < 2 ^ 61) (hf : nd = false → len < 2 ^ 32) (c : Nat) :
    progData nd p data off len c =
      (run nd p ⟨Buf.start (strip ((data.drop off).take len)), c⟩).res >>= fun x => Res.val (x.1, x.2.cnt) := by
  have hs := strip_length ((data.drop off).take len)
  simp only [List.length_take, List.length_drop] at hs
  unfold progData
  rw [unescapeRbsp_eq h (by unfold maxVector; omega), Res.val_bind, Buf.new_eq (fits_of (n := len) (by omega) hf (by omega)), Res.val_bind]
  rfl

theorem progData_same {α : Type} {nd : Bool} (p : Prog α) {data : List UInt8} {off len : Nat} (h : off + len ≤ data.length)
    (hl : data.length < 2 ^ 61) (hf : nd = false → len < 2 ^ 32) (c : Nat) :
    SameAsReader nd p ((data.drop off).take len) c (progData nd p data off len c) := by
  unfold SameAsReader
  rw [progData_eq p h hl hf, strip_eq]
  generalize run nd p _ = r
  cases r with
  | ok a s => 
    obtain ⟨b, k⟩ := s
    rw [Out.res, Res.val_bind]
    simp
  | null s => 
    obtain ⟨b, k⟩ := s
    rw [Out.res, Res.val_bind]
    simp
  | bad e => rw [Out.res, Res.bad_bind]; simp

section
variable {nd : Bool} {data : List UInt8} {off len : Nat} (h : off + len ≤ data.length) (hl : data.length < 2 ^ 61)
  (hf : nd = false → len < 2 ^ 32) (c : Nat)
include h hl hf

/-- C55: every `(data, length)` overload returns what its `BitBuffer*` overload, with the same arguments, returns on the bytes
without their emulation prevention bytes. -/
theorem C55_overloads (n a1 a2 a3 a4 : Nat) (hd : NalHeader) (σ : Store) :
    SameAsReader nd parseNalHeader ((data.drop off).take len) c (parseNalHeaderData nd data off len c) ∧
    SameAsReader nd parseSvcHeaderExt ((data.drop off).take len) c (parseSvcHeaderExtData nd data off len c) ∧
    SameAsReader nd parseHrd ((data.drop off).take len) c (parseHrdData nd data off len c) ∧
    SameAsReader nd parseVui ((data.drop off).take len) c (parseVuiData nd data off len c) ∧
    SameAsReader nd parseSpsData ((data.drop off).take len) c (parseSpsDataData nd data off len c) ∧
    SameAsReader nd parseSps ((data.drop off).take len) c (parseSpsRbspData nd data off len c) ∧
    SameAsReader nd parseSpsExt ((data.drop off).take len) c (parseSpsExtensionData nd data off len c) ∧
    SameAsReader nd (parseSpsSvcExt n) ((data.drop off).take len) c (parseSpsSvcExtData nd data off len n c) ∧
    SameAsReader nd parseSubsetSps ((data.drop off).take len) c (parseSubsetSpsData nd data off len c) ∧
    SameAsReader nd (parsePps n) ((data.drop off).take len) c (parsePpsData nd data off len n c) ∧
    SameAsReader nd (parseRefPicListMod n) ((data.drop off).take len) c (parseRefPicListModData nd data off len n c) ∧
    SameAsReader nd (parsePredWeightTable a1 a2 a3 a4) ((data.drop off).take len) c
      (parsePredWeightTableData nd data off len a1 a2 a3 a4 c) ∧
    SameAsReader nd (parseDecRefPicMarking n) ((data.drop off).take len) c (parseDecRefPicMarkingData nd data off len n c) ∧
    SameAsReader nd (parsePrefixSvc a1 a2 a3) ((data.drop off).take len) c (parsePrefixSvcData nd data off len a1 a2 a3 c) ∧
    SameAsReader nd (parsePrefixRbsp a1 a2 a3 a4) ((data.drop off).take len) c
      (parsePrefixRbspData nd data off len a1 a2 a3 a4 c) ∧
    SameAsReader nd (parseSliceHeader σ a1 a2) ((data.drop off).take len) c (parseSliceHeaderData nd data off len a1 a2 σ c) ∧
    SameAsReader nd (parseSliceLayer σ a1 a2) ((data.drop off).take len) c (parseSliceLayerData nd data off len a1 a2 σ c) ∧
    SameAsReader nd (parseScalHeader σ hd) ((data.drop off).take len) c (parseScalHeaderData nd data off len hd σ c) ∧
    SameAsReader nd (parseSliceLayerExt σ hd) ((data.drop off).take len) c (parseSliceLayerExtData nd data off len hd σ c) :=
  ⟨progData_same _ h hl hf c, progData_same _ h hl hf c, progData_same _ h hl hf c, progData_same _ h hl hf c,
   progData_same _ h hl hf c, progData_same _ h hl hf c, progData_same _ h hl hf c, progData_same _ h hl hf c,
   progData_same _ h hl hf c, progData_same _ h hl hf c, progData_same _ h hl hf c, progData_same _ h hl hf c,
   progData_same _ h hl hf c, progData_same _ h hl hf c, progData_same _ h hl hf c, progData_same _ h hl hf c,
   progData_same _ h hl hf c, progData_same _ h hl hf c, progData_same _ h hl hf c⟩

theorem progData_exact {α : Type} {p : Prog α} {e : α → List Bool} {V : α → Prop} (hp : Codec p e V) (a : α) :
    (∃ c', progData nd p data off len c = .val (some a, c')) ↔
      V a ∧ ∃ r, allBits (withoutEmulation ((data.drop off).take len)) = e a ++ r := by
  have hs := strip_length ((data.drop off).take len)
  simp only [List.length_take, List.length_drop] at hs
  have hw : (Buf.start (withoutEmulation ((data.drop off).take len))).WF := Buf.start_wf (by rw [← strip_eq]; omega)
  simp only [(progData_same p h hl hf c).1, hp.run nd hw, Buf.start_rem]
  constructor
  · rintro ⟨c', b', h1, h2, -⟩; exact ⟨h1, h2⟩
  · rintro ⟨h1, h2⟩; exact ⟨_, _, h1, h2, rfl⟩

/-- C55, with the syntax of the standard in place of the reader: an overload returns a structure iff the structure is in range and
the bytes, without their emulation prevention bytes, start with its encoding. -/
theorem C55_exact (n a1 a2 a3 a4 : Nat) (ha : a2 ≤ 9) :
    (∀ x, (∃ c', parseNalHeaderData nd data off len c = .val (some x, c')) ↔
      x.Ok ∧ ∃ r, allBits (withoutEmulation ((data.drop off).take len)) = encNalHeader x ++ r) ∧
    (∀ x, (∃ c', parseSvcHeaderExtData nd data off len c = .val (some x, c')) ↔
      x.Ok ∧ ∃ r, allBits (withoutEmulation ((data.drop off).take len)) = encSvcHeaderExt x ++ r) ∧
    (∀ x, (∃ c', parseHrdData nd data off len c = .val (some x, c')) ↔
      x.Ok ∧ ∃ r, allBits (withoutEmulation ((data.drop off).take len)) = encHrd x ++ r) ∧
    (∀ x, (∃ c', parseVuiData nd data off len c = .val (some x, c')) ↔
      x.Ok ∧ ∃ r, allBits (withoutEmulation ((data.drop off).take len)) = encVui x ++ r) ∧
    (∀ x, (∃ c', parseSpsSvcExtData nd data off len n c = .val (some x, c')) ↔
      x.Ok n ∧ ∃ r, allBits (withoutEmulation ((data.drop off).take len)) = encSpsSvcExt x ++ r) ∧
    (∀ x, (∃ c', parseRefPicListModData nd data off len n c = .val (some x, c')) ↔
      x.Ok n ∧ ∃ r, allBits (withoutEmulation ((data.drop off).take len)) = encRefPicListMod x ++ r) ∧
    (∀ x, (∃ c', parseDecRefPicMarkingData nd data off len n c = .val (some x, c')) ↔
      x.Ok n ∧ ∃ r, allBits (withoutEmulation ((data.drop off).take len)) = encDecRefPicMarking x ++ r) ∧
    (∀ x, (∃ c', parsePredWeightTableData nd data off len a1 a2 a3 a4 c = .val (some x, c')) ↔
      x.Ok a1 a2 a3 a4 ∧ ∃ r, allBits (withoutEmulation ((data.drop off).take len)) = encPredWeightTable x ++ r) :=
  ⟨progData_exact h hl hf c codec_nalHeader, progData_exact h hl hf c codec_svcHeaderExt, progData_exact h hl hf c codec_hrd,
   progData_exact h hl hf c codec_vui, progData_exact h hl hf c (codec_spsSvcExt n), progData_exact h hl hf c (codec_refPicListMod n),
   progData_exact h hl hf c (codec_decRefPicMarking n), progData_exact h hl hf c (codec_predWeightTable ha)⟩

/-- C55 for slice headers: as above, under the parameter sets that the slice names. -/
theorem C55_slice {σ : Store} (hσ : σ.Valid) (ref type : Nat) (x : SliceHeader) :
    (∃ c', parseSliceHeaderData nd data off len ref type σ c = .val (some x, c')) ↔
      ∃ p s, σ.pps x.pic_parameter_set_id = some p ∧ σ.sps p.seq_parameter_set_id = some s ∧ x.Ok ref type s p ∧
        ∃ r, allBits (withoutEmulation ((data.drop off).take len)) = encSliceHeader s p x ++ r := by
  have hs := strip_length ((data.drop off).take len)
  simp only [List.length_take, List.length_drop] at hs
  have hw : (Buf.start (withoutEmulation ((data.drop off).take len))).WF := Buf.start_wf (by rw [← strip_eq]; omega)
  unfold parseSliceHeaderData
  simp only [(progData_same (parseSliceHeader σ ref type) h hl hf c).1, C34_sliceHeader_exact nd hw c hσ.inRange, Buf.start_rem]
  constructor
  · rintro ⟨c', b', p, s, h1, h2, h3, h4, -⟩; exact ⟨p, s, h1, h2, h3, h4⟩
  · rintro ⟨p, s, h1, h2, h3, h4⟩; exact ⟨_, _, p, s, h1, h2, h3, h4, rfl⟩

theorem progData_safe {α : Type} {p : Prog α} (hp : Safe p) : ∃ r, progData nd p data off len c = .val r := by
  have hs := strip_length ((data.drop off).take len)
  simp only [List.length_take, List.length_drop] at hs
  have hw : (Buf.start (withoutEmulation ((data.drop off).take len))).WF := Buf.start_wf (by rw [← strip_eq]; omega)
  cases hr : progData nd p data off len c with
  | val r => exact ⟨r, rfl⟩
  | bad e => exact absurd (((progData_same p h hl hf c).2.2 e).mp hr) (hp.run nd hw c e)

/-- C55: undefined behaviour never happens in an overload, from any reachable parser state. -/
theorem C55_safe (n a1 a2 a3 a4 : Nat) (hd : NalHeader) {σ : Store} (hσ : Reachable σ) :
    (∃ r, parseNalHeaderData nd data off len c = .val r) ∧ (∃ r, parseSvcHeaderExtData nd data off len c = .val r) ∧
    (∃ r, parseHrdData nd data off len c = .val r) ∧ (∃ r, parseVuiData nd data off len c = .val r) ∧
    (∃ r, parseSpsDataData nd data off len c = .val r) ∧ (∃ r, parseSpsRbspData nd data off len c = .val r) ∧
    (∃ r, parseSpsExtensionData nd data off len c = .val r) ∧ (∃ r, parseSpsSvcExtData nd data off len n c = .val r) ∧
    (∃ r, parseSubsetSpsData nd data off len c = .val r) ∧ (∃ r, parsePpsData nd data off len n c = .val r) ∧
    (∃ r, parseRefPicListModData nd data off len n c = .val r) ∧
    (∃ r, parsePredWeightTableData nd data off len a1 a2 a3 a4 c = .val r) ∧
    (∃ r, parseDecRefPicMarkingData nd data off len n c = .val r) ∧
    (∃ r, parsePrefixSvcData nd data off len a1 a2 a3 c = .val r) ∧
    (∃ r, parsePrefixRbspData nd data off len a1 a2 a3 a4 c = .val r) ∧
    (∃ r, parseSliceHeaderData nd data off len a1 a2 σ c = .val r) ∧
    (∃ r, parseSliceLayerData nd data off len a1 a2 σ c = .val r) ∧
    (∃ r, parseScalHeaderData nd data off len hd σ c = .val r) ∧
    (∃ r, parseSliceLayerExtData nd data off len hd σ c = .val r) := by
  have hv := C36_reachable_valid hσ
  exact ⟨progData_safe h hl hf c safe_nalHeader, progData_safe h hl hf c safe_svcHeaderExt, progData_safe h hl hf c safe_hrd,
    progData_safe h hl hf c safe_vui, progData_safe h hl hf c safe_spsData, progData_safe h hl hf c safe_sps,
    progData_safe h hl hf c safe_spsExt, progData_safe h hl hf c (safe_spsSvcExt n), progData_safe h hl hf c safe_subsetSps,
    progData_safe h hl hf c (safe_pps n), progData_safe h hl hf c (safe_refPicListMod n),
    progData_safe h hl hf c (safe_predWeightTable a1 a2 a3 a4), progData_safe h hl hf c (safe_decRefPicMarking n),
    progData_safe h hl hf c (safe_prefixSvc a1 a2 a3), progData_safe h hl hf c (safe_prefixRbsp a1 a2 a3 a4),
    progData_safe h hl hf c (safe_sliceHeader hv.inRange a1 a2), progData_safe h hl hf c (safe_sliceLayer hv a1 a2),
    progData_safe h hl hf c (safe_scalHeader hv hd), progData_safe h hl hf c (safe_sliceLayerExt hv hd)⟩

end

/-- An HRD whose coded form holds emulation prevention bytes. -/
def exHrdData : List UInt8 := escape (packBits (encHrd exHrd ++ trailingBits 6))

example : exHrdData.length = 16 ∧ (withoutEmulation exHrdData).length = 15 := by decide +kernel
example (nd : Bool) : ∃ c', parseHrdData nd exHrdData 0 exHrdData.length 0 = .val (some exHrd, c') :=
  ((C55_exact (nd := nd) (data := exHrdData) (off := 0) (len := exHrdData.length) (by decide +kernel) (by decide +kernel)
    (fun _ => by decide +kernel) 0 0 0 0 0 0 (by decide)).2.2.1 exHrd).mpr ⟨exHrd_ok, trailingBits 6, by decide +kernel⟩

/-! ### C22: GetNalUnitType -/

theorem getNalUnitType_eq {nd : Bool} {bytes : List UInt8} (hf : Fits nd bytes.length) (c : Nat) :
    getNalUnitType nd bytes c = (run nd parseNalHeader ⟨Buf.start bytes, c⟩).res >>= fun x =>
      Res.val (x.1.map (·.nal_unit_type), x.2.cnt) := by
  unfold getNalUnitType
  rw [Buf.new_eq hf, Res.val_bind]
  congr 1
  funext x
  obtain ⟨h, s⟩ := x
  cases h <;> rfl

/-- C22: `GetNalUnitType` returns true and the type `t` iff the bytes start with a header of that type, and otherwise false;
undefined behaviour never happens. -/
theorem C22_getNalUnitType (nd : Bool) {bytes : List UInt8} (hl : bytes.length < 2 ^ 61) (hf : nd = false → bytes.length < 2 ^ 32)
    (c : Nat) : ∃ x c', getNalUnitType nd bytes c = .val (x, c') ∧
      ∀ t, x = some t ↔ ∃ h r, NalHeader.Ok h ∧ h.nal_unit_type = t ∧ allBits bytes = encNalHeader h ++ r := by
  rw [getNalUnitType_eq (fits_of hl hf (Nat.le_refl _))]
  have hw := Buf.start_wf hl
  have hc := fun a s => codec_nalHeader.run nd hw c a s
  cases hr : run nd parseNalHeader ⟨Buf.start bytes, c⟩ with
  | bad e => exact absurd hr (safe_nalHeader.run nd hw c e)
  | null s =>
    rw [Out.res, Res.val_bind]
    refine ⟨none, _, rfl, fun t => ⟨fun h => (by simp at h), ?_⟩⟩
    rintro ⟨h, r, h1, h2, h3⟩
    have := (hc h _).mpr ⟨h1, ⟨r, by rw [Buf.start_rem]; exact h3⟩, rfl⟩
    rw [hr] at this; cases this
  | ok a s =>
    rw [Out.res, Res.val_bind]
    refine ⟨_, _, rfl, fun t => ?_⟩
    obtain ⟨h1, ⟨r, h2⟩, h3⟩ := (hc a s).mp hr
    rw [Buf.start_rem] at h2
    constructor
    · intro h; cases h; exact ⟨a, r, h1, rfl, h2⟩
    · rintro ⟨h, r', k1, rfl, k3⟩
      have := (hc h _).mpr ⟨k1, ⟨r', by rw [Buf.start_rem]; exact k3⟩, rfl⟩
      rw [hr] at this; cases this; rfl

theorem strip_take2 (l : List UInt8) : (strip l).take 2 = l.take 2 := by
  match l with
  | [] => rfl
  | a :: r =>
    by_cases h : a = 0 ∧ ∃ t, r = 0 :: 3 :: t
    · obtain ⟨rfl, t, rfl⟩ := h
      rw [strip_hit]; rfl
    · rw [strip_miss h]
      match r with
      | [] => rfl
      | b :: r =>
        by_cases h2 : b = 0 ∧ ∃ t, r = 0 :: 3 :: t
        · obtain ⟨rfl, t, rfl⟩ := h2
          rw [strip_hit]; rfl
        · rw [strip_miss h2]; rfl

/-- If the second of the first two bytes is not zero, no emulation prevention byte is among the first four. -/
theorem strip_take4 {a b : UInt8} (hb : b ≠ 0) (r : List UInt8) : (strip (a :: b :: r)).take 4 = (a :: b :: r).take 4 := by
  rw [strip_miss (by rintro ⟨-, t, ht⟩; cases ht; exact hb rfl), strip_ne hb]
  simp [strip_take2]

theorem strip_take1 (l : List UInt8) : (strip l).take 1 = l.take 1 := by
  have := congrArg (List.take 1) (strip_take2 l)
  simpa [List.take_take] using this

/-- The header is in the first `k` bytes. -/
theorem header_prefix {h : NalHeader} {l l' : List UInt8} {k : Nat} (hk : (encNalHeader h).length = 8 * k)
    (hl : l.take k = l'.take k) {r : List Bool} (he : allBits l = encNalHeader h ++ r) : ∃ r', allBits l' = encNalHeader h ++ r' := by
  have h1 : allBits (l.take k) = encNalHeader h := by
    have : allBits l = allBits (l.take k) ++ allBits (l.drop k) := by rw [← allBits_append, List.take_append_drop]
    rw [this] at he
    have hlen := congrArg List.length he
    simp only [List.length_append, length_allBits, List.length_take, List.length_drop, hk] at hlen
    exact (List.append_inj he (by simp only [length_allBits, List.length_take, hk]; omega)).1
  refine ⟨allBits (l'.drop k), ?_⟩
  rw [← h1, hl, ← allBits_append, List.take_append_drop]

/-- The second byte of a four byte header is not zero. -/
theorem header_second {h : NalHeader} (ok : h.Ok) (ht : h.nal_unit_type = 14 ∨ h.nal_unit_type = 20) {l : List UInt8}
    {r : List Bool} (he : allBits l = encNalHeader h ++ r) : ∃ a b t, l = a :: b :: t ∧ b ≠ 0 := by
  have h4 := C22_nalHeader_size ok
  rw [if_pos ht] at h4
  have hlen := congrArg List.length he
  simp only [List.length_append, length_allBits, h4] at hlen
  match l with
  | [] => simp at hlen; omega
  | [a] => simp at hlen; omega
  | a :: b :: t =>
    refine ⟨a, b, t, rfl, ?_⟩
    rintro rfl
    have ox := ok.ext
    rw [if_pos ht] at ox
    obtain ⟨o1, e, o2, -⟩ := ox
    have := congrArg (fun l => l[8]?) he
    revert this
    simp [encNalHeader, ht, o1, o2]

theorem header_strip {h : NalHeader} (ok : h.Ok) (l : List UInt8) :
    (∃ r, allBits l = encNalHeader h ++ r) ↔ ∃ r, allBits (strip l) = encNalHeader h ++ r := by
  have h4 := C22_nalHeader_size ok
  by_cases ht : h.nal_unit_type = 14 ∨ h.nal_unit_type = 20
  · rw [if_pos ht] at h4
    have k4 : (encNalHeader h).length = 8 * 4 := h4
    constructor
    · rintro ⟨r, hr⟩
      obtain ⟨a, b, t, rfl, hb⟩ := header_second ok ht hr
      exact header_prefix k4 (strip_take4 hb t).symm hr
    · rintro ⟨r, hr⟩
      obtain ⟨a, b, t, hs, hb⟩ := header_second ok ht hr
      have h2 := strip_take2 l
      rw [hs] at h2
      match l with
      | [] => simp at h2
      | [x] => simp at h2
      | x :: y :: z =>
        simp only [List.take_succ_cons, List.take_zero, List.cons.injEq, and_true] at h2
        obtain ⟨rfl, rfl⟩ := h2
        exact header_prefix k4 (strip_take4 hb z) hr
  · rw [if_neg ht] at h4
    have k1 : (encNalHeader h).length = 8 * 1 := h4
    exact ⟨fun ⟨r, hr⟩ => header_prefix k1 (strip_take1 l).symm hr, fun ⟨r, hr⟩ => header_prefix k1 (strip_take1 l) hr⟩

/-- C22: `GetNalUnitType`, which reads the bytes as they are, and `ParseNalUnitHeader(data, length)`, which removes emulation
prevention bytes first, agree. -/
theorem C22_agree (nd : Bool) {bytes : List UInt8} (hl : bytes.length < 2 ^ 61) (hf : nd = false → bytes.length < 2 ^ 32) (c t : Nat) :
    (∃ c', getNalUnitType nd bytes c = .val (some t, c')) ↔
    ∃ h c', parseNalHeaderData nd bytes 0 bytes.length c = .val (some h, c') ∧ h.nal_unit_type = t := by
  obtain ⟨x, k, h1, h2⟩ := C22_getNalUnitType nd hl hf c
  have h3 := (C55_exact (nd := nd) (data := bytes) (off := 0) (len := bytes.length) (by omega) hl hf c 0 0 0 0 0 (by omega)).1
  simp only [List.drop_zero, List.take_length, ← strip_eq] at h3
  have h4 : (∃ c', getNalUnitType nd bytes c = .val (some t, c')) ↔ x = some t := by
    rw [h1]; simp
  rw [h4, h2]
  constructor
  · rintro ⟨h, r, ok, ht, he⟩
    obtain ⟨c', hc⟩ := (h3 h).mpr ⟨ok, (header_strip ok bytes).mp ⟨r, he⟩⟩
    exact ⟨h, c', hc, ht⟩
  · rintro ⟨h, c', hc, ht⟩
    obtain ⟨ok, he⟩ := (h3 h).mp ⟨c', hc⟩
    obtain ⟨r, hr⟩ := (header_strip ok bytes).mpr he
    exact ⟨h, r, ok, ht, hr⟩

/-! ### C50: IsPayloadParsed -/

/-- C50: `IsPayloadParsed`, asked with the type of the unit, is false iff the type is one that the library parses and there is no
payload. -/
theorem C50_isPayloadParsed {nd : Bool} {data : List UInt8} {off len : Nat} (h : off + len ≤ data.length)
    (hl : data.length < 2 ^ 61) {opts : ParsingOptions} {σ σ' : Store} {cnt cnt' : Nat} {n : NalUnit}
    (he : parseNalUnit nd opts data off len σ cnt = .val (some n, σ', cnt')) :
    n.nal_unit_payload.isPayloadParsed n.nal_unit_header.nal_unit_type = false ↔
      n.nal_unit_header.nal_unit_type ∈ parsedTypes ∧ n.nal_unit_payload = {} := by
  rcases nalUnitL_cases (parseNalUnit_val h hl he) with ⟨h1, _⟩ | ⟨hd, s, p, s', h1, _, h2, _⟩
  · cases h1
  cases h1
  dsimp only
  rw [runL_payload] at h2
  unfold Payload.isPayloadParsed parsedTypes
  revert h2
  split
  · rename_i ht
    cases runL nd (parseSliceLayer σ hd.nal_ref_idc hd.nal_unit_type) s <;> simp <;> rintro rfl _ _ <;>
      rcases ht with ht | ht <;> simp [ht]
  split
  · rename_i ht
    cases runL nd parseSps s <;> simp <;> rintro rfl _ _ <;> simp [ht]
  split
  · rename_i ht
    cases runL nd (parsePps 1) s <;> simp <;> rintro rfl _ _ <;> simp [ht]
  split
  · rename_i ht
    cases runL nd (parsePrefixPayload hd) s <;> simp <;> rintro rfl _ _ <;> simp [ht]
  split
  · rename_i ht
    cases runL nd parseSubsetSps s <;> simp <;> rintro rfl _ _ <;> simp [ht]
  split
  · rename_i ht
    cases runL nd (parseSliceLayerExt σ hd) s <;> simp <;> rintro rfl _ _ <;> simp [ht]
  simp; rintro rfl _ _; simp_all

example (nd : Bool) : getNalUnitType nd [0x65, 0x88] 0 = .val (some 5, 0) := by cases nd <;> decide +kernel
example (nd : Bool) : getNalUnitType nd [0x6e, 0xc0, 0x00, 0x03, 0xff] 0 = .val (some 14, 0) := by cases nd <;> decide +kernel
example (nd : Bool) : getNalUnitType nd [0x6e] 0 = .val (none, 0) := by cases nd <;> decide +kernel

/-- A truncated SPS: no payload. -/
example (nd : Bool) : ∃ n σ c, parseNalUnit nd {} [0x67, 0x42] 0 2 {} 0 = .val (some n, σ, c) ∧ n.nal_unit_payload = {} := by
  have : ∃ x, parseNalUnit nd {} [0x67, 0x42] 0 2 {} 0 = .val x ∧ (x.1.isSome ∧ x.1.map (·.nal_unit_payload) = some {}) := by
    cases nd <;> exact exists_dec (by decide +kernel)
  obtain ⟨⟨n, σ, c⟩, h1, h2, h3⟩ := this
  dsimp only at h2 h3
  obtain ⟨n, rfl⟩ := Option.isSome_iff_exists.mp h2
  exact ⟨n, σ, c, h1, Option.some.inj h3⟩

end H264.Props

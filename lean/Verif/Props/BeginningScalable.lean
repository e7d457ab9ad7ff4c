import Verif.Props.Beginning
import Verif.Props.Scalable

/-
How much of a NAL unit is needed to read the header of a scalable slice: C78.
-/

namespace H264.Props
open H264.Spec Prog

/-- The scalable slice header that is found in a NAL unit. -/
def NalUnit.scalable (n : NalUnit) : Option ScalHeader :=
  n.nal_unit_payload.slice_layer_extension_rbsp.bind (·.slice_header_in_scalable_extension)

/-- The bits of a NAL unit whose scalable slice header is found. -/
structure ScalBits (σ : Store) (h : NalHeader) (sh : ScalHeader) (bits : List Bool) : Prop where
  header : h.Ok
  type : h.nal_unit_type = 20
  slice : ∃ x, ScalRefers σ h sh x ∧ sh.Ok x 0 0
  bits : ∃ r, bits = encNalHeader h ++ (encScal σ h sh ++ r)

/-- The slice layer extension returned for it. -/
def scalExt (h : NalHeader) (sh : ScalHeader) : SliceLayerExt where
  svc_extension_flag := h.svc_extension_flag
  avc_3d_extension_flag := h.avc_3d_extension_flag
  nal_ref_idc := h.nal_ref_idc
  nal_unit_type := h.nal_unit_type
  slice_header_in_scalable_extension := some sh

/-- The payload ParseNalUnit returns for it. -/
def scalPayload (h : NalHeader) (sh : ScalHeader) : Payload where
  slice_layer_extension_rbsp := some (scalExt h sh)

/-- What ParseNalUnit returns for it. -/
def scalUnit (opts : ParsingOptions) (σ : Store) (h : NalHeader) (sh : ScalHeader) (bytes : List UInt8) : NalUnit where
  parsed_length := ((encNalHeader h).length + (encScal σ h sh).length + 7) / 8
  checksum := ckOf opts bytes
  nal_unit_header := h
  nal_unit_payload := scalPayload h sh

theorem svc_of_20 {h : NalHeader} (ok : h.Ok) (ht : h.nal_unit_type = 20) :
    h.svc_extension_flag ≠ 0 ∧ ∀ e, h.svc_extension = some e → e.Ok := by
  have he := ok.ext
  rw [if_pos (.inr ht)] at he
  obtain ⟨h1, e', h2, h3⟩ := he
  refine ⟨by omega, fun e h => ?_⟩
  rw [h2] at h
  cases h
  exact h3

theorem runL_scalLayer {nd : Bool} {σ : Store} (hσ : σ.Valid) {h : NalHeader} (ok : h.Ok) (ht : h.nal_unit_type = 20) {l : List Bool}
    {c : Nat} {sh : ScalHeader} (hs : ∃ x, ScalRefers σ h sh x ∧ sh.Ok x 0 0) (r : List Bool) (hl : l = encScal σ h sh ++ r) :
    runL nd (parseSliceLayerExt σ h) ⟨l, c⟩ = .ok (scalExt h sh) ⟨r, c⟩ := by
  obtain ⟨hf, hn⟩ := svc_of_20 ok ht
  unfold parseSliceLayerExt
  dsimp only
  rw [if_pos hf, runL_bind, runL_attempt, (codec_scalHeader hσ hn nd l c sh ⟨r, c⟩).mpr ⟨hs, r, hl, rfl⟩]
  rfl

theorem nalUnitL_scal {nd : Bool} (opts : ParsingOptions) {σ : Store} (hσ : σ.Valid) {h : NalHeader} {sh : ScalHeader}
    {bytes : List UInt8} (hb : ScalBits σ h sh (allBits bytes)) (c : Nat) :
    nalUnitL nd opts bytes σ c = .val (some (scalUnit opts σ h sh bytes), σ, c) := by
  obtain ⟨r, hr⟩ := hb.bits
  have hlen := congrArg List.length hr
  rw [length_allBits, List.length_append, List.length_append] at hlen
  have ht := hb.type
  unfold nalUnitL
  rw [hr, codec_nalHeader.parse_append nd hb.header]
  dsimp only
  rw [runL_payload, if_neg (by omega), if_neg (by omega), if_neg (by omega), if_neg (by omega), if_neg (by omega), if_pos ht,
    runL_scalLayer hσ hb.header ht hb.slice r rfl]
  dsimp only
  unfold scalUnit
  rw [show 8 * bytes.length - r.length = (encNalHeader h).length + (encScal σ h sh).length by omega]
  rfl

theorem scal_nalUnitL {nd : Bool} {opts : ParsingOptions} {σ : Store} (hσ : σ.Valid) {bytes : List UInt8} {c : Nat} {n : NalUnit}
    {σ' : Store} {c' : Nat} (he : nalUnitL nd opts bytes σ c = .val (some n, σ', c')) (hs : (NalUnit.scalable n).isSome) :
    ∃ h sh, ScalBits σ h sh (allBits bytes) ∧ n = scalUnit opts σ h sh bytes ∧ σ' = σ ∧ c' = c := by
  have he0 := he
  rcases nalUnitL_cases he with ⟨h1, _⟩ | ⟨hd, s, p, s', hn, h1, h2, _⟩
  · cases h1
  simp only [Option.some.injEq] at hn
  subst hn
  unfold NalUnit.scalable at hs
  dsimp only at hs
  obtain ⟨ok, r, hr, rfl⟩ := (codec_nalHeader nd _ _ _ _).mp h1
  rw [runL_payload] at h2
  have key : hd.nal_unit_type = 20 ∧ ∃ y s1, runL nd (parseScalHeader σ hd) ⟨r, c⟩ = .ok y s1 := by
    revert h2
    split
    · cases runL nd (parseSliceLayer σ hd.nal_ref_idc hd.nal_unit_type) ⟨r, c⟩ <;> simp <;> rintro rfl _ _ <;> cases hs
    split
    · cases runL nd parseSps ⟨r, c⟩ <;> simp <;> rintro rfl _ _ <;> cases hs
    split
    · cases runL nd (parsePps 1) ⟨r, c⟩ <;> simp <;> rintro rfl _ _ <;> cases hs
    split
    · cases runL nd (parsePrefixPayload hd) ⟨r, c⟩ <;> simp <;> rintro rfl _ _ <;> cases hs
    split
    · cases runL nd parseSubsetSps ⟨r, c⟩ <;> simp <;> rintro rfl _ _ <;> cases hs
    split
    · rename_i ht
      obtain ⟨hf, hn⟩ := svc_of_20 ok ht
      unfold parseSliceLayerExt
      dsimp only
      rw [if_pos hf, runL_bind, runL_attempt]
      cases hx : runL nd (parseScalHeader σ hd) ⟨r, c⟩ with
      | ok y s1 => intro _; exact ⟨ht, y, s1, rfl⟩
      | null s1 => simp [Out.bind]; rintro rfl _ _; cases hs
      | bad e => simp [Out.bind]
    · simp; rintro rfl _ _; cases hs
  obtain ⟨ht, y, s1, hx⟩ := key
  obtain ⟨hsl, r2, hr2, _⟩ := (codec_scalHeader hσ (svc_of_20 ok ht).2 nd _ _ _ _).mp hx
  have hb : ScalBits σ hd y (allBits bytes) := ⟨ok, ht, hsl, r2, by rw [hr, hr2]⟩
  have := nalUnitL_scal (nd := nd) opts hσ hb c
  rw [this] at he0
  simp only [Res.val.injEq, Prod.mk.injEq, Option.some.injEq] at he0
  exact ⟨hd, y, hb, he0.1.symm, he0.2.1.symm, he0.2.2.symm⟩

theorem ScalBits.more {σ : Store} {h : NalHeader} {sh : ScalHeader} {bits : List Bool} (hb : ScalBits σ h sh bits) (t : List Bool) :
    ScalBits σ h sh (bits ++ t) := by
  obtain ⟨r, hr⟩ := hb.bits
  exact ⟨hb.header, hb.type, hb.slice, r ++ t, by rw [hr]; simp only [List.append_assoc]⟩

theorem ScalBits.less {σ : Store} {h : NalHeader} {sh : ScalHeader} {a t : List Bool} (hb : ScalBits σ h sh (a ++ t))
    (hl : (encNalHeader h).length + (encScal σ h sh).length ≤ a.length) : ScalBits σ h sh a := by
  obtain ⟨r, hr⟩ := hb.bits
  refine ⟨hb.header, hb.type, hb.slice, a.drop ((encNalHeader h).length + (encScal σ h sh).length), ?_⟩
  have e := congrArg (List.take ((encNalHeader h).length + (encScal σ h sh).length)) hr
  rw [List.take_append_of_le_length hl, ← List.append_assoc, ← List.length_append, List.take_left] at e
  rw [← List.append_assoc, ← e, ← List.length_append, List.take_append_drop]

theorem ScalBits.length {σ : Store} {h : NalHeader} {sh : ScalHeader} {a : List Bool} (hb : ScalBits σ h sh a) :
    (encNalHeader h).length + (encScal σ h sh).length ≤ a.length := by
  obtain ⟨r, hr⟩ := hb.bits
  rw [hr]; simp only [List.length_append]; omega

theorem ScalBits.unique {σ : Store} (hσ : σ.Valid) {h h' : NalHeader} {sh sh' : ScalHeader} {bytes : List UInt8}
    (a : ScalBits σ h sh (allBits bytes)) (b : ScalBits σ h' sh' (allBits bytes)) : h = h' ∧ sh = sh' := by
  have e1 := nalUnitL_scal (nd := true) {} hσ a 0
  rw [nalUnitL_scal (nd := true) {} hσ b 0] at e1
  simp only [Res.val.injEq, Prod.mk.injEq, Option.some.injEq, and_true] at e1
  have e2 := congrArg NalUnit.nal_unit_header e1
  have e3 := congrArg NalUnit.scalable e1
  simp only [NalUnit.scalable, scalUnit, scalPayload, scalExt, Option.bind_some, Option.some.injEq] at e2 e3
  exact ⟨e2.symm, e3.symm⟩

/-! ### C78 -/

/-- C78: if the header of a scalable slice is found in the first `m` bytes of a NAL unit, then it is found in any longer part of the NAL
unit, and everything returned except the checksum is the same. -/
theorem C78_scalable_longer {nd : Bool} {opts : ParsingOptions} {data : List UInt8} (hl : data.length < 2 ^ 32) {off m k : Nat}
    (hmk : m ≤ k) (hk : off + k ≤ data.length) {σ : Store} (hσ : σ.Valid) {c : Nat} {n : NalUnit} {σ' : Store} {c' : Nat}
    (he : parseNalUnit nd opts data off m σ c = .val (some n, σ', c')) (hs : (NalUnit.scalable n).isSome) :
    ∃ ck, parseNalUnit nd opts data off k σ c = .val (some { n with checksum := ck }, σ, c) ∧ σ' = σ ∧ c' = c := by
  rw [parseNalUnit_begin hl (by omega)] at he
  rw [parseNalUnit_begin hl hk]
  obtain ⟨h, sh, hb, rfl, rfl, rfl⟩ := scal_nalUnitL hσ he hs
  obtain ⟨s, e⟩ := strip_begin (data.drop off) hmk
  refine ⟨ckOf opts (strip ((data.drop off).take k)), ?_, rfl, rfl⟩
  rw [nalUnitL_scal opts hσ (h := h) (sh := sh) (by rw [e, allBits_append]; exact hb.more _)]
  rfl

/-- C78: the header of a scalable slice is found in the first `m` bytes of its NAL unit if and only if these contain `parsed_length`
bytes besides the emulation prevention bytes. -/
theorem C78_scalable_exactly {nd : Bool} {opts : ParsingOptions} {data : List UInt8} (hl : data.length < 2 ^ 32) {off m k : Nat}
    (hmk : m ≤ k) (hk : off + k ≤ data.length) {σ : Store} (hσ : σ.Valid) {c : Nat} {n : NalUnit} {σ' : Store} {c' : Nat}
    (he : parseNalUnit nd opts data off k σ c = .val (some n, σ', c')) (hs : (NalUnit.scalable n).isSome) :
    if n.parsed_length ≤ (withoutEmulation ((data.drop off).take m)).length then
      ∃ ck, parseNalUnit nd opts data off m σ c = .val (some { n with checksum := ck }, σ, c)
    else ∀ n1 σ1 c1, parseNalUnit nd opts data off m σ c = .val (some n1, σ1, c1) → NalUnit.scalable n1 = none := by
  rw [parseNalUnit_begin hl hk] at he
  rw [parseNalUnit_begin hl (by omega), ← strip_eq]
  obtain ⟨h, sh, hb, rfl, rfl, rfl⟩ := scal_nalUnitL hσ he hs
  obtain ⟨s, e⟩ := strip_begin (data.drop off) hmk
  rw [e, allBits_append] at hb
  have hp : (scalUnit opts σ' h sh (strip ((data.drop off).take k))).parsed_length =
    ((encNalHeader h).length + (encScal σ' h sh).length + 7) / 8 := rfl
  rw [hp]
  split
  · rename_i hlen
    refine ⟨ckOf opts (strip ((data.drop off).take m)), ?_⟩
    rw [nalUnitL_scal opts hσ (hb.less (by rw [length_allBits]; omega))]
    rfl
  · rename_i hlen
    intro n1 σ1 c1 h1
    cases hx : NalUnit.scalable n1 with
    | none => rfl
    | some x =>
      exfalso
      obtain ⟨h2, sh2, hb2, -, -, -⟩ := scal_nalUnitL hσ h1 (by rw [hx]; rfl)
      have hm := hb2.more (allBits s)
      rw [← allBits_append] at hm hb
      obtain ⟨rfl, rfl⟩ := ScalBits.unique hσ hb hm
      have := hb2.length
      rw [length_allBits] at this
      omega

/-! ### Example -/

/-- The scalable slice of the unit test.  Its header ends in the seventh byte: it is found in the first seven bytes and not in the first
six, which give a NAL unit without slice header. -/
example (nd : Bool) : ∃ r, (do
    let b ← parseBitstream nd {} exSvcStream {} 0
    let x ← parseNalUnit nd {} (nalHeaderByte 0 3 20 :: exSvcSlice) 0 13 b.2.1 0
    let y ← parseNalUnit nd {} (nalHeaderByte 0 3 20 :: exSvcSlice) 0 7 b.2.1 0
    let z ← parseNalUnit nd {} (nalHeaderByte 0 3 20 :: exSvcSlice) 0 6 b.2.1 0
    pure [x.1, y.1, z.1]) = .val r ∧
    r.map (fun n => n.map fun n => (n.parsed_length, (NalUnit.scalable n).isSome)) =
      [some (7, true), some (7, true), some (6, false)] := by
  cases nd <;> exact exists_dec (by decide +kernel)

end H264.Props

import Verif.Props.StapA
import Verif.Props.Rtp

/-
How much of a NAL unit is needed to read its slice header: C78.
-/

namespace H264.Props
open H264.Spec Prog

/-! ### Removing emulation prevention from a beginning of a NAL unit -/

theorem strip_append : ∀ (a b : List UInt8), ∃ s, strip (a ++ b) = strip a ++ s
  | [], b => ⟨strip b, by simp [strip]⟩
  | [x], b => by
    by_cases h : x = 0 ∧ ∃ t, b = 0 :: 3 :: t
    · obtain ⟨rfl, t, rfl⟩ := h
      exact ⟨0 :: strip t, by show strip (0 :: 0 :: 3 :: t) = _; rw [strip_hit]; rfl⟩
    · exact ⟨strip b, by show strip (x :: b) = _; rw [strip_miss h]; rfl⟩
  | [x, y], b => by
    by_cases h : x = 0 ∧ ∃ t, y :: b = 0 :: 3 :: t
    · obtain ⟨rfl, t, ht⟩ := h
      cases ht
      exact ⟨strip t, by show strip (0 :: 0 :: 3 :: t) = _; rw [strip_hit]; rfl⟩
    · obtain ⟨s, hs⟩ := strip_append [y] b
      refine ⟨s, ?_⟩
      show strip (x :: (y :: b)) = _
      rw [strip_miss h]
      rw [List.cons_append, List.nil_append] at hs
      rw [hs]
      rfl
  | x :: y :: z :: r, b => by
    by_cases h : x = 0 ∧ y = 0 ∧ z = 3
    · obtain ⟨rfl, rfl, rfl⟩ := h
      obtain ⟨s, hs⟩ := strip_append r b
      refine ⟨s, ?_⟩
      rw [strip_hit]
      show strip (0 :: 0 :: 3 :: (r ++ b)) = _
      rw [strip_hit, hs]
      rfl
    · obtain ⟨s, hs⟩ := strip_append (y :: z :: r) b
      have e1 : strip (x :: y :: z :: r) = x :: strip (y :: z :: r) := by rw [strip, if_neg h]
      have e2 : strip (x :: y :: z :: (r ++ b)) = x :: strip (y :: z :: (r ++ b)) := by rw [strip, if_neg h]
      refine ⟨s, ?_⟩
      show strip (x :: y :: z :: (r ++ b)) = _
      rw [e1, e2]
      show x :: strip ((y :: z :: r) ++ b) = _
      rw [hs]
      rfl

/-! ### NAL units that give a slice header -/

/-- The bits of a NAL unit whose slice header is found, and what ParseNalUnit returns for it. -/
structure SliceBits (σ : Store) (h : NalHeader) (sh : SliceHeader) (bits : List Bool) : Prop where
  header : h.Ok
  type : h.nal_unit_type = 1 ∨ h.nal_unit_type = 5
  slice : ∃ p s, σ.pps sh.pic_parameter_set_id = some p ∧ σ.sps p.seq_parameter_set_id = some s ∧ sh.Ok h.nal_ref_idc h.nal_unit_type s p
  bits : ∃ r, bits = encNalHeader h ++ (encSlice σ sh ++ r)

/-- The payload ParseNalUnit returns for it. -/
def slicePayload (h : NalHeader) (sh : SliceHeader) : Payload where
  slice_layer_without_partitioning_rbsp := some ⟨h.nal_ref_idc, h.nal_unit_type, some sh⟩

/-- What ParseNalUnit returns for it. -/
def sliceUnit (opts : ParsingOptions) (σ : Store) (h : NalHeader) (sh : SliceHeader) (bytes : List UInt8) : NalUnit where
  parsed_length := ((encNalHeader h).length + (encSlice σ sh).length + 7) / 8
  checksum := ckOf opts bytes
  nal_unit_header := h
  nal_unit_payload := slicePayload h sh

theorem runL_sliceLayer {nd : Bool} {σ : Store} (hσ : σ.Valid) {a b : Nat} {l : List Bool} {c : Nat} {x : SliceLayer} {s' : LSt} :
    runL nd (parseSliceLayer σ a b) ⟨l, c⟩ = .ok x s' ↔
      ∃ sh, x = { nal_ref_idc := a, nal_unit_type := b, slice_header := some sh } ∧
        (∃ p s, σ.pps sh.pic_parameter_set_id = some p ∧ σ.sps p.seq_parameter_set_id = some s ∧ sh.Ok a b s p) ∧
        ∃ r, l = encSlice σ sh ++ r ∧ s' = ⟨r, c⟩ := by
  unfold parseSliceLayer
  rw [runL_bind_ok]
  constructor
  · rintro ⟨sh, s1, h1, h2⟩
    rw [Prog.pure_eq, runL_ret] at h2
    cases h2
    obtain ⟨h3, h4⟩ := (codec_sliceHeader hσ.inRange a b nd l c sh s').mp h1
    exact ⟨sh, rfl, h3, h4⟩
  · rintro ⟨sh, rfl, h3, h4⟩
    exact ⟨sh, s', (codec_sliceHeader hσ.inRange a b nd l c sh s').mpr ⟨h3, h4⟩, by rw [Prog.pure_eq, runL_ret]⟩

theorem nalUnitL_slice {nd : Bool} (opts : ParsingOptions) {σ : Store} (hσ : σ.Valid) {h : NalHeader} {sh : SliceHeader}
    {bytes : List UInt8} (hb : SliceBits σ h sh (allBits bytes)) (c : Nat) :
    nalUnitL nd opts bytes σ c = .val (some (sliceUnit opts σ h sh bytes), σ, c) := by
  obtain ⟨r, hr⟩ := hb.bits
  have hlen := congrArg List.length hr
  rw [length_allBits, List.length_append, List.length_append] at hlen
  unfold nalUnitL
  rw [hr, codec_nalHeader.parse_append nd hb.header]
  dsimp only
  rw [runL_payload, if_pos hb.type, (runL_sliceLayer (nd := nd) hσ).mpr ⟨sh, rfl, hb.slice, r, rfl, rfl⟩]
  dsimp only
  unfold sliceUnit
  rw [show 8 * bytes.length - r.length = (encNalHeader h).length + (encSlice σ sh).length by omega]
  rfl

theorem slice_nalUnitL {nd : Bool} {opts : ParsingOptions} {σ : Store} (hσ : σ.Valid) {bytes : List UInt8} {c : Nat} {n : NalUnit}
    {σ' : Store} {c' : Nat} (he : nalUnitL nd opts bytes σ c = .val (some n, σ', c'))
    (hs : n.nal_unit_payload.slice_layer_without_partitioning_rbsp.isSome) :
    ∃ h sh, SliceBits σ h sh (allBits bytes) ∧ n = sliceUnit opts σ h sh bytes ∧ σ' = σ ∧ c' = c := by
  have he0 := he
  rcases nalUnitL_cases he with ⟨h1, _⟩ | ⟨hd, s, p, s', hn, h1, h2, _⟩
  · cases h1
  simp only [Option.some.injEq] at hn
  subst hn
  dsimp only at hs
  obtain ⟨ok, r, hr, rfl⟩ := (codec_nalHeader nd _ _ _ _).mp h1
  rw [runL_payload] at h2
  have key : (hd.nal_unit_type = 1 ∨ hd.nal_unit_type = 5) ∧ ∃ x s1,
      runL nd (parseSliceLayer σ hd.nal_ref_idc hd.nal_unit_type) ⟨r, c⟩ = .ok x s1 := by
    revert h2
    split
    · rename_i ht
      cases hx : runL nd (parseSliceLayer σ hd.nal_ref_idc hd.nal_unit_type) ⟨r, c⟩ with
      | ok x s1 => intro _; exact ⟨ht, x, s1, rfl⟩
      | null s1 => intro h2; simp only [Out.ok.injEq, Prod.mk.injEq] at h2; rw [← h2.1.1] at hs; cases hs
      | bad e => intro h2; cases h2
    · intro h2
      exfalso
      have : p.slice_layer_without_partitioning_rbsp = none := by
        revert h2
        split
        · cases runL nd parseSps ⟨r, c⟩ <;> simp <;> rintro rfl _ _ <;> rfl
        split
        · cases runL nd (parsePps 1) ⟨r, c⟩ <;> simp <;> rintro rfl _ _ <;> rfl
        split
        · cases runL nd (parsePrefixPayload hd) ⟨r, c⟩ <;> simp <;> rintro rfl _ _ <;> rfl
        split
        · cases runL nd parseSubsetSps ⟨r, c⟩ <;> simp <;> rintro rfl _ _ <;> rfl
        split
        · cases runL nd (parseSliceLayerExt σ hd) ⟨r, c⟩ <;> simp <;> rintro rfl _ _ <;> rfl
        · simp; rintro rfl _ _; rfl
      rw [this] at hs
      cases hs
  obtain ⟨ht, x, s1, hx⟩ := key
  obtain ⟨sh, _, hsl, r2, hr2, _⟩ := (runL_sliceLayer hσ).mp hx
  have hb : SliceBits σ hd sh (allBits bytes) := ⟨ok, ht, hsl, r2, by rw [hr, hr2]⟩
  have := nalUnitL_slice (nd := nd) opts hσ hb c
  rw [this] at he0
  simp only [Res.val.injEq, Prod.mk.injEq, Option.some.injEq] at he0
  exact ⟨hd, sh, hb, he0.1.symm, he0.2.1.symm, he0.2.2.symm⟩

/-- More bits after it change nothing. -/
theorem SliceBits.more {σ : Store} {h : NalHeader} {sh : SliceHeader} {bits : List Bool} (hb : SliceBits σ h sh bits) (t : List Bool) :
    SliceBits σ h sh (bits ++ t) := by
  obtain ⟨r, hr⟩ := hb.bits
  exact ⟨hb.header, hb.type, hb.slice, r ++ t, by rw [hr]; simp only [List.append_assoc]⟩

/-- As many bits as the headers have are enough. -/
theorem SliceBits.less {σ : Store} {h : NalHeader} {sh : SliceHeader} {a t : List Bool} (hb : SliceBits σ h sh (a ++ t))
    (hl : (encNalHeader h).length + (encSlice σ sh).length ≤ a.length) : SliceBits σ h sh a := by
  obtain ⟨r, hr⟩ := hb.bits
  refine ⟨hb.header, hb.type, hb.slice, a.drop ((encNalHeader h).length + (encSlice σ sh).length), ?_⟩
  have e := congrArg (List.take ((encNalHeader h).length + (encSlice σ sh).length)) hr
  rw [List.take_append_of_le_length hl, ← List.append_assoc, ← List.length_append, List.take_left] at e
  rw [← List.append_assoc, ← e, ← List.length_append, List.take_append_drop]

theorem SliceBits.length {σ : Store} {h : NalHeader} {sh : SliceHeader} {a : List Bool} (hb : SliceBits σ h sh a) :
    (encNalHeader h).length + (encSlice σ sh).length ≤ a.length := by
  obtain ⟨r, hr⟩ := hb.bits
  rw [hr]; simp only [List.length_append]; omega

/-- A NAL unit has at most one slice header. -/
theorem SliceBits.unique {σ : Store} (hσ : σ.Valid) {h h' : NalHeader} {sh sh' : SliceHeader} {bytes : List UInt8}
    (a : SliceBits σ h sh (allBits bytes)) (b : SliceBits σ h' sh' (allBits bytes)) : h = h' ∧ sh = sh' := by
  have e1 := nalUnitL_slice (nd := true) {} hσ a 0
  rw [nalUnitL_slice (nd := true) {} hσ b 0] at e1
  simp only [Res.val.injEq, Prod.mk.injEq, Option.some.injEq, and_true, sliceUnit, slicePayload, NalUnit.mk.injEq, Payload.mk.injEq,
    SliceLayer.mk.injEq] at e1
  exact ⟨e1.2.2.2.2.1.symm, e1.2.2.2.2.2.2.2.2.2.symm⟩

/-! ### C78 -/

theorem fits_of_lt {nd : Bool} {n : Nat} (h : n < 2 ^ 32) : Fits nd n := by unfold Fits; split <;> omega

theorem parseNalUnit_begin {nd : Bool} {data : List UInt8} (hl : data.length < 2 ^ 32) {off m : Nat} (hm : off + m ≤ data.length)
    (opts : ParsingOptions) (σ : Store) (c : Nat) :
    parseNalUnit nd opts data off m σ c = nalUnitL nd opts (strip ((data.drop off).take m)) σ c := by
  have h1 := strip_length ((data.drop off).take m)
  have h2 : ((data.drop off).take m).length ≤ data.length := by rw [List.length_take, List.length_drop]; omega
  rw [parseNalUnit_eqL hm (by omega), if_pos (fits_of_lt (by omega))]

theorem strip_begin (l : List UInt8) {m k : Nat} (h : m ≤ k) : ∃ s, strip (l.take k) = strip (l.take m) ++ s := by
  obtain ⟨s, hs⟩ := strip_append (l.take m) ((l.drop m).take (k - m))
  refine ⟨s, ?_⟩
  rw [← hs, ← List.take_add]
  congr 2
  omega

/-- C78: if a slice header is found in the first `m` bytes of a NAL unit, then it is found in any longer part of the NAL unit,
and everything returned except the checksum is the same. -/
theorem C78_longer {nd : Bool} {opts : ParsingOptions} {data : List UInt8} (hl : data.length < 2 ^ 32) {off m k : Nat} (hmk : m ≤ k)
    (hk : off + k ≤ data.length) {σ : Store} (hσ : σ.Valid) {c : Nat} {n : NalUnit} {σ' : Store} {c' : Nat}
    (he : parseNalUnit nd opts data off m σ c = .val (some n, σ', c'))
    (hs : n.nal_unit_payload.slice_layer_without_partitioning_rbsp.isSome) :
    ∃ ck, parseNalUnit nd opts data off k σ c = .val (some { n with checksum := ck }, σ, c) ∧ σ' = σ ∧ c' = c := by
  rw [parseNalUnit_begin hl (by omega)] at he
  rw [parseNalUnit_begin hl hk]
  obtain ⟨h, sh, hb, rfl, rfl, rfl⟩ := slice_nalUnitL hσ he hs
  obtain ⟨s, e⟩ := strip_begin (data.drop off) hmk
  refine ⟨ckOf opts (strip ((data.drop off).take k)), ?_, rfl, rfl⟩
  rw [nalUnitL_slice opts hσ (h := h) (sh := sh) (by rw [e, allBits_append]; exact hb.more _)]
  rfl

/-- C78: the slice header of a NAL unit is found in its first `m` bytes if and only if these contain `parsed_length` bytes
besides the emulation prevention bytes. -/
theorem C78_exactly {nd : Bool} {opts : ParsingOptions} {data : List UInt8} (hl : data.length < 2 ^ 32) {off m k : Nat} (hmk : m ≤ k)
    (hk : off + k ≤ data.length) {σ : Store} (hσ : σ.Valid) {c : Nat} {n : NalUnit} {σ' : Store} {c' : Nat}
    (he : parseNalUnit nd opts data off k σ c = .val (some n, σ', c'))
    (hs : n.nal_unit_payload.slice_layer_without_partitioning_rbsp.isSome) :
    (∃ ck, parseNalUnit nd opts data off m σ c = .val (some { n with checksum := ck }, σ, c)) ∧
        n.parsed_length ≤ (withoutEmulation ((data.drop off).take m)).length ∨
    (∀ n1 σ1 c1, parseNalUnit nd opts data off m σ c = .val (some n1, σ1, c1) →
        n1.nal_unit_payload.slice_layer_without_partitioning_rbsp = none) ∧
      (withoutEmulation ((data.drop off).take m)).length < n.parsed_length := by
  rw [parseNalUnit_begin hl hk] at he
  rw [parseNalUnit_begin hl (by omega), ← strip_eq]
  obtain ⟨h, sh, hb, rfl, rfl, rfl⟩ := slice_nalUnitL hσ he hs
  obtain ⟨s, e⟩ := strip_begin (data.drop off) hmk
  rw [e, allBits_append] at hb
  have hp : (sliceUnit opts σ' h sh (strip ((data.drop off).take k))).parsed_length =
    ((encNalHeader h).length + (encSlice σ' sh).length + 7) / 8 := rfl
  rw [hp]
  by_cases hlen : (encNalHeader h).length + (encSlice σ' sh).length ≤ 8 * (strip ((data.drop off).take m)).length
  · left
    refine ⟨⟨ckOf opts (strip ((data.drop off).take m)), ?_⟩, by omega⟩
    rw [nalUnitL_slice opts hσ (hb.less (by rw [length_allBits]; exact hlen))]
    rfl
  · right
    refine ⟨?_, by omega⟩
    intro n1 σ1 c1 h1
    cases hx : n1.nal_unit_payload.slice_layer_without_partitioning_rbsp with
    | none => rfl
    | some x =>
      exfalso
      obtain ⟨h2, sh2, hb2, -, -, -⟩ := slice_nalUnitL hσ h1 (by rw [hx]; rfl)
      have hm := hb2.more (allBits s)
      rw [← allBits_append] at hm hb
      obtain ⟨rfl, rfl⟩ := SliceBits.unique hσ hb hm
      have := hb2.length
      rw [length_allBits] at this
      exact hlen this

/-- C78: the first fragment of a fragmented slice (RTP FU-A with the start bit) gives the slice header, and the whole payload,
that ParseNalUnit finds in the NAL unit put together from all fragments, if and only if the header ends in that fragment. -/
theorem C78_fragment {nd : Bool} {opts : ParsingOptions} {f ref e r t : Nat} (hf : f < 2) (hr : ref < 4) (he : e < 2)
    (hR : r < 2) (ht : t = 1 ∨ t = 5) {frag rest : List UInt8} (hl : frag.length + rest.length + 2 < 2 ^ 32) {σ : Store} (hσ : σ.Valid)
    {c : Nat} {n : NalUnit} {σ' : Store} {c' : Nat}
    (hn : parseNalUnit nd opts (nalHeaderByte f ref t :: (frag ++ rest)) 0 (frag.length + rest.length + 1) σ c = .val (some n, σ', c'))
    (hs : n.nal_unit_payload.slice_layer_without_partitioning_rbsp.isSome) :
    ∃ p, parseRtpData nd (fuIndicator f ref :: fuHeader 1 e r t :: frag) 0 (frag.length + 2) σ c =
        .val (some { nal_unit_header := { forbidden_zero_bit := f, nal_ref_idc := ref, nal_unit_type := 28 },
                     rtp_fua := some ⟨ref, { forbidden_zero_bit := f, nal_ref_idc := ref, nal_unit_type := 28 }, 1, e, r, t,
                       some p⟩ }, σ, c) ∧
      if n.parsed_length ≤ (withoutEmulation (nalHeaderByte f ref t :: frag)).length then p = n.nal_unit_payload
      else p.slice_layer_without_partitioning_rbsp = none := by
  obtain ⟨n1, σ1, c1, h1, h2, h3⟩ := C42_start_partial (nd := nd) opts hf hr he hR (t := t) (by omega)
    (by simp only [List.mem_cons, List.not_mem_nil, or_false, not_or]; omega) (frag := frag) (by omega) hσ c
  have hd : parseNalUnit nd opts (nalHeaderByte f ref t :: frag) 0 (frag.length + 1) σ c =
      parseNalUnit nd opts (nalHeaderByte f ref t :: (frag ++ rest)) 0 (frag.length + 1) σ c := by
    rw [parseNalUnit_begin (by simp only [List.length_cons]; omega) (by simp),
      parseNalUnit_begin (by simp only [List.length_cons, List.length_append]; omega) (by simp)]
    simp
  have htk : ((nalHeaderByte f ref t :: (frag ++ rest)).drop 0).take (frag.length + 1) = nalHeaderByte f ref t :: frag := by simp
  rw [hd] at h1
  have hx := C78_exactly (m := frag.length + 1) (by simp only [List.length_cons, List.length_append]; omega) (by omega)
    (by simp only [List.length_cons, List.length_append]; omega) hσ hn hs
  rw [htk] at hx
  have hst : σ1 = σ ∧ c1 = c := by
    rw [parseNalUnit_begin (by simp only [List.length_cons, List.length_append]; omega) (by simp)] at h1
    rcases nalUnitL_cases h1 with ⟨h0, _⟩ | ⟨hd, s, p, s', hn1, g1, g2, g3⟩
    · cases h0
    · simp only [Option.some.injEq] at hn1
      rw [hn1] at h2
      dsimp only at h2
      obtain ⟨ok, r1, hr1, rfl⟩ := (codec_nalHeader nd _ _ _ _).mp g1
      have htt : hd.nal_unit_type = 1 ∨ hd.nal_unit_type = 5 := by rw [h2]; exact ht
      have hk : KeepsCnt (parseSliceLayer σ hd.nal_ref_idc hd.nal_unit_type) := by
        unfold parseSliceLayer
        exact KeepsCnt.bind (keeps_sliceHeader σ _ htt) (fun _ => KeepsCnt.pure _)
      have hk1 := hk nd ⟨r1, c⟩
      rw [runL_payload, if_pos htt] at g2
      revert g2 hk1
      cases runL nd (parseSliceLayer σ hd.nal_ref_idc hd.nal_unit_type) ⟨r1, c⟩ with
      | ok x s2 => intro g2 hk1; simp only [Out.ok.injEq, Prod.mk.injEq] at g2; rw [← g3, ← g2.2]; exact ⟨g2.1.2.symm, hk1⟩
      | null s2 => intro g2 hk1; simp only [Out.ok.injEq, Prod.mk.injEq] at g2; rw [← g3, ← g2.2]; exact ⟨g2.1.2.symm, hk1⟩
      | bad e => intro g2; cases g2
  obtain ⟨rfl, rfl⟩ := hst
  refine ⟨_, h3, ?_⟩
  rcases hx with ⟨⟨ck, hc⟩, hle⟩ | ⟨hno, hlt⟩
  · rw [if_pos hle]
    rw [hc] at h1
    simp only [Res.val.injEq, Prod.mk.injEq, Option.some.injEq] at h1
    rw [← h1.1]
  · rw [if_neg (by omega)]
    exact hno _ _ _ h1

/-! ### Parameter sets are different -/

/-- C78 holds of slices, not of parameter sets: the first three bytes of this NAL unit give a PPS without the 8x8 transform,
the whole NAL unit gives a PPS with it, and both are stored under the same id. -/
theorem C78_pps_differs (nd : Bool) :
    (∃ r, parseNalUnit nd {} [0x68, 0xee, 0x38, 0xb0] 0 3 {} 0 = .val r ∧
      (r.1.bind (·.nal_unit_payload.pps)).map (fun p => (p.pic_parameter_set_id, p.transform_8x8_mode_flag)) = some (0, 0)) ∧
    (∃ r, parseNalUnit nd {} [0x68, 0xee, 0x38, 0xb0] 0 4 {} 0 = .val r ∧
      (r.1.bind (·.nal_unit_payload.pps)).map (fun p => (p.pic_parameter_set_id, p.transform_8x8_mode_flag)) = some (0, 1)) := by
  cases nd <;> exact ⟨exists_dec (by decide +kernel), exists_dec (by decide +kernel)⟩

/-! ### Examples -/

/-- After an SPS and a PPS, the slice header of an eight byte NAL unit ends in its fifth byte.  It is found in the first five
bytes and not in the first four, which give a NAL unit without slice header. -/
example (nd : Bool) : ∃ r, (do
    let a ← parseNalUnit nd {} exStapSpsNal 0 17 {} 0
    let b ← parseNalUnit nd {} exStapPps601 0 6 a.2.1 a.2.2
    let x ← parseNalUnit nd {} exStapSlice 0 8 b.2.1 b.2.2
    let y ← parseNalUnit nd {} exStapSlice 0 5 b.2.1 b.2.2
    let z ← parseNalUnit nd {} exStapSlice 0 4 b.2.1 b.2.2
    pure [x.1, y.1, z.1]) = .val r ∧
    r.map (fun n => n.map fun n => (n.parsed_length, n.nal_unit_payload.slice_layer_without_partitioning_rbsp.isSome)) =
      [some (5, true), some (5, true), some (4, false)] := by
  cases nd <;> exact exists_dec (by decide +kernel)

/-- The same slice in fragments: a first fragment with four bytes after the two FU-A bytes gives the slice header, one with
three bytes does not. -/
example (nd : Bool) : ∃ r, (do
    let a ← parseNalUnit nd {} exStapSpsNal 0 17 {} 0
    let b ← parseNalUnit nd {} exStapPps601 0 6 a.2.1 a.2.2
    let y ← parseRtpData nd (fuIndicator 0 2 :: fuHeader 1 0 0 1 :: (exStapSlice.drop 1).take 4) 0 6 b.2.1 b.2.2
    let z ← parseRtpData nd (fuIndicator 0 2 :: fuHeader 1 0 0 1 :: (exStapSlice.drop 1).take 3) 0 5 b.2.1 b.2.2
    pure [y.1, z.1]) = .val r ∧
    r.map (fun n => (n.bind (·.rtp_fua)).map fun f => f.nal_unit_payload.map
      (·.slice_layer_without_partitioning_rbsp.isSome)) = [some (some true), some (some false)] := by
  cases nd <;> exact exists_dec (by decide +kernel)

/-- Emulation prevention bytes do not count. -/
example : (withoutEmulation [0x41, 0, 0, 3, 1]).length = 4 := by decide

end H264.Props

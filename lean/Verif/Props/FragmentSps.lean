import Verif.Props.BeginningLists

/-
The first fragment of an SPS in RTP: C91.
-/

namespace H264.Props
open H264.Spec Prog

/-- A NAL unit of type 7 in which no SPS is found changes nothing. -/
theorem nalUnitL_no_sps {nd : Bool} {opts : ParsingOptions} {σ : Store} {bytes : List UInt8} {c : Nat} {n : NalUnit}
    {σ' : Store} {c' : Nat} (he : nalUnitL nd opts bytes σ c = .val (some n, σ', c')) (ht : n.nal_unit_header.nal_unit_type = 7)
    (hs : n.nal_unit_payload.sps = none) : σ' = σ := by
  rcases nalUnitL_cases he with ⟨h1, _⟩ | ⟨hd, s, p, s', hn, h1, h2, _⟩
  · cases h1
  simp only [Option.some.injEq] at hn
  subst hn
  dsimp only at hs ht
  rw [runL_payload, if_neg (by omega), if_pos ht] at h2
  revert h2
  cases runL nd parseSps s with
  | ok x s1 => simp only [Out.ok.injEq, Prod.mk.injEq]; rintro ⟨⟨rfl, _⟩, _⟩; cases hs
  | null s1 => simp only [Out.ok.injEq, Prod.mk.injEq]; rintro ⟨⟨_, rfl⟩, _⟩; rfl
  | bad e => nofun

/-- C91: the first fragment of a fragmented SPS (RTP FU-A with the start bit) gives the SPS, and the parser state, that ParseNalUnit
finds in the NAL unit put together from all fragments, if and only if all fields of the SPS are in that fragment.  Otherwise it gives no
SPS and the parser state stays as it is.  This is for SPSs without scaling matrix. -/
theorem C91_fragment {nd : Bool} {opts : ParsingOptions} {f ref e r : Nat} (hf : f < 2) (hr : ref < 4) (he : e < 2) (hR : r < 2)
    {frag rest : List UInt8} (hl : frag.length + rest.length + 2 < 2 ^ 32) {σ : Store} (hσ : σ.Valid)
    {c : Nat} {n : NalUnit} {σ' : Store} {c' : Nat}
    (hn : parseNalUnit nd opts (nalHeaderByte f ref 7 :: (frag ++ rest)) 0 (frag.length + rest.length + 1) σ c = .val (some n, σ', c'))
    {st : SpsData} (hs : n.nal_unit_payload.sps = some st) (hm : st.seq_scaling_matrix_present_flag = 0) :
    ∃ p σ1 c1, parseRtpData nd (fuIndicator f ref :: fuHeader 1 e r 7 :: frag) 0 (frag.length + 2) σ c =
        .val (some { nal_unit_header := { forbidden_zero_bit := f, nal_ref_idc := ref, nal_unit_type := 28 },
                     rtp_fua := some ⟨ref, { forbidden_zero_bit := f, nal_ref_idc := ref, nal_unit_type := 28 }, 1, e, r, 7,
                       some p⟩ }, σ1, c1) ∧
      if 8 + (encSpsHead st.toSpsHead ++ encSpsTail st.toSpsTail).length ≤
          8 * (withoutEmulation (nalHeaderByte f ref 7 :: frag)).length then
        p = n.nal_unit_payload ∧ σ1 = σ' ∧ c1 = c'
      else p.sps = none ∧ σ1 = σ := by
  obtain ⟨n1, σ1, c1, h1, h2, h3⟩ := C42_start_partial (nd := nd) opts hf hr he hR (t := 7) (by omega)
    (by decide) (frag := frag) (by omega) hσ c
  have hd : parseNalUnit nd opts (nalHeaderByte f ref 7 :: frag) 0 (frag.length + 1) σ c =
      parseNalUnit nd opts (nalHeaderByte f ref 7 :: (frag ++ rest)) 0 (frag.length + 1) σ c := by
    rw [parseNalUnit_begin (by simp only [List.length_cons]; omega) (by simp),
      parseNalUnit_begin (by simp only [List.length_cons, List.length_append]; omega) (by simp)]
    simp
  have htk : ((nalHeaderByte f ref 7 :: (frag ++ rest)).drop 0).take (frag.length + 1) = nalHeaderByte f ref 7 :: frag := by simp
  rw [hd] at h1
  have hx := C91_exactly (m := frag.length + 1) (by simp only [List.length_cons, List.length_append]; omega) (by omega)
    (by simp only [List.length_cons, List.length_append]; omega) hn hs hm
  rw [htk] at hx
  refine ⟨_, σ1, c1, h3, ?_⟩
  split
  · rename_i hle
    rw [if_pos hle] at hx
    obtain ⟨n2, k1, k2, k3⟩ := hx
    rw [k1] at h1
    simp only [Res.val.injEq, Prod.mk.injEq, Option.some.injEq] at h1
    obtain ⟨rfl, rfl, rfl⟩ := h1
    exact ⟨k3, rfl, rfl⟩
  · rename_i hlt
    rw [if_neg hlt] at hx
    have hno := hx _ _ _ h1
    rw [parseNalUnit_begin (by simp only [List.length_cons, List.length_append]; omega) (by simp)] at h1
    exact ⟨hno, nalUnitL_no_sps h1 (by rw [h2]) hno⟩

/-- An SPS in two fragments.  With six bytes after the two FU-A bytes the first fragment gives the SPS and stores it; with five it gives
none. -/
example (nd : Bool) : ∃ r, (do
    let x ← parseNalUnit nd {} [nalHeaderByte 0 3 7, 66, 0, 10, 0xf8, 0x41, 0xa2, 0x80] 0 8 {} 0
    let y ← parseRtpData nd [fuIndicator 0 3, fuHeader 1 0 0 7, 66, 0, 10, 0xf8, 0x41, 0xa2] 0 8 {} 0
    let z ← parseRtpData nd [fuIndicator 0 3, fuHeader 1 0 0 7, 66, 0, 10, 0xf8, 0x41] 0 7 {} 0
    pure (x, [y, z])) = .val r ∧
    (r.1.1.bind (·.nal_unit_payload.sps)).map (·.seq_scaling_matrix_present_flag) = some 0 ∧
    r.2.map (fun a => (((a.1.bind (·.rtp_fua)).bind (·.nal_unit_payload)).map (·.sps.isSome), (a.2.1.sps 0).isSome)) =
      [(some true, true), (some false, false)] := by
  cases nd <;> exact exists_dec (by decide +kernel)

end H264.Props

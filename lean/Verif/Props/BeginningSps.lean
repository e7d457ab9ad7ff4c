import Verif.Props.Beginning
import Verif.Props.Sps
import Verif.Props.Subset

/-
How much of a NAL unit is needed to read an SPS: C91.
-/

namespace H264.Props
open H264.Spec Prog

/-! ### NAL units that give a well-formed SPS -/

/-- The bits of a NAL unit of type 7 with the header `h` that carries the SPS `x`. -/
structure SpsBits (h : NalHeader) (x : SpsSyn) (bits : List Bool) : Prop where
  header : h.Ok
  type : h.nal_unit_type = 7
  sps : x.Ok
  bits : ∃ r, bits = encNalHeader h ++ (encSps x ++ r)

theorem runL_sps (nd : Bool) {x : SpsSyn} (ok : x.Ok) (r : List Bool) (c : Nat) :
    ∃ l, runL nd parseSps ⟨encSps x ++ r, c⟩ = .ok x.state ⟨l, c⟩ := by
  unfold parseSps
  rw [runL_bind, spsData_complete nd ok]
  simp only [Out.bind]
  rw [runL_bind, runL_attempt]
  have h1 := safe_trailing nd ⟨r, c⟩
  have h2 := keeps_trailing nd ⟨r, c⟩
  revert h1 h2
  cases runL nd rbspTrailingBits ⟨r, c⟩ with
  | ok a s => intro _ h2; exact ⟨s.rem, by cases s; cases h2; rfl⟩
  | null s => intro _ h2; exact ⟨s.rem, by cases s; cases h2; rfl⟩
  | bad e => intro h1; exact absurd rfl (h1 e)

theorem nalUnitL_sps {nd : Bool} (opts : ParsingOptions) (σ : Store) {h : NalHeader} {x : SpsSyn} {bytes : List UInt8}
    (hb : SpsBits h x (allBits bytes)) (c : Nat) :
    ∃ n, nalUnitL nd opts bytes σ c = .val (some n, σ.addSps (some x.state), c) ∧ n.nal_unit_header = h ∧
      n.nal_unit_payload = { sps := some x.state } := by
  obtain ⟨r, hr⟩ := hb.bits
  obtain ⟨l, hl⟩ := runL_sps nd hb.sps r c
  unfold nalUnitL
  rw [hr, codec_nalHeader.parse_append nd hb.header]
  dsimp only
  rw [runL_payload, if_neg (by have := hb.type; omega), if_pos hb.type, hl]
  exact ⟨_, rfl, rfl, rfl⟩

/-- If an SPS is found, then the NAL unit has type 7 and ParseSps has found it. -/
theorem sps_nalUnitL {nd : Bool} {opts : ParsingOptions} {σ : Store} {bytes : List UInt8} {c : Nat} {n : NalUnit}
    {σ' : Store} {c' : Nat} (he : nalUnitL nd opts bytes σ c = .val (some n, σ', c')) {st : SpsData}
    (hs : n.nal_unit_payload.sps = some st) :
    ∃ h r s1, h.Ok ∧ h.nal_unit_type = 7 ∧ allBits bytes = encNalHeader h ++ r ∧ runL nd parseSps ⟨r, c⟩ = .ok st s1 := by
  rcases nalUnitL_cases he with ⟨h1, _⟩ | ⟨hd, s, p, s', hn, h1, h2, _⟩
  · cases h1
  simp only [Option.some.injEq] at hn
  subst hn
  dsimp only at hs
  obtain ⟨ok, r, hr, rfl⟩ := (codec_nalHeader nd _ _ _ _).mp h1
  rw [runL_payload] at h2
  revert h2
  split
  · cases runL nd (parseSliceLayer σ hd.nal_ref_idc hd.nal_unit_type) ⟨r, c⟩ <;> simp <;> rintro rfl _ _ <;> cases hs
  split
  · rename_i ht
    cases hx : runL nd parseSps ⟨r, c⟩ with
    | ok x s1 =>
      simp only [Out.ok.injEq, Prod.mk.injEq]
      rintro ⟨⟨rfl, _⟩, _⟩
      cases hs
      exact ⟨hd, r, s1, ok, ht, hr, hx⟩
    | null s1 => simp only [Out.ok.injEq, Prod.mk.injEq]; rintro ⟨⟨rfl, _⟩, _⟩; cases hs
    | bad e => nofun
  split
  · cases runL nd (parsePps 1) ⟨r, c⟩ <;> simp <;> rintro rfl _ _ <;> cases hs
  split
  · cases runL nd (parsePrefixPayload hd) ⟨r, c⟩ <;> simp <;> rintro rfl _ _ <;> cases hs
  split
  · cases runL nd parseSubsetSps ⟨r, c⟩ <;> simp <;> rintro rfl _ _ <;> cases hs
  split
  · cases runL nd (parseSliceLayerExt σ hd) ⟨r, c⟩ <;> simp <;> rintro rfl _ _ <;> cases hs
  · simp; rintro rfl _ _; cases hs

/-- An SPS without scaling matrix is well-formed if it is found at all. -/
theorem sps_plain {nd : Bool} {l : List Bool} {c : Nat} {st : SpsData} {s' : LSt} (h : runL nd parseSps ⟨l, c⟩ = .ok st s')
    (hf : st.seq_scaling_matrix_present_flag = 0) : ∃ x r, x.Ok ∧ st = x.state ∧ l = encSps x ++ r := by
  obtain ⟨s2, h2⟩ := (sps_iff nd _ _).mp ⟨s', h⟩
  rcases spsData_sound nd h2 with ⟨x, r, h3, h4, h5, _⟩ | ⟨hd, rest, h3, h4, ls, ds, rest', h5, _⟩
  · exact ⟨x, r, h3, h4, h5⟩
  · exfalso
    unfold parseSpsData at h2
    rw [runL_bind_ok] at h2
    obtain ⟨hd', s3, h6, h2⟩ := h2
    rw [h4, codec_spsHead.parse_append nd h3] at h6
    simp only [Out.ok.injEq] at h6
    obtain ⟨rfl, _⟩ := h6
    rw [runL_bind_ok] at h2
    obtain ⟨_, _, _, h2⟩ := h2
    rw [runL_bind_ok] at h2
    obtain ⟨_, _, _, h2⟩ := h2
    simp only [Prog.pure_eq, runL_ret, Out.ok.injEq] at h2
    rw [← h2.1] at hf
    unfold spsListCount at h5
    rw [if_neg (show ¬ hd.seq_scaling_matrix_present_flag = 1 from fun k => absurd (k.symm.trans hf) (by decide))] at h5
    omega

theorem spsBits_of_plain {nd : Bool} {opts : ParsingOptions} {σ : Store} {bytes : List UInt8} {c : Nat} {n : NalUnit}
    {σ' : Store} {c' : Nat} (he : nalUnitL nd opts bytes σ c = .val (some n, σ', c')) {st : SpsData}
    (hs : n.nal_unit_payload.sps = some st) (hf : st.seq_scaling_matrix_present_flag = 0) :
    ∃ h x, SpsBits h x (allBits bytes) ∧ st = x.state := by
  obtain ⟨h, r, s1, h1, h2, h3, h4⟩ := sps_nalUnitL he hs
  obtain ⟨x, r2, h5, h6, h7⟩ := sps_plain h4 hf
  exact ⟨h, x, ⟨h1, h2, h5, r2, by rw [h3, h7]⟩, h6⟩

theorem spsBits_of_wellFormed {nd : Bool} {opts : ParsingOptions} {σ : Store} {bytes : List UInt8} {c : Nat} {n : NalUnit}
    {σ' : Store} {c' : Nat} (he : nalUnitL nd opts bytes σ c = .val (some n, σ', c')) {st : SpsData}
    (hs : n.nal_unit_payload.sps = some st) (hm : ¬ MalformedSps ((allBits bytes).drop 8)) :
    ∃ h x, SpsBits h x (allBits bytes) ∧ st = x.state := by
  obtain ⟨h, r, s1, h1, h2, h3, h4⟩ := sps_nalUnitL he hs
  have hlen : (encNalHeader h).length = 8 := by
    unfold encNalHeader
    have hn : ¬ (h.nal_unit_type = 14 ∨ h.nal_unit_type = 20) := by omega
    rw [if_neg hn]; simp
  rw [h3, ← hlen, List.drop_left] at hm
  obtain ⟨s2, g2⟩ := (sps_iff nd _ _).mp ⟨s1, h4⟩
  rcases spsData_sound nd g2 with ⟨x, r2, g3, g4, g5, _⟩ | g3
  · exact ⟨h, x, ⟨h1, h2, g3, r2, by rw [h3, g5]⟩, g4⟩
  · exact absurd g3 hm

theorem SpsBits.more {h : NalHeader} {x : SpsSyn} {bits : List Bool} (hb : SpsBits h x bits) (t : List Bool) :
    SpsBits h x (bits ++ t) := by
  obtain ⟨r, hr⟩ := hb.bits
  exact ⟨hb.header, hb.type, hb.sps, r ++ t, by rw [hr]; simp only [List.append_assoc]⟩

theorem SpsBits.less {h : NalHeader} {x : SpsSyn} {a t : List Bool} (hb : SpsBits h x (a ++ t))
    (hl : (encNalHeader h).length + (encSps x).length ≤ a.length) : SpsBits h x a := by
  obtain ⟨r, hr⟩ := hb.bits
  refine ⟨hb.header, hb.type, hb.sps, a.drop ((encNalHeader h).length + (encSps x).length), ?_⟩
  have e := congrArg (List.take ((encNalHeader h).length + (encSps x).length)) hr
  rw [List.take_append_of_le_length hl, ← List.append_assoc, ← List.length_append, List.take_left] at e
  rw [← List.append_assoc, ← e, ← List.length_append, List.take_append_drop]

theorem SpsBits.length {h : NalHeader} {x : SpsSyn} {a : List Bool} (hb : SpsBits h x a) :
    (encNalHeader h).length + (encSps x).length ≤ a.length := by
  obtain ⟨r, hr⟩ := hb.bits
  rw [hr]; simp only [List.length_append]; omega

/-- The beginning of the SPS that is found. -/
theorem sps_head {nd : Bool} {l : List Bool} {c : Nat} {st : SpsData} {s' : LSt} (h : runL nd parseSps ⟨l, c⟩ = .ok st s') :
    st.toSpsHead.Ok ∧ ∃ r, l = encSpsHead st.toSpsHead ++ r := by
  obtain ⟨s2, h2⟩ := (sps_iff nd _ _).mp ⟨s', h⟩
  unfold parseSpsData at h2
  rw [runL_bind_ok] at h2
  obtain ⟨hd, s3, h6, h2⟩ := h2
  obtain ⟨ok, r, hr, _⟩ := (codec_spsHead nd _ _ _ _).mp h6
  rw [runL_bind_ok] at h2
  obtain ⟨_, _, _, h2⟩ := h2
  rw [runL_bind_ok] at h2
  obtain ⟨_, _, _, h2⟩ := h2
  simp only [Prog.pure_eq, runL_ret, Out.ok.injEq] at h2
  rw [← h2.1]
  exact ⟨ok, r, hr⟩

/-- The beginning has the header and the SPS head of the whole. -/
theorem sps_head_same {nd : Bool} {h h' : NalHeader} (ok : h.Ok) (ok' : h'.Ok) {a b : SpsHead} (oa : a.Ok) (ob : b.Ok)
    {r r' : List Bool} (e : encNalHeader h ++ (encSpsHead a ++ r) = encNalHeader h' ++ (encSpsHead b ++ r')) : h = h' ∧ a = b := by
  have e1 := codec_nalHeader.parse_append nd ok (encSpsHead a ++ r) 0
  rw [e, codec_nalHeader.parse_append nd ok' (encSpsHead b ++ r') 0] at e1
  simp only [Out.ok.injEq, LSt.mk.injEq, and_true] at e1
  have e2 := codec_spsHead.parse_append nd oa r 0
  rw [← e1.2, codec_spsHead.parse_append nd ob r' 0] at e2
  simp only [Out.ok.injEq, LSt.mk.injEq, and_true] at e2
  exact ⟨e1.1.symm, e2.1.symm⟩

theorem SpsBits.unique {h h' : NalHeader} {x x' : SpsSyn} {bytes : List UInt8} (a : SpsBits h x (allBits bytes))
    (b : SpsBits h' x' (allBits bytes)) : h = h' ∧ x.state = x'.state := by
  obtain ⟨n, e1, e2, e3⟩ := nalUnitL_sps (nd := true) {} {} a 0
  obtain ⟨n', e1', e2', e3'⟩ := nalUnitL_sps (nd := true) {} {} b 0
  rw [e1] at e1'
  simp only [Res.val.injEq, Prod.mk.injEq, Option.some.injEq, and_true] at e1'
  obtain ⟨rfl, _⟩ := e1'
  rw [e3] at e3'
  simp only [Payload.mk.injEq, Option.some.injEq] at e3'
  exact ⟨e2.symm.trans e2', e3'.1⟩

/-! ### C91 -/

/-- C91: if an SPS without scaling matrix is found in the first `m` bytes of a NAL unit, then it is found in any longer part of the
NAL unit: with the same NAL unit header, the same payload, the same effect on the parser state, and nothing else. -/
theorem C91_longer {nd : Bool} {opts : ParsingOptions} {data : List UInt8} (hl : data.length < 2 ^ 32) {off m k : Nat} (hmk : m ≤ k)
    (hk : off + k ≤ data.length) {σ : Store} {c : Nat} {n : NalUnit} {σ' : Store} {c' : Nat}
    (he : parseNalUnit nd opts data off m σ c = .val (some n, σ', c')) {st : SpsData}
    (hs : n.nal_unit_payload.sps = some st) (hf : st.seq_scaling_matrix_present_flag = 0) :
    ∃ n2, parseNalUnit nd opts data off k σ c = .val (some n2, σ', c) ∧ n2.nal_unit_header = n.nal_unit_header ∧
      n2.nal_unit_payload = n.nal_unit_payload ∧ c' = c := by
  rw [parseNalUnit_begin hl (by omega)] at he
  rw [parseNalUnit_begin hl hk]
  obtain ⟨h, x, hb, rfl⟩ := spsBits_of_plain he hs hf
  obtain ⟨s, e⟩ := strip_begin (data.drop off) hmk
  obtain ⟨n1, g1, g2, g3⟩ := nalUnitL_sps (nd := nd) opts σ hb c
  obtain ⟨n2, k1, k2, k3⟩ := nalUnitL_sps (nd := nd) opts σ (bytes := strip ((data.drop off).take k)) (h := h) (x := x)
    (by rw [e, allBits_append]; exact hb.more _) c
  rw [g1] at he
  simp only [Res.val.injEq, Prod.mk.injEq, Option.some.injEq] at he
  obtain ⟨rfl, rfl, rfl⟩ := he
  exact ⟨n2, k1, k2.trans g2.symm, k3.trans g3.symm, rfl⟩

/-- C91 for all SPSs whose scaling lists are well-formed as far as they are in the first `m` bytes. -/
theorem C91_longer_lists_partial {nd : Bool} {opts : ParsingOptions} {data : List UInt8} (hl : data.length < 2 ^ 32) {off m k : Nat}
    (hmk : m ≤ k) (hk : off + k ≤ data.length) {σ : Store} {c : Nat} {n : NalUnit} {σ' : Store} {c' : Nat}
    (he : parseNalUnit nd opts data off m σ c = .val (some n, σ', c')) (hs : n.nal_unit_payload.sps.isSome)
    (hm : ¬ MalformedSps ((allBits (withoutEmulation ((data.drop off).take m))).drop 8)) :
    ∃ n2, parseNalUnit nd opts data off k σ c = .val (some n2, σ', c) ∧ n2.nal_unit_header = n.nal_unit_header ∧
      n2.nal_unit_payload = n.nal_unit_payload ∧ c' = c := by
  obtain ⟨st, hs⟩ := Option.isSome_iff_exists.mp hs
  rw [parseNalUnit_begin hl (by omega)] at he
  rw [parseNalUnit_begin hl hk]
  rw [← strip_eq] at hm
  obtain ⟨h, x, hb, rfl⟩ := spsBits_of_wellFormed he hs hm
  obtain ⟨s, e⟩ := strip_begin (data.drop off) hmk
  obtain ⟨n1, g1, g2, g3⟩ := nalUnitL_sps (nd := nd) opts σ hb c
  obtain ⟨n2, k1, k2, k3⟩ := nalUnitL_sps (nd := nd) opts σ (bytes := strip ((data.drop off).take k)) (h := h) (x := x)
    (by rw [e, allBits_append]; exact hb.more _) c
  rw [g1] at he
  simp only [Res.val.injEq, Prod.mk.injEq, Option.some.injEq] at he
  obtain ⟨rfl, rfl, rfl⟩ := he
  exact ⟨n2, k1, k2.trans g2.symm, k3.trans g3.symm, rfl⟩

/-- C91: an SPS without scaling matrix is found in the first `m` bytes of its NAL unit if and only if these contain, besides the
emulation prevention bytes, the header byte and all bits of the fields of the SPS.  A shorter beginning gives no SPS, never a
wrong one. -/
theorem C91_exactly {nd : Bool} {opts : ParsingOptions} {data : List UInt8} (hl : data.length < 2 ^ 32) {off m k : Nat} (hmk : m ≤ k)
    (hk : off + k ≤ data.length) {σ : Store} {c : Nat} {n : NalUnit} {σ' : Store} {c' : Nat}
    (he : parseNalUnit nd opts data off k σ c = .val (some n, σ', c')) {st : SpsData}
    (hs : n.nal_unit_payload.sps = some st) (hf : st.seq_scaling_matrix_present_flag = 0) :
    if 8 + (encSpsHead st.toSpsHead ++ encSpsTail st.toSpsTail).length ≤
        8 * (withoutEmulation ((data.drop off).take m)).length then
      ∃ n1, parseNalUnit nd opts data off m σ c = .val (some n1, σ', c') ∧ n1.nal_unit_header = n.nal_unit_header ∧
        n1.nal_unit_payload = n.nal_unit_payload
    else ∀ n1 σ1 c1, parseNalUnit nd opts data off m σ c = .val (some n1, σ1, c1) → n1.nal_unit_payload.sps = none := by
  rw [parseNalUnit_begin hl hk] at he
  rw [parseNalUnit_begin hl (by omega), ← strip_eq]
  obtain ⟨h, x, hb, rfl⟩ := spsBits_of_plain he hs hf
  obtain ⟨s, e⟩ := strip_begin (data.drop off) hmk
  obtain ⟨n0, g1, g2, g3⟩ := nalUnitL_sps (nd := nd) opts σ hb c
  rw [g1] at he
  simp only [Res.val.injEq, Prod.mk.injEq, Option.some.injEq] at he
  obtain ⟨rfl, rfl, rfl⟩ := he
  have hx : x.lists = [] := by
    have := hb.sps.count
    unfold spsListCount at this
    rw [if_neg (show ¬ x.head.seq_scaling_matrix_present_flag = 1 from
      fun k => absurd (k.symm.trans hf) (by decide))] at this
    exact List.length_eq_zero_iff.mp this
  have hen : encSps x = encSpsHead x.state.toSpsHead ++ encSpsTail x.state.toSpsTail := by
    unfold encSps; rw [hx]; simp only [SpsSyn.state, encLists, List.append_nil]
  have hh : (encNalHeader h).length = 8 := by
    unfold encNalHeader
    have hn : ¬ (h.nal_unit_type = 14 ∨ h.nal_unit_type = 20) := by have := hb.type; omega
    rw [if_neg hn]; simp
  rw [← hen]
  split
  · rename_i hle
    rw [e, allBits_append] at hb
    obtain ⟨n1, k1, k2, k3⟩ := nalUnitL_sps (nd := nd) opts σ (hb.less (by rw [length_allBits, hh]; exact hle)) c
    exact ⟨n1, k1, k2.trans g2.symm, k3.trans g3.symm⟩
  · rename_i hlt
    intro n1 σ1 c1 h1
    cases hx1 : n1.nal_unit_payload.sps with
    | none => rfl
    | some st1 =>
      exfalso
      obtain ⟨h2, r, s1, o2, _, b2, p2⟩ := sps_nalUnitL h1 hx1
      obtain ⟨o3, r3, rfl⟩ := sps_head p2
      obtain ⟨r4, b4⟩ := hb.bits
      rw [e, allBits_append, b2] at b4
      unfold encSps at b4
      simp only [List.append_assoc] at b4
      obtain ⟨rfl, e5⟩ := sps_head_same (nd := nd) o2 hb.header o3 hb.sps.head b4
      have f1 : st1.seq_scaling_matrix_present_flag = 0 := by
        show st1.toSpsHead.seq_scaling_matrix_present_flag = 0
        rw [e5]; exact hf
      obtain ⟨h6, x6, b6, rfl⟩ := spsBits_of_plain h1 hx1 f1
      have b7 := b6.more (allBits s)
      rw [← allBits_append, ← e] at b7
      obtain ⟨rfl, e8⟩ := SpsBits.unique hb b7
      have hl6 := b6.length
      rw [length_allBits, hh] at hl6
      have hx6 : x6.lists = [] := by
        have := b6.sps.count
        unfold spsListCount at this
        rw [if_neg (show ¬ x6.head.seq_scaling_matrix_present_flag = 1 from
          fun k => absurd (k.symm.trans f1) (by decide))] at this
        exact List.length_eq_zero_iff.mp this
      have hen6 : encSps x6 = encSpsHead x6.state.toSpsHead ++ encSpsTail x6.state.toSpsTail := by
        unfold encSps; rw [hx6]; simp only [SpsSyn.state, encLists, List.append_nil]
      rw [hen6, ← e8, ← hen] at hl6
      omega

/-- C91 fails if a scaling list is malformed.  With assertions: the first nine bytes of the first NAL unit give an SPS with frame
numbers of 11 bits, all twelve bytes give an SPS with frame numbers of 4 bits, and both have the id 0.  Without assertions: the first
fourteen bytes of the second NAL unit give frame numbers of 4 bits, all seventeen give 5 bits. -/
theorem C91_lists_differ :
    (∃ r, parseNalUnit false {} [0x67, 0xf4, 0, 0x0a, 0x91, 0xb0, 0, 0x23, 0xb8, 0, 0x0f, 0x71] 0 9 {} 0 = .val r ∧
      (r.1.bind (·.nal_unit_payload.sps)).map (fun s => (s.seq_parameter_set_id, s.log2_max_frame_num_minus4)) = some (0, 7)) ∧
    (∃ r, parseNalUnit false {} [0x67, 0xf4, 0, 0x0a, 0x91, 0xb0, 0, 0x23, 0xb8, 0, 0x0f, 0x71] 0 12 {} 0 = .val r ∧
      (r.1.bind (·.nal_unit_payload.sps)).map (fun s => (s.seq_parameter_set_id, s.log2_max_frame_num_minus4)) = some (0, 0)) ∧
    (∃ r, parseNalUnit true {} [0x67, 0xf4, 0, 0x0a, 0x91, 0xa4, 0, 0, 3, 0, 0x10, 0x88, 7, 0xb8, 0, 0x17, 0x71] 0 14 {} 0 = .val r ∧
      (r.1.bind (·.nal_unit_payload.sps)).map (fun s => (s.seq_parameter_set_id, s.log2_max_frame_num_minus4)) = some (0, 0)) ∧
    (∃ r, parseNalUnit true {} [0x67, 0xf4, 0, 0x0a, 0x91, 0xa4, 0, 0, 3, 0, 0x10, 0x88, 7, 0xb8, 0, 0x17, 0x71] 0 17 {} 0 = .val r ∧
      (r.1.bind (·.nal_unit_payload.sps)).map (fun s => (s.seq_parameter_set_id, s.log2_max_frame_num_minus4)) = some (0, 1)) :=
  ⟨exists_dec (by decide +kernel), exists_dec (by decide +kernel), exists_dec (by decide +kernel), exists_dec (by decide +kernel)⟩

/-! ### Examples -/

/-- The fields of this SPS without scaling matrix end in the seventh byte of its NAL unit: it is found in the first seven bytes and
not in the first six. -/
example (nd : Bool) : ∃ r, (do
    let x ← parseNalUnit nd {} [0x67, 66, 0, 10, 0xf8, 0x41, 0xa2, 0x80, 0x12] 0 9 {} 0
    let y ← parseNalUnit nd {} [0x67, 66, 0, 10, 0xf8, 0x41, 0xa2, 0x80, 0x12] 0 7 {} 0
    let z ← parseNalUnit nd {} [0x67, 66, 0, 10, 0xf8, 0x41, 0xa2, 0x80, 0x12] 0 6 {} 0
    pure [x, y, z]) = .val r ∧
    r.map (fun n => (n.1.bind (·.nal_unit_payload.sps)).map fun s =>
      (s.seq_scaling_matrix_present_flag, 8 + (encSpsHead s.toSpsHead ++ encSpsTail s.toSpsTail).length)) =
      [some (0, 54), some (0, 54), none] := by
  cases nd <;> exact exists_dec (by decide +kernel)

/-- A well-formed SPS with scaling lists, found in the whole NAL unit. -/
example (nd : Bool) : ∃ r, (parseNalUnit nd {} exStapSpsNal 0 17 {} 0) = .val r ∧
    (r.1.bind (·.nal_unit_payload.sps)).map (·.seq_scaling_matrix_present_flag) = some 1 := by
  cases nd <;> exact exists_dec (by decide +kernel)

/-- Its scaling lists are not malformed. -/
example : ¬ MalformedSps ((allBits (withoutEmulation ((exStapSpsNal.drop 0).take 17))).drop 8) := by
  intro hm
  have e : (allBits (withoutEmulation ((exStapSpsNal.drop 0).take 17))).drop 8 = encSps exStapSps ++ trailingBits 6 := by
    rw [← strip_eq]; decide +kernel
  rw [e] at hm
  exact malformed_not_sps hm exStapSps_ok _ rfl

end H264.Props

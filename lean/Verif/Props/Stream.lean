import Verif.Spec.Stream
import Verif.Props.Nal
import Verif.Props.Prefix
import Verif.Props.Scalable
import Verif.Props.Slice
import Verif.Props.Pps
import Verif.Props.Length
import Verif.Props.Escape
import Verif.Props.Checksum
import Verif.Count

/-
C51: a stream that an encoder writes is parsed into what the encoder put into it.
-/

namespace H264.Props
open H264.Spec Prog

/-! ### The end of an RBSP -/

theorem allBits_zeros : ∀ (n : Nat) (r : List UInt8) (Y : List Bool), allBits r = Y ++ List.replicate (8 * n) false →
    ∃ r', r = r' ++ List.replicate n 0 ∧ allBits r' = Y
  | 0, r, Y, h => ⟨r, by simp, by simpa using h⟩
  | n + 1, r, Y, h => by
    rcases List.eq_nil_or_concat r with rfl | ⟨l, z, rfl⟩
    · have := congrArg List.length h
      simp at this
    · rw [List.concat_eq_append] at h ⊢
      rw [allBits_append, show 8 * (n + 1) = 8 * n + 8 from rfl, ← List.replicate_append_replicate, ← List.append_assoc] at h
      obtain ⟨h1, h2⟩ := List.append_inj' h (by simp [allBits])
      have hz : z = 0 := by
        have : allBits [z] = allBits [0] := h2.trans (by decide)
        have := allBits_inj this
        simpa using this
      obtain ⟨r', e1, e2⟩ := allBits_zeros n l Y h1
      exact ⟨r', by rw [hz, List.replicate_succ', e1]; simp, e2⟩

/-- An RBSP ends in a byte that is not zero, apart from the cabac_zero_words. -/
theorem rbsp_end {rbsp : List UInt8} {X : List Bool} {k n : Nat} (hk : k ≤ 7)
    (h : allBits rbsp = X ++ trailingBits k ++ List.replicate (8 * n) false) :
    ∃ base b, rbsp = base ++ [b] ++ List.replicate n 0 ∧ b ≠ 0 := by
  obtain ⟨r', e1, e2⟩ := allBits_zeros n rbsp _ h
  rcases List.eq_nil_or_concat r' with rfl | ⟨l, z, rfl⟩
  · simp [trailingBits] at e2
  · rw [List.concat_eq_append] at e1 e2
    refine ⟨l, z, e1, ?_⟩
    rintro rfl
    have e3 := congrArg List.reverse e2
    rw [allBits_append, show allBits [0] = List.replicate 8 false by decide] at e3
    simp only [trailingBits, List.reverse_append, List.reverse_cons, List.reverse_replicate, List.append_assoc] at e3
    have e4 := congrArg (·[k]?) e3
    rw [List.getElem?_append_left (by simp; omega), List.getElem?_append_right (by simp)] at e4
    rw [List.getElem?_replicate, if_pos (by omega)] at e4
    simp at e4

theorem trailingZeros_end (base : List UInt8) {b : UInt8} (hb : b ≠ 0) : ∀ n, trailingZeros (base ++ [b] ++ List.replicate n 0) = n
  | 0 => by simpa using trailingZeros_append_ne base hb
  | n + 1 => by
    rw [List.replicate_succ', ← List.append_assoc, trailingZeros_append_zero, trailingZeros_end base hb n]

theorem strip_escapeNal {rbsp : List UInt8} (h : trailingZeros rbsp % 2 = 0) : strip (escapeNal rbsp) = rbsp := by
  unfold escapeNal
  have key := strip_escapeFrom [3] (Or.inr rfl) rbsp 0 (by omega)
  split
  · rename_i hl
    have := pend_trailing rbsp
    have h0 : trailingZeros rbsp ≠ 0 := by
      rcases List.eq_nil_or_concat rbsp with rfl | ⟨l, z, rfl⟩
      · simp at hl
      · rw [List.concat_eq_append] at hl ⊢
        simp only [List.getLast?_append, List.getLast?_singleton, Option.some_or, Option.some.injEq] at hl
        rw [hl, trailingZeros_append_zero]; omega
    rw [this.2 h0, if_pos h, if_pos rfl] at key
    simpa [zs, escape] using key
  · exact strip_escape rbsp

theorem escapeFrom_getLast : ∀ (r : List UInt8) (z : Nat), (escapeFrom z r).getLast? = r.getLast?
  | [], _ => rfl
  | b :: r, z => by
    simp only [escapeFrom]
    split
    · rw [List.getLast?_cons_cons, List.getLast?_cons, List.getLast?_cons, escapeFrom_getLast r]
    · rw [List.getLast?_cons, List.getLast?_cons, escapeFrom_getLast r]

theorem escapeNal_carriable {rbsp : List UInt8} (h : rbsp ≠ []) : Carriable (escapeNal rbsp) := by
  unfold escapeNal
  have h0 := C11_escape_no_start_code rbsp 1 (by decide)
  have hl : (escape rbsp).getLast? = rbsp.getLast? := escapeFrom_getLast rbsp 0
  split
  · refine ⟨by simp, ?_, by simp⟩
    rintro j ⟨a, b, c⟩
    rcases Nat.lt_trichotomy (j + 2) (escape rbsp).length with hlt | heq | hgt
    · rw [List.getElem?_append_left (by omega)] at a b c
      exact h0 j ⟨a, b, c⟩
    · rw [List.getElem?_append_right (by omega), heq] at c
      simp at c
    · rw [List.getElem?_append_right (by omega)] at c
      rw [List.getElem?_eq_none (by simp; omega)] at c
      cases c
  · rename_i hz
    refine ⟨?_, h0, by rw [hl]; exact hz⟩
    intro he
    rw [he] at hl
    cases rbsp with
    | nil => exact h rfl
    | cons a t => simp [List.getLast?_cons] at hl

/-! ### One NAL unit -/

/-- The payload parser on a coded payload. -/
theorem unit_payload (nd : Bool) {σ σ' : Store} (hσ : σ.Valid) {h : NalHeader} (ho : h.Ok) {bits : List Bool} {p : Payload}
    (hu : UnitSyntax σ h bits p σ') {k m : Nat} (hk : k ≤ 7) (hm : m ≠ 0 → h.nal_unit_type ∈ [1, 2, 3, 4, 5, 19, 20]) (c : Nat) :
    ∃ s', runL nd (parsePayload σ h) ⟨bits ++ trailingBits k ++ List.replicate (16 * m) false, c⟩ = .ok (p, σ') s' := by
  rw [runL_payload]
  have hm0 : ∀ t, h.nal_unit_type = t → t ∉ [1, 2, 3, 4, 5, 19, 20] → List.replicate (16 * m) false = [] := by
    intro t ht hn
    by_cases h0 : m = 0
    · rw [h0]; rfl
    · exact absurd (ht ▸ hm h0) hn
  cases hu with
  | sps x ht ok =>
    rw [if_neg (by omega), if_pos ht]
    obtain ⟨s', hs⟩ := (sps_iff nd ⟨encSps x ++ trailingBits k ++ List.replicate (16 * m) false, c⟩ x.state).mpr
      ⟨_, by rw [List.append_assoc]; exact spsData_complete nd ok _ c⟩
    rw [hs]
    exact ⟨s', rfl⟩
  | pps x ht ok =>
    rw [if_neg (by omega), if_neg (by omega), if_pos ht, hm0 8 ht (by decide), List.append_nil]
    obtain ⟨s', hs⟩ := pps_complete nd ok (trailingBits k) c (by
      cases hx : x.ext with
      | none => simp only [encOpt, List.nil_append, Option.isSome]; exact (moreData_false _).mpr (Or.inr ⟨k, hk, rfl⟩)
      | some e => exact encPpsExt_not_trailing e _)
    rw [hs]
    exact ⟨s', rfl⟩
  | subset x ht ok =>
    rw [if_neg (by omega), if_neg (by omega), if_neg (by omega), if_neg (by omega), if_pos ht, hm0 15 ht (by decide),
      List.append_nil]
    obtain ⟨s', hs⟩ := subset_complete nd c ok (l := encSubset x ++ trailingBits k) rfl (fun _ => ⟨k, hk, rfl⟩)
    rw [hs]
    exact ⟨s', rfl⟩
  | slice sh p s data ht h1 h2 ok =>
    rw [if_pos ht]
    have he : encSlice σ sh = encSliceHeader s p sh := by simp only [encSlice, h1, h2]
    have hc := (codec_sliceHeader hσ.inRange h.nal_ref_idc h.nal_unit_type).parse_append nd (a := sh) ⟨p, s, h1, h2, ok⟩
      (data ++ (trailingBits k ++ List.replicate (16 * m) false)) c
    rw [he] at hc
    unfold parseSliceLayer
    simp only [List.append_assoc]
    rw [runL_bind, hc]
    exact ⟨_, rfl⟩
  | scalable sh x data ht hx ok hd =>
    rw [if_neg (by omega), if_neg (by omega), if_neg (by omega), if_neg (by omega), if_neg (by omega), if_pos ht]
    have hext := ho.ext
    rw [if_pos (Or.inr ht)] at hext
    have hc := (codec_scalHeader hσ (n := h) (fun e he => by
        obtain ⟨_, e', h1, h2⟩ := hext
        rw [h1] at he; cases he; exact h2)).parse_append nd (a := sh) ⟨x, hx, (scal_ok_iff hd).mp ok⟩
      (data ++ (trailingBits k ++ List.replicate (16 * m) false)) c
    rw [encScal_eq hx] at hc
    unfold parseSliceLayerExt
    simp only [List.append_assoc]
    rw [if_pos (by rw [hext.1]; decide), runL_bind, runL_attempt, hc]
    simp only [Out.bind, pure_eq, runL_ret, hext.1, ht, ho.not_3davc.2]
    exact ⟨_, rfl⟩
  | pre x e ht he ok h0 =>
    rw [if_neg (by omega), if_neg (by omega), if_neg (by omega), if_pos ht, hm0 14 ht (by decide), List.append_nil]
    have hext := ho.ext
    rw [if_pos (Or.inl ht)] at hext
    obtain ⟨hf, e', h1, h2⟩ := hext
    rw [he] at h1; cases h1
    obtain ⟨s', hs⟩ := prefix_complete nd h2.use_ref_base_pic_flag ok hk h0 c
    unfold parsePrefixPayload
    rw [if_pos (by rw [hf]; decide), he]
    simp only
    rw [hf, runL_attempt, hs]
    exact ⟨_, rfl⟩
  | other _ ht =>
    simp only [List.mem_cons, List.not_mem_nil, or_false, not_or] at ht
    rw [if_neg (by omega), if_neg (by omega), if_neg (by omega), if_neg (by omega), if_neg (by omega), if_neg (by omega)]
    exact ⟨_, rfl⟩

/-- The same for the units that consist of a header. -/
theorem unit_payload_empty (nd : Bool) {σ σ' : Store} {h : NalHeader} (ho : h.Ok) {p : Payload}
    (hu : UnitSyntax σ h [] p σ') (ht : h.nal_unit_type = 10 ∨ h.nal_unit_type = 11 ∨ (h.nal_unit_type = 14 ∧ h.nal_ref_idc = 0))
    (l : List Bool) (c : Nat) :
    runL nd (parsePayload σ h) ⟨l, c⟩ = .ok (p, σ') ⟨l, c⟩ := by
  rw [runL_payload]
  generalize hbits : ([] : List Bool) = bits at hu
  cases hu with
  | sps x ht' ok => omega
  | pps x ht' ok => omega
  | subset x ht' ok => omega
  | slice sh p s data ht' h1 h2 ok => omega
  | scalable sh x data ht' hx ok hd => omega
  | pre x e ht' he ok h0 =>
    rw [if_neg (by omega), if_neg (by omega), if_neg (by omega), if_pos ht']
    have hr : h.nal_ref_idc = 0 := by omega
    have hext := ho.ext
    rw [if_pos (Or.inl ht')] at hext
    obtain ⟨hf, e', h1, h2⟩ := hext
    rw [he] at h1; cases h1
    unfold parsePrefixPayload
    rw [if_pos (by rw [hf]; decide), he]
    simp only
    have o1 := ok.store
    have o2 := ok.ext
    rw [if_neg (by simpa using hr)] at o1 o2
    have hx := h0 hr
    rw [hf, hr, runL_attempt, prefix_empty]
    simp only [PrefixSyn.state, o1, o2, hx, List.getLastD]
  | other _ ht' =>
    simp only [List.mem_cons, List.not_mem_nil, or_false, not_or] at ht'
    rw [if_neg (by omega), if_neg (by omega), if_neg (by omega), if_neg (by omega), if_neg (by omega), if_neg (by omega)]

/-- The payload parser on a coded payload and its ending. -/
theorem unit_ending (nd : Bool) {σ σ' : Store} (hσ : σ.Valid) {h : NalHeader} (ho : h.Ok) {bits tail : List Bool} {p : Payload}
    (hu : UnitSyntax σ h bits p σ') (he : Ending h bits tail) (c : Nat) :
    ∃ s', runL nd (parsePayload σ h) ⟨bits ++ tail, c⟩ = .ok (p, σ') s' := by
  cases he with
  | stop k m hk hm =>
    rw [← List.append_assoc]
    exact unit_payload nd hσ ho hu hk hm c
  | empty hb ht =>
    subst hb
    exact ⟨_, unit_payload_empty nd ho hu (by omega) _ c⟩

theorem unit_valid {σ σ' : Store} (hσ : σ.Valid) {h : NalHeader} (ho : h.Ok) {bits : List Bool} {p : Payload}
    (hu : UnitSyntax σ h bits p σ') : σ'.Valid := by
  obtain ⟨s', hs⟩ := unit_payload false hσ ho hu (k := 0) (m := 0) (by omega) (by simp) 0
  exact payload_valid false hσ h hs

/-- The RBSP of a NAL unit ends in a byte that is not zero, apart from an even number of zero bytes. -/
theorem coded_end {h : NalHeader} (ho : h.Ok) {bits tail : List Bool} {rbsp : List UInt8} (he : Ending h bits tail)
    (hb : allBits rbsp = encNalHeader h ++ bits ++ tail) : ∃ m base b, rbsp = base ++ [b] ++ List.replicate (2 * m) 0 ∧ b ≠ 0 := by
  cases he with
  | stop k m hk hm =>
    refine ⟨m, rbsp_end (X := encNalHeader h ++ bits) hk (by rw [hb, show 8 * (2 * m) = 16 * m by omega, List.append_assoc, List.append_assoc, List.append_assoc])⟩
  | empty hn ht =>
    refine ⟨0, ?_⟩
    rw [hn, List.append_nil, List.append_nil] at hb
    unfold encNalHeader at hb
    rcases ht with h1 | h1 | ⟨h1, _, h3⟩
    · rw [if_neg (by omega), h1, List.append_nil, show encU 5 10 = [false, true, false] ++ trailingBits 1 by decide,
        ← List.append_assoc] at hb
      exact rbsp_end (k := 1) (n := 0) (by decide) (by rw [hb, show 8 * 0 = 0 from rfl, List.replicate_zero, List.append_nil])
    · rw [if_neg (by omega), h1, List.append_nil, show encU 5 11 = [false, true, false, true] ++ trailingBits 0 by decide,
        ← List.append_assoc] at hb
      exact rbsp_end (k := 0) (n := 0) (by decide) (by rw [hb, show 8 * 0 = 0 from rfl, List.replicate_zero, List.append_nil])
    · have hext := ho.ext
      rw [if_pos (Or.inl h1)] at hext
      obtain ⟨hf, e, he, _⟩ := hext
      rw [if_pos (Or.inl h1), he] at hb
      simp only [encSvcHeaderExt] at hb
      rw [h3 e he, show encU 2 3 = [true] ++ trailingBits 0 by decide] at hb
      simp only [← List.append_assoc] at hb
      exact rbsp_end (k := 0) (n := 0) (by decide) (by rw [hb, show 8 * 0 = 0 from rfl, List.replicate_zero, List.append_nil])

/-- A coded NAL unit can be carried in an Annex B stream. -/
theorem coded_carriable {σ σ' : Store} {h : NalHeader} {nal : List UInt8} {p : Payload} (hc : CodedNal σ h nal p σ') :
    Carriable nal := by
  obtain ⟨ho, bits, tail, rbsp, _, he, hb, rfl⟩ := hc
  obtain ⟨m, base, b, hr, _⟩ := coded_end ho he hb
  refine escapeNal_carriable ?_
  rw [hr]; simp

/-- The payload of the specification has all of its parts. -/
theorem unit_complete {σ σ' : Store} {h : NalHeader} {bits : List Bool} {p : Payload} (hu : UnitSyntax σ h bits p σ') :
    Complete h.nal_unit_type p := by
  unfold Complete Payload.isPayloadParsed
  cases hu with
  | sps x ht ok => rw [ht]; exact ⟨rfl, fun _ h => by cases h⟩
  | pps x ht ok => rw [ht]; exact ⟨rfl, fun _ h => by cases h⟩
  | subset x ht ok => rw [ht]; exact ⟨rfl, fun _ h => by cases h⟩
  | slice sh p s data ht h1 h2 ok => rcases ht with ht | ht <;> rw [ht] <;> exact ⟨rfl, fun _ h => by cases h⟩
  | scalable sh x data ht hx ok hd => rw [ht]; exact ⟨rfl, fun _ _ h => by cases h; exact .inr rfl⟩
  | pre x e ht he ok h0 => rw [ht]; exact ⟨rfl, fun _ h => by cases h⟩
  | other _ ht =>
    simp only [List.mem_cons, List.not_mem_nil, or_false, not_or] at ht
    refine ⟨by simp [ht], fun _ h => absurd h ht.2.2.2.2.2.2⟩

/-- C51: ParseNalUnit returns the header and the payload that the encoder put into the NAL unit, the parameter sets are then what
the encoder says, and nothing is counted as unimplemented.  (In builds with assertions a NAL unit must be shorter than 4 GiB.) -/
theorem C51_nal_unit (nd : Bool) (opts : ParsingOptions) {σ σ' : Store} (hσ : σ.Valid) {h : NalHeader} {nal : List UInt8}
    {p : Payload} (hc : CodedNal σ h nal p σ') (hl : nal.length < 2 ^ 32) (c : Nat) :
    ∃ n, parseNalUnit nd opts nal 0 nal.length σ c = .val (some n, σ', c) ∧
      n.nal_unit_header = h ∧ n.nal_unit_payload = p := by
  obtain ⟨ho, bits, tail, rbsp, hu, he, hb, rfl⟩ := hc
  obtain ⟨m, base, b, hr, hb0⟩ := coded_end ho he hb
  have hs : strip (escapeNal rbsp) = rbsp := strip_escapeNal (by rw [hr, trailingZeros_end base hb0]; omega)
  have hlen := strip_length (escapeNal rbsp)
  rw [hs] at hlen
  rw [parseNalUnit_eqL (by omega) (by omega), List.drop_zero, List.take_length, hs]
  rw [if_pos (by unfold Fits; split <;> omega)]
  unfold nalUnitL
  rw [hb, List.append_assoc, codec_nalHeader.parse_append nd ho]
  simp only
  obtain ⟨s', hp⟩ := unit_ending nd hσ ho hu he c
  have hk : s'.cnt = c := by
    rcases (payload_counter nd σ σ' h _ s' p hp).1 with hk | ⟨_, _, hk⟩
    · exact hk
    · exact absurd (unit_complete hu) hk
  rw [hp]
  dsimp only
  rw [hk]
  exact ⟨_, rfl, rfl, rfl⟩

/-! ### Streams -/

/-- Whatever the offsets are, the units are parsed one by one. -/
theorem coded_units (nd : Bool) (opts : ParsingOptions) {σ σ' : Store} {us : List (Bool × List UInt8)}
    {hps : List (NalHeader × Payload)} (hs : CodedStream σ us hps σ') :
    ∀ (_ : σ.Valid) (_ : ∀ u ∈ us, u.2.length < 2 ^ 32) (ixs : List (Nat × List UInt8)) (_ : ixs.map Prod.snd = us.map Prod.snd) (c : Nat),
    ∃ ns, InOrder (fun b => parseNalUnit nd opts b 0 b.length) ixs σ c ns σ' c ∧
      ns.map (fun n => (n.nal_unit_header, n.nal_unit_payload)) = hps ∧
      ns.map (fun n => (n.offset, n.length)) = ixs.map (fun u => (u.1, u.2.length)) := by
  induction hs with
  | nil σ =>
    intro _ _ ixs hi c
    have : ixs = [] := by simpa using hi
    subst this
    exact ⟨[], .nil _ _, rfl, rfl⟩
  | @cons σ σ1 σ2 long nal h p us hps hc hr ih =>
    intro hσ hl ixs hi c
    cases ixs with
    | nil => simp at hi
    | cons ix ixs =>
      obtain ⟨o, by'⟩ := ix
      simp only [List.map_cons, List.cons.injEq] at hi
      obtain ⟨rfl, hi⟩ := hi
      obtain ⟨n, h1, h2, h3⟩ := C51_nal_unit nd opts hσ hc (hl (long, by') (by simp)) c
      have hv : σ1.Valid := by
        obtain ⟨ho, bits, _, _, hu, _⟩ := hc
        exact unit_valid hσ ho hu
      obtain ⟨ns, h4, h5, h6⟩ := ih hv (fun u hu => hl u (by simp [hu])) ixs hi c
      refine ⟨_, .unit h1 h4, ?_, ?_⟩
      · rw [List.map_cons, h5]; simp only [h2, h3]
      · rw [List.map_cons, h6]; rfl

theorem annexBUnits_snd : ∀ (us : List (Bool × List UInt8)) (pos : Nat), (annexBUnits pos us).map Prod.snd = us.map Prod.snd
  | [], _ => rfl
  | (_, u) :: r, pos => by simp only [annexBUnits, List.map_cons, annexBUnits_snd r]

theorem coded_all_carriable {σ σ' : Store} {us : List (Bool × List UInt8)} {hps : List (NalHeader × Payload)}
    (hs : CodedStream σ us hps σ') : ∀ u ∈ us, Carriable u.2 := by
  induction hs with
  | nil => simp
  | cons hc _ ih =>
    intro u hu
    simp only [List.mem_cons] at hu
    rcases hu with rfl | hu
    · exact coded_carriable hc
    · exact ih u hu

theorem annexB_length_le : ∀ (us : List (Bool × List UInt8)), ∀ u ∈ us, u.2.length ≤ (annexB us).length
  | [], _, h => by simp at h
  | (long, x) :: r, u, h => by
    simp only [List.mem_cons] at h
    simp only [annexB, List.length_append]
    rcases h with rfl | h
    · simp only; omega
    · have := annexB_length_le r u h; omega

/-- C51: ParseBitstream, on the Annex B stream that an encoder writes, returns the headers and payloads the encoder put into it,
one NAL unit for each, at the place where it is; the parameter sets are then what the encoder says, and nothing is counted as
unimplemented. -/
theorem C51_stream (nd : Bool) (opts : ParsingOptions) {σ σ' : Store} (hσ : σ.Valid) {us : List (Bool × List UInt8)}
    {hps : List (NalHeader × Payload)} (hs : CodedStream σ us hps σ') (hl : (annexB us).length < 2 ^ 32) (c : Nat) :
    ∃ bs, parseBitstream nd opts (annexB us) σ c = .val (bs, σ', c) ∧
      bs.nal_units.map (fun n => (n.nal_unit_header, n.nal_unit_payload)) = hps ∧
      bs.nal_units.map (fun n => (n.offset, n.length)) = (annexBUnits 0 us).map (fun u => (u.1, u.2.length)) := by
  have hu := coded_all_carriable hs
  obtain ⟨ns, h1, h2, h3⟩ := coded_units nd opts hs hσ
    (fun u hu' => by have := annexB_length_le us u hu'; omega) (annexBUnits 0 us) (annexBUnits_snd us 0) c
  exact ⟨⟨{}, ns⟩, (C18_annexB nd opts us hu (by omega) σ c _ σ' c).mpr ⟨rfl, h1⟩, h2, h3⟩

theorem framed_length_le (k : Nat) : ∀ (us : List (List UInt8)), ∀ u ∈ us, u.length ≤ (framed k us).length
  | [], _, h => by simp at h
  | x :: r, u, h => by
    simp only [List.mem_cons] at h
    simp only [framed, List.length_append]
    rcases h with rfl | h
    · omega
    · have := framed_length_le k r u h; omega

theorem framedUnits_snd (k : Nat) : ∀ (us : List (List UInt8)) (pos : Nat), (framedUnits k pos us).map Prod.snd = us
  | [], _ => rfl
  | u :: r, pos => by simp only [framedUnits, List.map_cons, framedUnits_snd k r]

/-- C51: the same for ParseBitstreamNALULength on the length-prefixed form of the stream, with prefixes of any size. -/
theorem C51_length_stream (nd : Bool) (opts : ParsingOptions) {σ σ' : Store} (hσ : σ.Valid) {us : List (Bool × List UInt8)}
    {hps : List (NalHeader × Payload)} (hs : CodedStream σ us hps σ') {k : Nat} (hk : 0 < k)
    (hk2 : ∀ u ∈ us, u.2.length < 256 ^ k) (hl : (framed k (us.map Prod.snd)).length < 2 ^ 32) (c : Nat) :
    ∃ bs, parseBitstreamNALULength nd opts (framed k (us.map Prod.snd)) k σ c = .val (bs, σ', c) ∧
      bs.nal_units.map (fun n => (n.nal_unit_header, n.nal_unit_payload)) = hps ∧
      bs.nal_units.map (fun n => n.offset) = (framedUnits k 0 (us.map Prod.snd)).map (fun u => u.1) := by
  have hu := coded_all_carriable hs
  obtain ⟨ns, h1, h2, h3⟩ := coded_units nd opts hs hσ
    (fun u hu' => by
      have := framed_length_le k (us.map Prod.snd) u.2 (List.mem_map.mpr ⟨u, hu', rfl⟩)
      omega) (framedUnits k 0 (us.map Prod.snd)) (framedUnits_snd k _ 0) c
  refine ⟨⟨{}, ns.map (fun n => { n with length := k })⟩,
    (C17_framed_partial nd opts (us.map Prod.snd) hk ?_ (by omega) σ c _ σ' c).mpr ⟨rfl, ns, h1, rfl⟩, ?_, ?_⟩
  · intro u hu'
    obtain ⟨x, hx, rfl⟩ := List.mem_map.mp hu'
    exact ⟨(hu x hx).nonempty, hk2 x hx⟩
  · rw [List.map_map, ← h2]; rfl
  · rw [List.map_map]
    have := congrArg (List.map Prod.fst) h3
    rw [List.map_map, List.map_map] at this
    exact this

/-! ### Every payload can be sent -/

/-- Any header and payload bits have an RBSP. -/
theorem rbsp_exists (X : List Bool) : ∃ rbsp k, k ≤ 7 ∧ allBits rbsp = X ++ trailingBits k := by
  obtain ⟨bs, t, h1, h2, h3⟩ := bytes_of_bits (X ++ trailingBits (7 - X.length % 8)).length _ rfl
  have hl : (X ++ trailingBits (7 - X.length % 8)).length = 8 * ((X.length / 8) + 1) := by
    simp only [List.length_append, trailingBits, List.length_cons, List.length_replicate]; omega
  have : t = [] := by
    have := congrArg List.length h1
    rw [hl, List.length_append, length_allBits] at this
    rw [hl] at h3
    exact List.eq_nil_of_length_eq_zero (by omega)
  subst this
  exact ⟨bs, 7 - X.length % 8, by omega, by rw [h1, List.append_nil]⟩

/-- So for every payload there is a NAL unit that carries it: `C51_nal_unit` and `C51_stream` say something about every header
and payload of the specification. -/
theorem C51_every_unit {σ σ' : Store} {h : NalHeader} (ho : h.Ok) {bits : List Bool} {p : Payload}
    (hu : UnitSyntax σ h bits p σ') : ∃ nal, CodedNal σ h nal p σ' := by
  obtain ⟨rbsp, k, hk, hr⟩ := rbsp_exists (encNalHeader h ++ bits)
  exact ⟨_, ho, bits, _, rbsp, hu, .stop k 0 hk (by simp), by simpa using hr, rfl⟩

/-! ### Example: an SPS, an SEI message, a PPS, a B slice with slice data and a cabac_zero_word, and the end of the sequence -/

def exStreamSps : SpsSyn := { exSps with tail := exSliceSps.toSpsTail }
def exStreamPps : PpsSyn := { head := exSlicePps.toPpsHead, ext := none }
def exStreamLayer : SliceLayer := { nal_ref_idc := 2, nal_unit_type := 1, slice_header := some exSlice }
def exHdr (ref type : Nat) : NalHeader := { nal_ref_idc := ref, nal_unit_type := type }
/-- Pack bits into bytes. -/
def packBits (l : List Bool) : List UInt8 := (List.range (l.length / 8)).map (fun i => UInt8.ofNat (bitsVal ((l.drop (8 * i)).take 8)))
/-- An RBSP. -/
def exRbsp (h : NalHeader) (bits : List Bool) (m : Nat) : List UInt8 :=
  packBits (encNalHeader h ++ bits ++ trailingBits (7 - (encNalHeader h ++ bits).length % 8) ++ List.replicate (16 * m) false)

theorem exCoded {σ σ' : Store} {h : NalHeader} (ho : h.Ok) {bits : List Bool} {p : Payload} (hu : UnitSyntax σ h bits p σ') (m : Nat)
    (hm : m ≠ 0 → h.nal_unit_type ∈ [1, 2, 3, 4, 5, 19, 20])
    (hb : allBits (exRbsp h bits m) =
      encNalHeader h ++ bits ++ trailingBits (7 - (encNalHeader h ++ bits).length % 8) ++ List.replicate (16 * m) false) :
    CodedNal σ h (escapeNal (exRbsp h bits m)) p σ' := ⟨ho, bits, _, _, hu, .stop (7 - (encNalHeader h ++ bits).length % 8) m (by omega) hm, by rw [hb]; simp only [List.append_assoc], rfl⟩

theorem exHdr_ok {ref type : Nat} (h1 : ref < 4) (h2 : type < 14) : (exHdr ref type).Ok :=
  ⟨Nat.zero_lt_two, h1, by show type < 32; omega, ⟨by show type ≠ 21; omega, rfl⟩, by
    rw [if_neg (by show ¬ (type = 14 ∨ type = 20); omega)]; exact ⟨rfl, rfl⟩⟩

theorem exStreamSps_ok : exStreamSps.Ok := by
  refine ⟨exSps_ok.head, exSps_ok.count, exSps_ok.lists, ?_⟩
  exact (exStore_inRange.sps 3 exSliceSps rfl).2

theorem exStreamPps_ok : exStreamPps.Ok 1 := by
  refine ⟨(exStore_inRange.pps 9 exSlicePps rfl), ?_⟩
  intro e he; cases he

/-- The data bits of the slice. -/
def exSliceData : List Bool := [true, false, false, true, true, false, true]

def exStreamUnits : List (Bool × List UInt8) :=
  [(true, escapeNal (exRbsp (exHdr 3 7) (encSps exStreamSps) 0)),
   (false, escapeNal (exRbsp (exHdr 0 6) [false, true, true] 0)),
   (true, escapeNal (exRbsp (exHdr 3 8) (encPps exStreamPps) 0)),
   (false, escapeNal (exRbsp (exHdr 2 1) (encSliceHeader exStreamSps.state (exStreamPps.state 1) exSlice ++ exSliceData) 1)),
   (false, [10])]

theorem exStream : ∃ σ', CodedStream {} exStreamUnits
    [(exHdr 3 7, { sps := some exStreamSps.state }), (exHdr 0 6, {}), (exHdr 3 8, { pps := some (exStreamPps.state 1) }),
     (exHdr 2 1, { slice_layer_without_partitioning_rbsp := some exStreamLayer }), (exHdr 0 10, {})] σ' := by
  refine ⟨_, .cons (exCoded (exHdr_ok (by decide) (by decide)) (.sps exStreamSps rfl exStreamSps_ok) 0 (by decide) (by decide +kernel)) <|
    .cons (exCoded (exHdr_ok (by decide) (by decide)) (.other _ (by decide)) 0 (by decide) (by decide +kernel)) <|
    .cons (exCoded (exHdr_ok (by decide) (by decide)) (.pps exStreamPps rfl exStreamPps_ok) 0 (by decide) (by decide +kernel)) <|
    .cons (exCoded (exHdr_ok (by decide) (by decide)) (.slice exSlice _ _ exSliceData (Or.inl rfl) rfl rfl ?_) 1 (by decide) (by decide +kernel)) <|
    .cons ⟨exHdr_ok (by decide) (by decide), [], [], [10], .other _ (by decide), .empty rfl (Or.inl rfl), by decide, by decide⟩ <|
    .nil _⟩
  refine ⟨by constructor <;> decide +kernel, ?_, by decide⟩
  constructor <;> first
    | decide +kernel
    | exact ⟨_, rfl, exTable_ok⟩
    | exact ⟨_, rfl, exMarking_ok⟩
    | exact ⟨_, rfl, by constructor <;> first | decide +kernel | exact ⟨by decide, by decide +kernel⟩⟩

theorem empty_valid : Store.Valid {} := ⟨by simp, by simp, by simp⟩

example (nd : Bool) : ∃ bs σ' c', parseBitstream nd {} (annexB exStreamUnits) {} 0 = .val (bs, σ', c') ∧ bs.nal_units.length = 5 := by
  obtain ⟨σ', h⟩ := exStream
  obtain ⟨bs, h1, h2, _⟩ := C51_stream nd {} empty_valid h (by decide +kernel) 0
  exact ⟨bs, σ', 0, h1, by simpa using congrArg List.length h2⟩

end H264.Props

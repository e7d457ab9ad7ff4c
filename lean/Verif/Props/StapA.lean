import Verif.Spec.StapA
import Verif.Props.Stream
import Verif.Props.Rtp

/-
C41: STAP-A packets.
-/

namespace H264.Props
open H264.Spec Prog

/-! ### Where the parsers stop -/

theorem trailing_end (nd : Bool) {α : Type} (v : α) {k : Nat} (hk : k ≤ 7) {r : List Bool} (hr : r.length % 8 = 0) (c : Nat) :
    runL nd (do let _ ← rbspTrailingBits.attempt; pure v) ⟨trailingBits k ++ r, c⟩ = .ok v ⟨r, c⟩ := by
  rw [runL_bind, runL_attempt, (runL_trailing nd _ c ⟨r, c⟩).mpr ⟨k, r, rfl, by omega, hr, rfl⟩]
  rfl

theorem sps_end (nd : Bool) {x : SpsSyn} (ok : x.Ok) {k : Nat} (hk : k ≤ 7) {r : List Bool} (hr : r.length % 8 = 0) (c : Nat) :
    runL nd parseSps ⟨encSps x ++ (trailingBits k ++ r), c⟩ = .ok x.state ⟨r, c⟩ := by
  unfold parseSps
  rw [runL_bind, spsData_complete nd ok]
  exact trailing_end nd _ hk hr c

theorem pps_end (nd : Bool) {cf : Nat} {x : PpsSyn} (ok : x.Ok cf) {k : Nat} (hk : k ≤ 7) {r : List Bool} (hr : r.length % 8 = 0)
    (hl : x.ext = none → r = []) (c : Nat) :
    runL nd (parsePps cf) ⟨encPps x ++ (trailingBits k ++ r), c⟩ = .ok (x.state cf) ⟨r, c⟩ := by
  have hm : moreData (encOpt encPpsExt x.ext ++ (trailingBits k ++ r)) = x.ext.isSome := by
    cases hx : x.ext with
    | none =>
      rw [hl hx, List.append_nil]
      exact (moreData_false _).mpr (Or.inr ⟨k, hk, rfl⟩)
    | some e => exact encPpsExt_not_trailing e _
  unfold parsePps encPps
  rw [List.append_assoc, runL_bind, codec_ppsHead.parse_append nd ok.head]
  simp only [Out.bind]
  rw [runL_bind, runL_more]
  simp only [Out.bind]
  rw [hm, runL_bind]
  unfold opt PpsSyn.state
  cases hx : x.ext with
  | none =>
    rw [if_neg (by simp)]
    simp only [encOpt, List.nil_append, pure_eq, runL_ret, Out.bind]
    exact trailing_end nd _ hk hr c
  | some e =>
    rw [if_pos (by simp)]
    simp only [encOpt]
    rw [ppsExt_complete nd (ok.ext e hx)]
    simp only [Out.bind]
    exact trailing_end nd _ hk hr c

theorem subset_end (nd : Bool) {x : SubsetSyn} (ok : x.Ok) {k : Nat} (hk : k ≤ 7) {r : List Bool} (hr : r.length % 8 = 0)
    (hl : x.additional_extension2_flag = 1 → r = []) (c : Nat) :
    runL nd parseSubsetSps ⟨encSubset x ++ (trailingBits k ++ r), c⟩ = .ok x.state ⟨r, c⟩ := by
  obtain ⟨d, r', e1, e2, e3, e4⟩ := runL_parseExt2 nd ok.ext2 (x.data.flatMap (encU 1) ++ (trailingBits k ++ r)) c
  have hd : (d.map bitNat).getLastD 0 = x.data.getLastD 0 ∧ r' = trailingBits k ++ r := by
    have := ok.data
    by_cases h1 : x.additional_extension2_flag = 1
    · rw [if_pos h1] at this
      rw [hl h1, List.append_nil] at e4 e1 ⊢
      have hb := bitNat_map this
      have hd := (e4 h1).2 _ k hk rfl
      rw [hd] at e1
      exact ⟨by rw [hd, ← hb.2, hb.1], (List.append_cancel_left e1).symm⟩
    · rw [if_neg h1] at this
      rw [e3 h1, this] at e1
      rw [e3 h1, this]
      exact ⟨rfl, e1.symm⟩
  obtain ⟨hd, rfl⟩ := hd
  have hcat : getChromaArrayType x.sps.state = chromaArrayType x.sps.head :=
    getChromaArrayType_eq (s := x.sps.state) ⟨ok.sps.head, ok.sps.tail⟩
  have hpl : encSubset x ++ (trailingBits k ++ r) = encSps x.sps ++ (encSubsetExt x ++ (encU 1 x.additional_extension2_flag ++
      (x.data.flatMap (encU 1) ++ (trailingBits k ++ r)))) := by
    unfold encSubset; simp only [List.append_assoc]
  rw [hpl]
  unfold parseSubsetSps
  rw [runL_bind, spsData_complete nd ok.sps]
  simp only [Out.bind]
  rw [hcat]
  have key : runL nd (parseSubsetExt x.sps.state.profile_idc (chromaArrayType x.sps.head))
      ⟨encSubsetExt x ++ (encU 1 x.additional_extension2_flag ++ (x.data.flatMap (encU 1) ++ (trailingBits k ++ r))), c⟩ =
      .ok (x.state.seq_parameter_set_svc_extension, x.state.svc_vui_parameters_present_flag, x.state.bit_equal_to_one,
          x.state.mvc_vui_parameters_present_flag)
        ⟨encU 1 x.additional_extension2_flag ++ (x.data.flatMap (encU 1) ++ (trailingBits k ++ r)), c⟩ := by
    show runL nd (parseSubsetExt x.sps.head.profile_idc _) _ = _
    have hm := ok.known
    by_cases hs : svcProfile x.sps.head.profile_idc
    · obtain ⟨h1, h2⟩ := ok.svc hs
      refine (codec_subsetExtSvc hs nd _ c _ _).mpr ⟨⟨⟨x.svc, ?_, h1⟩, ?_, rfl⟩, _, ?_, rfl⟩
      · simp only [SubsetSyn.state, if_pos hs]
      · exact Nat.zero_lt_two
      · simp only [SubsetSyn.state, if_pos hs, encOpt, encSubsetExt, encIf, if_neg hm.1, if_neg hm.2, h2, List.append_nil]
        rw [if_neg (by decide)]
        simp only [List.append_nil, List.append_assoc]
    · rw [parseSubsetExt_none _ hs hm.1 hm.2]
      simp only [encSubsetExt, encIf, if_neg hs, if_neg hm.1, if_neg hm.2, List.append_nil, List.nil_append, runL_ret,
        SubsetSyn.state]
  rw [runL_bind, key]
  simp only [Out.bind]
  rw [runL_bind, e2]
  simp only [Out.bind]
  rw [trailing_end nd _ hk hr c, hd]
  rfl

/-- The payload parser stops at the end of the unit. -/
theorem stapUnit_end (nd : Bool) {σ σ' : Store} {h : NalHeader} (ho : h.Ok) {last : Bool} {bits : List Bool} {p : Payload}
    (hu : StapUnit σ h last bits p σ') {r : List Bool} (hr : r.length % 8 = 0) (hl : last = true → r = []) (c : Nat) :
    runL nd (parsePayload σ h) ⟨bits ++ r, c⟩ = .ok (p, σ') ⟨r, c⟩ := by
  cases hu with
  | sps x k ht ok hk =>
    rw [runL_payload, if_neg (by omega), if_pos ht, List.append_assoc, sps_end nd ok hk hr c]
    rfl
  | pps x k ht ok hk he =>
    rw [runL_payload, if_neg (by omega), if_neg (by omega), if_pos ht, List.append_assoc,
      pps_end nd ok hk hr (fun h => hl (he h)) c]
    rfl
  | subset x k ht ok hk he =>
    rw [runL_payload, if_neg (by omega), if_neg (by omega), if_neg (by omega), if_neg (by omega), if_pos ht, List.append_assoc,
      subset_end nd ok hk hr (fun h => hl (he h)) c]
    rfl
  | header p hu ht => exact unit_payload_empty nd ho hu ht _ c

theorem size16_bits {n : Nat} (h : n < 65536) : allBits (size16 n) = encU 16 n := by
  have e := encU_append 8 8 n
  rw [show 8 + 8 = 16 from rfl, Nat.shiftRight_eq_div_pow] at e
  have h1 : (UInt8.ofNat (n / 256)).toNat = n / 256 := by
    rw [UInt8.toNat_ofNat']; exact Nat.mod_eq_of_lt (by omega)
  have h2 : (UInt8.ofNat (n % 256)).toNat = n % 256 := by
    rw [UInt8.toNat_ofNat']; exact Nat.mod_eq_of_lt (by omega)
  simp only [size16, allBits_cons, allBits_nil, List.append_nil]
  rw [h1, h2, e, encU_mod 8 8 n (Nat.le_refl _)]

theorem runStore_ok {α : Type} (nd : Bool) (σ : Store) {p : Prog (α × Store)} {s : St} (hb : s.buf.WF) {x : α} {σ' : Store}
    {s' : LSt} (h : runL nd p ⟨s.buf.rem, s.cnt⟩ = .ok (x, σ') s') : runStore nd σ p s = .val (some x, σ', toSt s.buf s') := by
  obtain ⟨b, c⟩ := s
  unfold runStore
  rw [run_eq nd p hb, h]
  rfl

theorem runStore_null {α : Type} (nd : Bool) (σ : Store) {p : Prog (α × Store)} {s : St} (hb : s.buf.WF)
    {s' : LSt} (h : runL nd p ⟨s.buf.rem, s.cnt⟩ = .null s') : runStore nd σ p s = .val (none, σ, toSt s.buf s') := by
  obtain ⟨b, c⟩ := s
  unfold runStore
  rw [run_eq nd p hb, h]
  rfl

theorem stapALoop_null (nd : Bool) (σ : Store) {s s' : St} (f : Nat) (h : s.buf.remaining > 0)
    (hn : runStore nd σ (parseStapAUnit σ) s = .val (none, σ, s')) : stapALoop nd (f + 1) σ s = .val (none, σ, s') := by
  unfold stapALoop
  rw [if_pos h, hn]
  rfl

/-- One aggregation unit. -/
theorem stapAUnit_end (nd : Bool) {σ σ' : Store} {h : NalHeader} (ho : h.Ok) {last : Bool} {bits : List Bool} {p : Payload}
    (hu : StapUnit σ h last bits p σ') {nal : List UInt8} (hn : allBits nal = encNalHeader h ++ bits) (hl : nal.length < 65536)
    {r : List Bool} (hr : r.length % 8 = 0) (hl' : last = true → r = []) (c : Nat) :
    runL nd (parseStapAUnit σ) ⟨allBits (size16 nal.length ++ nal) ++ r, c⟩ = .ok ((nal.length, h, p), σ') ⟨r, c⟩ := by
  unfold parseStapAUnit
  rw [allBits_append, size16_bits hl, List.append_assoc, runL_bind, (Codec.u' (n := 16)).parse_append nd (by simpa using hl)]
  simp only [Out.bind]
  rw [runL_bind, runL_remaining]
  simp only [Out.bind]
  rw [runL_bind, runL_guard, if_pos (by rw [List.length_append, length_allBits]; omega)]
  simp only [Out.bind]
  rw [hn, List.append_assoc, runL_bind, codec_nalHeader.parse_append nd ho]
  simp only [Out.bind]
  rw [runL_bind, stapUnit_end nd ho hu hr hl' c]
  rfl

theorem stapLoop_units (nd : Bool) {σ σ' : Store} {us : List (List UInt8)} {hps : List (NalHeader × Payload)}
    (hs : StapUnits σ us hps σ') : ∀ (f : Nat) (s : St), s.buf.WF → s.buf.rem = allBits (stapUnits us) → us.length < f →
      ∃ s', stapALoop nd f σ s = .val (some ((us.zip hps).map fun x => (x.1.length, x.2)), σ', s') ∧ s'.cnt = s.cnt := by
  induction hs with
  | nil σ =>
    intro f s hb hr hf
    cases f with
    | zero => omega
    | succ f =>
      unfold stapALoop
      rw [if_neg (by rw [Buf.remaining_eq hb, hr]; simp [stapUnits])]
      exact ⟨s, rfl, rfl⟩
  | @cons σ σ1 σ2 nal h p bits us hps ho hu hn hl _ ih =>
    intro f s hb hr hf
    cases f with
    | zero => omega
    | succ f =>
      unfold stapALoop
      have hr' : s.buf.rem = allBits (size16 nal.length ++ nal) ++ allBits (stapUnits us) := by
        rw [hr, ← allBits_append]; rfl
      have hne : s.buf.remaining > 0 := by
        rw [Buf.remaining_eq hb, hr']
        simp only [List.length_append, length_allBits, size16, List.length_cons]
        omega
      have h1 := stapAUnit_end nd ho hu hn hl (r := allBits (stapUnits us)) (by rw [length_allBits]; omega) (by
        cases us with
        | nil => intro _; rfl
        | cons a t => intro h; cases h) s.cnt
      rw [← hr'] at h1
      rw [if_pos hne, runStore_ok nd σ hb h1, Res.val_bind]
      dsimp only
      have hk : (allBits (stapUnits us)).length ≤ s.buf.rem.length := by
        rw [hr', List.length_append]; omega
      have hb' : (toSt s.buf ⟨allBits (stapUnits us), s.cnt⟩).buf.WF := hb.adv (by omega)
      have hrem : (toSt s.buf ⟨allBits (stapUnits us), s.cnt⟩).buf.rem = allBits (stapUnits us) := by
        simp only [toSt]
        rw [Buf.rem_adv, hr', List.length_append, Nat.add_sub_cancel, List.drop_left]
      obtain ⟨s', e1, e2⟩ := ih f _ hb' hrem (by simpa using hf)
      rw [e1, Res.val_bind]
      exact ⟨s', rfl, e2⟩

theorem stapIndicator_bits : ∀ f < 2, ∀ nri < 4, allBits [stapIndicator f nri] =
    encNalHeader { forbidden_zero_bit := f, nal_ref_idc := nri, nal_unit_type := 24 } := by decide +kernel

/-- ParseRtp for type 24, from the start of a buffer. -/
theorem parseRtp_24 (nd : Bool) (σ : Store) {bytes : List UInt8} (h : bytes.length < 2 ^ 61) (c : Nat) {hd : NalHeader} {s : LSt}
    (hh : runL nd parseNalHeader ⟨allBits bytes, c⟩ = .ok hd s) (ht : hd.nal_unit_type = 24) :
    parseRtp nd σ ⟨Buf.start bytes, c⟩ =
      (parseRtpStapA nd σ ⟨Buf.start bytes, c⟩).bind fun x =>
        .val (x.1.map fun y => { nal_unit_header := hd, rtp_stapa := some y }, x.2.1, x.2.2) := by
  have hc : s.cnt = c := by
    obtain ⟨_, r, _, rfl⟩ := (codec_nalHeader nd _ c hd s).mp hh
    rfl
  have h23 : ¬ hd.nal_unit_type ≤ 23 := by omega
  unfold parseRtp
  rw [header_start nd h c, hh]
  simp only
  rw [Res.val_bind]
  dsimp only
  rw [seek0_start, if_neg h23, if_pos ht]
  have e1 : ({ buf := Buf.start bytes, cnt := (toSt (Buf.start bytes) s).cnt } : St) = ⟨Buf.start bytes, c⟩ := by
    simp only [toSt, hc]
  rw [e1]
  rfl

/-- ParseRtpStapA from the start of a buffer. -/
theorem parseRtpStapA_start (nd : Bool) (σ : Store) {bytes : List UInt8} (h : bytes.length < 2 ^ 61) (c : Nat) {hd : NalHeader} {s : LSt}
    (hh : runL nd parseNalHeader ⟨allBits bytes, c⟩ = .ok hd s) :
    parseRtpStapA nd σ ⟨Buf.start bytes, c⟩ =
      (stapALoop nd ((toSt (Buf.start bytes) s).buf.remaining + 1) σ (toSt (Buf.start bytes) s)).bind fun x =>
        .val (x.1.map fun xs => { header := hd, nal_units := xs }, x.2.1, x.2.2) := by
  unfold parseRtpStapA
  rw [header_start nd h c, hh]
  simp only
  rw [Res.val_bind]
  dsimp only
  generalize stapALoop nd ((toSt (Buf.start bytes) s).buf.remaining + 1) σ (toSt (Buf.start bytes) s) = q
  cases q with
  | bad e => rfl
  | val x =>
    obtain ⟨x, τ, s1⟩ := x
    cases x <;> rfl

theorem stapUnits_length (us : List (List UInt8)) : us.length ≤ (stapUnits us).length := by
  induction us with
  | nil => simp
  | cons a t ih => simp only [stapUnits, List.length_append, List.length_cons, size16]; omega

theorem strip_none {l : List UInt8} (h : ∀ j, ¬ isEmulationByte l j) : strip l = l := by
  rw [strip_eq, withoutEmulation]
  have : (List.range l.length).filter (fun j => ¬ isEmulationByte l j) = List.range l.length :=
    List.filter_eq_self.mpr fun j _ => by simpa using h j
  rw [this]
  clear this h
  induction l with
  | nil => rfl
  | cons a t ih =>
    rw [List.length_cons, List.range_succ_eq_map, List.filterMap_cons]
    simp only [List.getElem?_cons_zero]
    rw [List.filterMap_map]
    simpa [Function.comp_def] using ih

/-- C41: ParseRtp, on a STAP-A packet of NAL units that end where the library stops reading them (and without bytes that look
like emulation prevention), returns exactly their sizes, headers and payloads, and the parameter sets are then what the encoder
says.  Partial: see `C41_slice_lost`, `C41_delimiter_lost`, `C41_pps_misread`, `C41_emulation_lost` for what is missing. -/
theorem C41_stapa_partial (nd : Bool) {f nri : Nat} (hf : f < 2) (hr : nri < 4) {σ σ' : Store} {us : List (List UInt8)}
    {hps : List (NalHeader × Payload)} (hs : StapUnits σ us hps σ') (he : ∀ j, ¬ isEmulationByte (stapPacket f nri us) j)
    (hl : (stapPacket f nri us).length < 2 ^ 32) (c : Nat) :
    parseRtpData nd (stapPacket f nri us) 0 (stapPacket f nri us).length σ c =
      .val (some { nal_unit_header := { forbidden_zero_bit := f, nal_ref_idc := nri, nal_unit_type := 24 },
                   rtp_stapa := some
                     { header := { forbidden_zero_bit := f, nal_ref_idc := nri, nal_unit_type := 24 },
                       nal_units := (us.zip hps).map fun x => (x.1.length, x.2) } }, σ', c) := by
  have hok := header_ok (t := 24) hf hr (by decide) (by decide)
  have hfit : Fits nd (stapPacket f nri us).length := by unfold Fits; split <;> omega
  unfold parseRtpData
  rw [onData_eq (by omega) (by omega), List.drop_zero, List.take_length, strip_none he, if_pos hfit]
  have e1 : allBits (stapPacket f nri us) =
      encNalHeader { forbidden_zero_bit := f, nal_ref_idc := nri, nal_unit_type := 24 } ++ allBits (stapUnits us) := by
    rw [← stapIndicator_bits f hf nri hr, ← allBits_append]; rfl
  have hh := codec_nalHeader.parse_append nd hok (allBits (stapUnits us)) c
  rw [← e1] at hh
  generalize hhd : ({ forbidden_zero_bit := f, nal_ref_idc := nri, nal_unit_type := 24 } : NalHeader) = hd at hh e1 ⊢
  have h24 : hd.nal_unit_type = 24 := by rw [← hhd]
  rw [parseRtp_24 nd σ (by omega) c hh h24, parseRtpStapA_start nd σ (by omega) c hh]
  have hb := Buf.start_wf (bytes := stapPacket f nri us) (by omega)
  have hb' : (toSt (Buf.start (stapPacket f nri us)) ⟨allBits (stapUnits us), c⟩).buf.WF := hb.adv (by omega)
  have hrem : (toSt (Buf.start (stapPacket f nri us)) ⟨allBits (stapUnits us), c⟩).buf.rem = allBits (stapUnits us) := by
    simp only [toSt]
    rw [Buf.rem_adv, Buf.start_rem, e1, List.length_append, Nat.add_sub_cancel, List.drop_left]
  obtain ⟨s', h1, h2⟩ := stapLoop_units nd hs
    ((toSt (Buf.start (stapPacket f nri us)) ⟨allBits (stapUnits us), c⟩).buf.remaining + 1) _ hb' hrem (by
      rw [Buf.remaining_eq hb', hrem, length_allBits]
      have := stapUnits_length us
      omega)
  rw [h1]
  have h3 : s'.cnt = c := h2
  subst h3
  rfl

/-- C41: the same for ParseRtpStapA. -/
theorem C41_stapa_direct_partial (nd : Bool) {f nri : Nat} (hf : f < 2) (hr : nri < 4) {σ σ' : Store} {us : List (List UInt8)}
    {hps : List (NalHeader × Payload)} (hs : StapUnits σ us hps σ') (he : ∀ j, ¬ isEmulationByte (stapPacket f nri us) j)
    (hl : (stapPacket f nri us).length < 2 ^ 32) (c : Nat) :
    parseRtpStapAData nd (stapPacket f nri us) 0 (stapPacket f nri us).length σ c =
      .val (some { header := { forbidden_zero_bit := f, nal_ref_idc := nri, nal_unit_type := 24 },
                   nal_units := (us.zip hps).map fun x => (x.1.length, x.2) }, σ', c) := by
  have hok := header_ok (t := 24) hf hr (by decide) (by decide)
  have hfit : Fits nd (stapPacket f nri us).length := by unfold Fits; split <;> omega
  have h := C41_stapa_partial nd hf hr hs he hl c
  unfold parseRtpData at h
  unfold parseRtpStapAData
  rw [onData_eq (by omega) (by omega), List.drop_zero, List.take_length, strip_none he, if_pos hfit] at h ⊢
  have e1 : allBits (stapPacket f nri us) =
      encNalHeader { forbidden_zero_bit := f, nal_ref_idc := nri, nal_unit_type := 24 } ++ allBits (stapUnits us) := by
    rw [← stapIndicator_bits f hf nri hr, ← allBits_append]; rfl
  have hh := codec_nalHeader.parse_append nd hok (allBits (stapUnits us)) c
  rw [← e1] at hh
  generalize hhd : ({ forbidden_zero_bit := f, nal_ref_idc := nri, nal_unit_type := 24 } : NalHeader) = hd at hh e1 h ⊢
  have h24 : hd.nal_unit_type = 24 := by rw [← hhd]
  rw [parseRtp_24 nd σ (by omega) c hh h24] at h
  generalize parseRtpStapA nd σ ⟨Buf.start (stapPacket f nri us), c⟩ = q at h ⊢
  cases q with
  | bad e => cases h
  | val x =>
    obtain ⟨x, τ, s⟩ := x
    cases x with
    | none => simp [Res.bind] at h
    | some x =>
      simp only [Res.bind, Option.map_some, Res.val.injEq, Prod.mk.injEq, Option.some.injEq, Rtp.mk.injEq, true_and, and_true] at h
      obtain ⟨h1, h2, h3⟩ := h
      rw [← h2, ← h3, h1]
      rfl

/-- C41: a size that is larger than what is left of the packet makes the first unit, and with it the packet, fail; the
parameter sets are unchanged. -/
theorem C41_size_checked (nd : Bool) {f nri n : Nat} (hf : f < 2) (hr : nri < 4) (hn : n < 65536) {rest : List UInt8}
    (hs : rest.length < n) (he : ∀ j, ¬ isEmulationByte (stapIndicator f nri :: (size16 n ++ rest)) j) (σ : Store) (c : Nat) :
    parseRtpData nd (stapIndicator f nri :: (size16 n ++ rest)) 0 (3 + rest.length) σ c = .val (none, σ, c) := by
  have hok := header_ok (t := 24) hf hr (by decide) (by decide)
  have hlen : (stapIndicator f nri :: (size16 n ++ rest)).length = 3 + rest.length := by
    simp only [size16, List.length_cons, List.length_append, List.length_nil]; omega
  have hfit : Fits nd (3 + rest.length) := by unfold Fits; split <;> omega
  unfold parseRtpData
  rw [← hlen] at hfit ⊢
  rw [onData_eq (by omega) (by omega), List.drop_zero, List.take_length, strip_none he, if_pos hfit]
  have e1 : allBits (stapIndicator f nri :: (size16 n ++ rest)) =
      encNalHeader { forbidden_zero_bit := f, nal_ref_idc := nri, nal_unit_type := 24 } ++ (encU 16 n ++ allBits rest) := by
    rw [← stapIndicator_bits f hf nri hr, ← size16_bits hn, ← allBits_append, ← allBits_append]; rfl
  have hh := codec_nalHeader.parse_append nd hok (encU 16 n ++ allBits rest) c
  rw [← e1] at hh
  generalize hhd : ({ forbidden_zero_bit := f, nal_ref_idc := nri, nal_unit_type := 24 } : NalHeader) = hd at hh e1 ⊢
  have h24 : hd.nal_unit_type = 24 := by rw [← hhd]
  generalize stapIndicator f nri :: (size16 n ++ rest) = packet at *
  rw [parseRtp_24 nd σ (by omega) c hh h24, parseRtpStapA_start nd σ (by omega) c hh]
  have hb := Buf.start_wf (bytes := packet) (by omega)
  have hb' : (toSt (Buf.start packet) ⟨encU 16 n ++ allBits rest, c⟩).buf.WF := hb.adv (by omega)
  have hrem : (toSt (Buf.start packet) ⟨encU 16 n ++ allBits rest, c⟩).buf.rem = encU 16 n ++ allBits rest := by
    simp only [toSt]
    rw [Buf.rem_adv, Buf.start_rem, e1, List.length_append, Nat.add_sub_cancel, List.drop_left]
  have hcnt : (toSt (Buf.start packet) ⟨encU 16 n ++ allBits rest, c⟩).cnt = c := rfl
  generalize toSt (Buf.start packet) ⟨encU 16 n ++ allBits rest, c⟩ = s at hb' hrem hcnt ⊢
  have hne : s.buf.remaining > 0 := by
    rw [Buf.remaining_eq hb', hrem, List.length_append, length_encU]; omega
  have hrun : runL nd (parseStapAUnit σ) ⟨s.buf.rem, s.cnt⟩ = .null ⟨allBits rest, c⟩ := by
    unfold parseStapAUnit
    rw [hrem, hcnt, runL_bind, (Codec.u' (n := 16)).parse_append nd (by simpa using hn)]
    simp only [Out.bind]
    rw [runL_bind, runL_remaining]
    simp only [Out.bind]
    rw [runL_bind, runL_guard, if_neg (by rw [length_allBits]; omega)]
    rfl
  have hst := runStore_null nd σ hb' hrun
  rw [stapALoop_null nd σ _ hne hst]
  rfl

/-! ### Examples -/

theorem exists_dec {α : Type} {x : Res α} {P : α → Prop} [DecidablePred P] (h : x.passes (fun a => decide (P a)) = true) :
    ∃ a, x = .val a ∧ P a := by
  obtain ⟨a, h1, h2⟩ := Res.exists_of_passes h
  exact ⟨a, h1, of_decide_eq_true h2⟩

theorem no_emulation {l : List UInt8} (h : ∀ j < l.length, ¬ isEmulationByte l j) : ∀ j, ¬ isEmulationByte l j := by
  intro j hj
  refine h j ?_ hj
  have := hj.2.2.2
  exact (List.getElem?_eq_some_iff.mp this).1

/-- An SPS without VUI. -/
def exStapSps : SpsSyn :=
  { exStreamSps with
    head := { exStreamSps.head with seq_parameter_set_id := 0 },
    tail := { exStreamSps.tail with vui_parameters_present_flag := 0, vui_parameters := none } }

theorem exStapSps_ok : exStapSps.Ok := by
  refine ⟨by constructor <;> decide +kernel, rfl, exStreamSps_ok.lists, ?_⟩
  constructor <;> first
    | decide +kernel
    | rfl

def exStapSpsNal : List UInt8 := exRbsp (exHdr 3 7) (encSps exStapSps) 0
def exStapPpsExtNal : List UInt8 := exRbsp (exHdr 3 8) (encPps exPps) 0
def exStapPpsNal : List UInt8 := exRbsp (exHdr 3 8) (encPps exStreamPps) 0

/-- An SPS, a PPS with extension, an end of sequence and a PPS without extension. -/
theorem exStapUnits : ∃ σ', StapUnits {} [exStapSpsNal, exStapPpsExtNal, [10], exStapPpsNal]
    [(exHdr 3 7, { sps := some exStapSps.state }), (exHdr 3 8, { pps := some (exPps.state 1) }), (exHdr 0 10, {}),
     (exHdr 3 8, { pps := some (exStreamPps.state 1) })] σ' :=
  ⟨_, .cons (exHdr_ok (by decide) (by decide)) (.sps exStapSps 6 rfl exStapSps_ok (by decide)) (by decide +kernel) (by decide +kernel) <|
    .cons (exHdr_ok (by decide) (by decide)) (.pps exPps 0 rfl exPps_ok (by decide) (by decide)) (by decide +kernel) (by decide +kernel) <|
    .cons (exHdr_ok (by decide) (by decide)) (.header _ (.other _ (by decide)) (Or.inl rfl)) (by decide +kernel) (by decide +kernel) <|
    .cons (exHdr_ok (by decide) (by decide)) (.pps exStreamPps 6 rfl exStreamPps_ok (by decide) (fun _ => rfl)) (by decide +kernel)
      (by decide +kernel) <| .nil _⟩

example (nd : Bool) : ∃ x σ', parseRtpData nd (stapPacket 0 3 [exStapSpsNal, exStapPpsExtNal, [10], exStapPpsNal]) 0 49 {} 0 =
    .val (some x, σ', 0) ∧ x.rtp_stapa.map (fun y => y.nal_units.map (fun z => (z.1, z.2.1.nal_unit_type))) =
      some [(17, 7), (14, 8), (1, 10), (8, 8)] := by
  obtain ⟨σ', h⟩ := exStapUnits
  have := C41_stapa_partial nd (f := 0) (nri := 3) (by decide) (by decide) h (no_emulation (by decide +kernel)) (by decide +kernel) 0
  have hl : (stapPacket 0 3 [exStapSpsNal, exStapPpsExtNal, [10], exStapPpsNal]).length = 49 := by decide +kernel
  rw [hl] at this
  exact ⟨_, σ', this, by decide +kernel⟩

example (nd : Bool) (σ : Store) (c : Nat) : parseRtpData nd [0x78, 0, 3, 10, 11] 0 5 σ c = .val (none, σ, c) :=
  C41_size_checked nd (f := 0) (nri := 3) (n := 3) (rest := [10, 11]) (by decide) (by decide) (by decide) (by decide)
    (no_emulation (by decide)) σ c

/-! ### What is missing -/

/-- A PPS (test/h264_bitstream_parser_unittest.cc:31) and an I slice that refers to it. -/
def exStapPps601 : List UInt8 := [0x68, 0xc8, 0x42, 0x02, 0x32, 0xc8]
def exStapSlice : List UInt8 := [0x41, 0x88, 0x80, 0x82, 0xea, 0xcc, 0x9a, 0x80]

/-- C41 fails for slices: ParseBitstream returns the payloads of this SPS, PPS and slice, but ParseRtp returns null for the packet
that aggregates them.  The slice data is taken for the next size.  The parameter sets have been changed all the same. -/
theorem C41_slice_lost (nd : Bool) :
    (∃ r, parseBitstream nd {} (annexB [(true, exStapSpsNal), (true, exStapPps601), (true, exStapSlice)]) {} 0 = .val r ∧
      r.1.nal_units.map (fun n => (n.nal_unit_header.nal_unit_type, n.nal_unit_payload.isPayloadParsed n.nal_unit_header.nal_unit_type)) =
        [(7, true), (8, true), (1, true)]) ∧
    ∃ r, parseRtpData nd (stapPacket 0 3 [exStapSpsNal, exStapPps601, exStapSlice]) 0 38 {} 0 = .val r ∧
      r.1 = none ∧ (r.2.1.sps 0).isSome ∧ (r.2.1.pps 0).isSome := by
  cases nd <;> exact ⟨exists_dec (by decide +kernel),
    exists_dec (by decide +kernel)⟩

/-- C41 fails for access unit delimiters: the byte after the header is taken for the next size. -/
theorem C41_delimiter_lost (nd : Bool) :
    (∃ r, parseNalUnit nd {} [9, 0xf0] 0 2 {} 0 = .val r ∧ r.1.map (fun n => n.nal_unit_header.nal_unit_type) = some 9) ∧
    (∃ r, parseRtpData nd (stapPacket 0 3 [[9, 0xf0]]) 0 5 {} 0 = .val r ∧ r.1 = none) ∧
    (∃ r, parseRtpData nd (stapPacket 0 3 [[9, 0xf0], exStapSpsNal]) 0 24 {} 0 = .val r ∧ r.1 = none ∧ r.2.1.sps 0 = none) := by
  cases nd <;> exact ⟨exists_dec (by decide +kernel),
    exists_dec (by decide +kernel), exists_dec (by decide +kernel)⟩

/-- C41 fails for a PPS without extension before another unit: the size and header of the next unit are taken for the extension,
and a PPS that was never sent is stored. -/
theorem C41_pps_misread (nd : Bool) :
    ∃ r, parseNalUnit nd {} exStapPps601 0 6 {} 0 = .val r ∧ (r.2.1.pps 0).isSome ∧
    ∃ q, parseRtpData nd (stapPacket 0 3 [exStapPps601, exStapSpsNal]) 0 28 {} 0 = .val q ∧ q.1 = none ∧
      (q.2.1.pps 0).isSome ∧ q.2.1.pps 0 ≠ r.2.1.pps 0 := by
  have h : ∀ nd, ∃ r, parseNalUnit nd {} exStapPps601 0 6 {} 0 = .val r ∧ ((r.2.1.pps 0).isSome ∧
      (parseRtpData nd (stapPacket 0 3 [exStapPps601, exStapSpsNal]) 0 28 {} 0).passes (fun q => decide (q.1 = none ∧
        (q.2.1.pps 0).isSome ∧ q.2.1.pps 0 ≠ r.2.1.pps 0)) = true) := by
    intro nd
    cases nd <;> exact exists_dec (by decide +kernel)
  obtain ⟨r, h1, h2, h3⟩ := h nd
  exact ⟨r, h1, h2, exists_dec h3⟩

/-- C41 fails for NAL units with emulation prevention: it is removed before the sizes are read, so that the last size is larger
than what is left. -/
theorem C41_emulation_lost (nd : Bool) : (∃ r, parseNalUnit nd {} exSpsPacket 0 24 {} 0 = .val r ∧ (r.2.1.sps 0).isSome) ∧
    ∃ r, parseRtpData nd (stapPacket 0 3 [exSpsPacket]) 0 27 {} 0 = .val r ∧ r.1 = none ∧ r.2.1.sps 0 = none := by
  cases nd <;> exact ⟨exists_dec (by decide +kernel), exists_dec (by decide +kernel)⟩

/-- The size is not used to delimit the unit: with a size of 1 the SPS is read all the same. -/
theorem C41_size_ignored (nd : Bool) : ∃ r, parseRtpData nd (stapIndicator 0 3 :: (size16 1 ++ exStapSpsNal)) 0 20 {} 0 = .val r ∧
    r.1.map (fun x => x.rtp_stapa.map (fun y => y.nal_units.map (fun z => (z.1, z.2.2.sps)))) =
      some (some [(1, some exStapSps.state)]) := by
  cases nd <;> exact exists_dec (by decide +kernel)

end H264.Props

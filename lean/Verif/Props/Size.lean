import Verif.SizeLemmas
import Verif.Props.StoreRtp
import Verif.Props.Length
import Verif.ThreadLemmas
import Verif.Props.Modes

/-
C73: what is returned is never much larger than what was parsed.  What is counted is defined in Verif/Spec/Size.lean: the elements of all
the vectors of the returned object.  The bounds hold for any bytes, any parameter sets known before, any options, and both builds.
-/

namespace H264.Props
open H264 H264.Spec Prog

theorem takes_nalHeader : Takes 8 parseNalHeader := by
  unfold parseNalHeader
  exact Takes.bind (n := 1) (m := 7) (Takes.u 1) (fun _ => Takes.bind (n := 2) (m := 5) (Takes.u 2) (fun _ =>
    Takes.bind (n := 5) (m := 0) (Takes.u 5) (fun _ => Takes.any _)))

theorem nalUnitL_entries {nd : Bool} {opts : ParsingOptions} {bytes : List UInt8} {σ σ' : Store} {c c' : Nat} {n : NalUnit}
    (h : nalUnitL nd opts bytes σ c = .val (some n, σ', c')) : payloadEntries n.nal_unit_payload ≤ 8 * bytes.length + 78 := by
  rcases nalUnitL_cases h with ⟨h0, _⟩ | ⟨hd, s, p, s', h1, h2, h3, _⟩
  · cases h0
  · cases h1
    have h4 := takes_nalHeader nd _ _ _ h2
    have h5 := fits_payload σ hd nd _ _ _ h3
    dsimp only at h4 h5 ⊢
    rw [length_allBits] at h4
    omega

/-- C73 for `ParseNalUnit`: at most 8 elements for each byte, and 78 more. -/
theorem C73_nal_unit {nd : Bool} {opts : ParsingOptions} {data : List UInt8} (hl : data.length < 2 ^ 61) {off length : Nat}
    (hb : off + length ≤ data.length) {σ σ' : Store} {c c' : Nat} {n : NalUnit}
    (h : parseNalUnit nd opts data off length σ c = .val (some n, σ', c')) :
    payloadEntries n.nal_unit_payload ≤ 8 * length + 78 := by
  have h1 := nalUnitL_entries (parseNalUnit_val hb hl h)
  have h2 := strip_le ((data.drop off).take length)
  have h3 : ((data.drop off).take length).length ≤ length := by rw [List.length_take]; omega
  omega

theorem inOrder_entries {nd : Bool} {opts : ParsingOptions} {us : List (Nat × List UInt8)} {σ σ' : Store} {c c' : Nat} {ns : List NalUnit}
    (hu : ∀ u ∈ us, u.2.length < 2 ^ 61) (h : InOrder (fun b => parseNalUnit nd opts b 0 b.length) us σ c ns σ' c') :
    ns.length + (ns.map fun n => payloadEntries n.nal_unit_payload).sum ≤ (us.map fun u => 8 * u.2.length + 79).sum := by
  induction h with
  | nil σ c => simp
  | skip h1 h2 ih =>
    have := ih (fun u hu' => hu u (by simp [hu']))
    simp only [List.map_cons, List.sum_cons]
    omega
  | @unit off bytes _ _ _ _ _ _ _ n ns h1 h2 ih =>
    have hb : bytes.length < 2 ^ 61 := hu (off, bytes) (by simp)
    have h3 := ih (fun u hu' => hu u (by simp [hu']))
    have h4 := C73_nal_unit hb (by omega) h1
    simp only [List.map_cons, List.sum_cons, List.length_cons]
    omega

theorem entries_total (l : List UInt8) : ∀ ps : List Nat, ps.Pairwise (· < ·) → (∀ p ∈ ps, isStart l p) →
    ∀ p0, ps.head? = some p0 → ((entries l ps).map fun e => 8 * e.payload_size + 79).sum + 27 * p0 ≤ 27 * l.length
  | [], _, _, _, h => by cases h
  | [p], _, hp, p0, h => by
    obtain rfl := Option.some.inj h
    obtain ⟨⟨h1, h2, h3⟩, h4⟩ := hp p (by simp)
    have : p + 2 < l.length := by
      refine Nat.lt_of_not_le fun hc => ?_
      rw [List.getElem?_eq_none hc] at h3
      cases h3
    simp only [entries, List.map_cons, List.map_nil, List.sum_cons, List.sum_nil]
    omega
  | p :: q :: r, hs, hp, p0, h => by
    obtain rfl := Option.some.inj h
    rw [List.pairwise_cons] at hs
    have h4 := start_gap (hp p (by simp)) (hp q (by simp)) (hs.1 q (by simp))
    have ih := entries_total l (q :: r) hs.2 (fun x hx => hp x (by simp [hx])) q rfl
    have h5 : startOffset l q ≤ q := by unfold startOffset; split <;> omega
    simp only [entries, List.map_cons, List.sum_cons]
    omega

/-- C73 for `ParseBitstream`: at most 27 elements for each byte. -/
theorem C73_stream {nd : Bool} {opts : ParsingOptions} {data : List UInt8} (hl : data.length < 2 ^ 61) {σ σ' : Store} {c c' : Nat}
    {bs : Bitstream} (h : parseBitstream nd opts data σ c = .val (bs, σ', c')) : bitstreamEntries bs ≤ 27 * data.length := by
  have h1 := inOrder_entries (slice_lt hl _) ((C18_in_order nd opts data hl σ c bs σ' c').mp h).2
  have h2 : ((entries data (starts data)).map fun e => 8 * e.payload_size + 79).sum ≤ 27 * data.length := by
    cases hs : starts data with
    | nil => simp [entries]
    | cons p r =>
      have := entries_total data (starts data) (starts_sorted data) (fun p hp => mem_starts.mp hp) p (by rw [hs]; rfl)
      rw [hs] at this
      omega
  have h3 : ∀ es : List NaluIndex, ((es.map fun e => (e.payload_start_offset, sliceOf data e)).map fun u => 8 * u.2.length + 79).sum ≤
      (es.map fun e => 8 * e.payload_size + 79).sum := by
    intro es
    induction es with
    | nil => simp
    | cons e es ih =>
      have : (sliceOf data e).length ≤ e.payload_size := by simp only [sliceOf, List.length_take]; omega
      simp only [List.map_cons, List.sum_cons]
      omega
  have := h3 (entries data (starts data))
  unfold bitstreamEntries
  omega

theorem lengthLoop_entries {nd : Bool} {opts : ParsingOptions} {data : List UInt8} (hl : data.length < 2 ^ 61) {k : Nat} (hk : 0 < k) :
    ∀ f i σ c ns σ' c', i ≤ data.length → parseLengthLoop nd opts data k f i σ c = .val (ns, σ', c') →
      ns.length + (ns.map fun n => payloadEntries n.nal_unit_payload).sum ≤ 44 * (data.length - i) := by
  intro f
  induction f with
  | zero =>
    intro i σ c ns σ' c' hi h
    rw [parseLengthLoop] at h
    split at h
    · cases h
    · cases h; simp
  | succ f ih =>
    intro i σ c ns σ' c' hi h
    rw [parseLengthLoop] at h
    split at h
    · obtain ⟨x, hn, h⟩ := val_of_bind h
      cases x with
      | none => cases h; simp
      | some x =>
        obtain ⟨j, n⟩ := x
        have hj : j = i + k ∧ n ≠ 0 := by
          unfold nextNalu at hn
          rw [if_pos hk] at hn
          obtain ⟨r, hr, hn⟩ := val_of_bind hn
          cases r with
          | none => cases hn
          | some m =>
            have hki : k ≤ data.length - i := by
              unfold readNaluLength at hr
              rw [sub64_eq hi (by omega)] at hr
              refine Nat.le_of_not_lt fun hc => ?_
              rw [if_pos hc] at hr
              cases hr
            dsimp only at hn
            rw [add64_eq (a := i) (by omega)] at hn
            generalize add64 (i + k) m = y at hn
            split at hn
            · cases hn
            · simp only [Res.pure_eq, Res.val.injEq, Option.some.injEq, Prod.mk.injEq] at hn
              omega
        obtain ⟨rfl, h0⟩ := hj
        dsimp only at h
        obtain ⟨⟨r, σ1, c1⟩, h1, h⟩ := val_of_bind h
        have hu : i + k + n ≤ data.length := by
          obtain ⟨bytes, hu, _⟩ := val_of_bind (f := fun bytes => parseNalUnitUnescaped nd opts bytes σ c) h1
          exact (unescape_val hl hu).2 (by omega)
        dsimp only at h
        rw [add64_eq (by omega)] at h
        obtain ⟨⟨ns1, σ2, c2⟩, h2, h⟩ := val_of_bind h
        have h3 := ih _ _ _ _ _ _ hu h2
        cases r with
        | none => cases h; dsimp only; omega
        | some r =>
          have h4 := C73_nal_unit hl hu h1
          cases h
          simp only [List.map_cons, List.sum_cons, List.length_cons]
          omega
    · cases h; simp

/-- C73 for `ParseBitstreamNALULength`, with any size of the prefix. -/
theorem C73_length {nd : Bool} {opts : ParsingOptions} {data : List UInt8} (hl : data.length < 2 ^ 61) {nalu_length_bytes : Nat}
    {σ σ' : Store} {c c' : Nat} {bs : Bitstream}
    (h : parseBitstreamNALULength nd opts data nalu_length_bytes σ c = .val (bs, σ', c')) :
    bitstreamEntries bs ≤ 44 * data.length + 79 := by
  by_cases hk : 0 < nalu_length_bytes
  · unfold parseBitstreamNALULength at h
    obtain ⟨⟨ns, σ1, c1⟩, h1, h⟩ := val_of_bind h
    have h2 := lengthLoop_entries hl hk _ _ _ _ _ _ _ (by omega) h1
    cases h
    unfold bitstreamEntries
    dsimp only
    omega
  · obtain rfl : nalu_length_bytes = 0 := by omega
    by_cases hd : data = []
    · subst hd
      cases h
      simp [bitstreamEntries]
    · obtain ⟨_, n, h1, h2⟩ := (C17_no_prefix_partial nd opts data hl hd σ c bs σ' c').mp h
      unfold bitstreamEntries
      rw [h2]
      cases n with
      | none => simp
      | some n =>
        have := C73_nal_unit hl (by omega) h1
        simp
        omega

theorem stapAUnit_entries {nd : Bool} {σ σ' : Store} {l l' : LSt} {x : Nat × NalHeader × Payload}
    (h : runL nd (parseStapAUnit σ) l = .ok (x, σ') l') : payloadEntries x.2.2 + l'.rem.length + 24 ≤ l.rem.length + 86 := by
  unfold parseStapAUnit at h
  simp only [runL_bind_ok] at h
  obtain ⟨n, s1, h1, r, s2, h2, g, s3, h3, hd, s4, h4, ⟨p, σ1⟩, s5, h5, h⟩ := h
  simp only [Prog.pure_eq, runL_ret, Out.ok.injEq, Prod.mk.injEq] at h
  obtain ⟨⟨rfl, rfl⟩, rfl⟩ := h
  have a1 := Takes.u 16 nd _ _ _ h1
  have a2 := runL_le h2
  have a3 := runL_le h3
  have a4 := takes_nalHeader nd _ _ _ h4
  have a5 := fits_payload σ hd nd _ _ _ h5
  dsimp only at a5 ⊢
  omega

theorem runStore_rem {α : Type} {nd : Bool} {σ σ' : Store} {p : Prog (α × Store)} {s s' : St} {x : α} (hb : s.buf.WF)
    (h : runStore nd σ p s = .val (some x, σ', s')) : s'.buf.WF ∧ runL nd p ⟨s.buf.rem, s.cnt⟩ = .ok (x, σ') ⟨s'.buf.rem, s'.cnt⟩ := by
  obtain ⟨b, c⟩ := s
  have h1 := run_rem nd p hb c
  unfold runStore at h
  generalize run nd p ⟨b, c⟩ = r at *
  cases r with
  | ok a t =>
    obtain ⟨a, τ⟩ := a
    simp only [Res.val.injEq, Prod.mk.injEq, Option.some.injEq] at h
    obtain ⟨rfl, rfl, rfl⟩ := h
    exact ⟨h1.1, h1.2.2⟩
  | null t => cases h
  | bad e => cases h

theorem stapALoop_entries (nd : Bool) : ∀ (f : Nat) {σ σ' : Store} {s s' : St} {xs : List (Nat × NalHeader × Payload)},
    s.buf.WF → stapALoop nd f σ s = .val (some xs, σ', s') →
    3 * xs.length + (xs.map fun u => payloadEntries u.2.2).sum ≤ 4 * s.buf.rem.length := by
  intro f
  induction f with
  | zero => intro σ σ' s s' xs _ h; cases h
  | succ f ih =>
    intro σ σ' s s' xs hb h
    unfold stapALoop at h
    split at h
    · obtain ⟨⟨x, σ1, s1⟩, h1, h⟩ := val_of_bind h
      cases x with
      | none => cases h
      | some x =>
        dsimp only at h
        obtain ⟨⟨ys, σ2, s2⟩, h2, h⟩ := val_of_bind h
        cases ys with
        | none => cases h
        | some ys =>
          cases h
          obtain ⟨hw, h3⟩ := runStore_rem hb h1
          have h4 := stapAUnit_entries h3
          have h5 := ih hw h2
          have h6 := takes_stapAUnit σ nd _ _ _ h3
          simp only [List.map_cons, List.sum_cons, List.length_cons]
          dsimp only at h4 h6
          omega
    · cases h
      simp

theorem stores_single (σ : Store) : Stores (parseRtpSingle σ) (fun x => payloadEntries x.1.nal_unit_payload) 86 := by
  unfold parseRtpSingle
  exact .skip fun hd => .last (fits_payload σ hd) fun x => .pure (by simp)

theorem stores_fuA (σ : Store) (ref : Nat) : Stores (parseRtpFuA σ ref) (fun x => pointee payloadEntries x.1.nal_unit_payload) 86 := by
  unfold parseRtpFuA
  refine .skip fun hd => .skip fun _ => .skip fun _ => .skip fun _ => .skip fun _ => .ite (fun _ => .pure (by simp [pointee])) fun _ => ?_
  exact .last (fits_payload σ _) fun x => .pure (by simp [pointee])

theorem rtp_entries (nd : Bool) {bytes : List UInt8} (hl : bytes.length < 2 ^ 61) {σ σ' : Store} {c : Nat} {s' : St} {x : Rtp}
    (h : parseRtp nd σ ⟨Buf.start bytes, c⟩ = .val (some x, σ', s')) : rtpEntries x ≤ 32 * bytes.length + 86 := by
  have hw := Buf.start_wf hl
  have hr : (Buf.start bytes).rem.length = 8 * bytes.length := by rw [Buf.start_rem, length_allBits]
  unfold parseRtp at h
  obtain ⟨⟨hd, s1⟩, h0, h⟩ := val_of_bind h
  cases hd with
  | none => cases h
  | some hd =>
    have hseek : (s1.buf.seek 0 0).2 = Buf.start bytes := by
      have h2 := run_rem nd parseNalHeader hw c
      generalize run nd parseNalHeader ⟨Buf.start bytes, c⟩ = r at *
      cases r with
      | bad e => cases h0
      | null s => cases h0
      | ok a s =>
        cases h0
        unfold Buf.seek
        rw [if_neg (by simp)]
        have := h2.2.1
        simp only [Buf.start] at this ⊢
        rw [this]
    dsimp only at h
    rw [hseek] at h
    split at h
    · obtain ⟨⟨y, σ2, s2⟩, h2, h⟩ := val_of_bind h
      cases y with
      | none => cases h
      | some y =>
        cases h
        obtain ⟨_, h3⟩ := runStore_rem hw h2
        have h4 := stores_single σ nd _ _ _ h3
        simp only [rtpEntries, pointee]
        dsimp only at h4
        omega
    split at h
    · obtain ⟨⟨y, σ2, s2⟩, h2, h⟩ := val_of_bind h
      cases y with
      | none => cases h
      | some y =>
        cases h
        unfold parseRtpStapA at h2
        obtain ⟨⟨hd', s3⟩, h3, h2⟩ := val_of_bind h2
        cases hd' with
        | none => cases h2
        | some hd' =>
          dsimp only at h2
          obtain ⟨⟨ys, σ3, s4⟩, h4, h2⟩ := val_of_bind h2
          cases ys with
          | none => cases h2
          | some ys =>
            cases h2
            have h6 := run_rem nd parseNalHeader hw s1.cnt
            generalize run nd parseNalHeader ⟨Buf.start bytes, s1.cnt⟩ = r at *
            cases r with
            | bad e => cases h3
            | null s => cases h3
            | ok a s =>
              cases h3
              have h7 := runL_le h6.2.2
              have h5 := stapALoop_entries nd _ h6.1 h4
              simp only [rtpEntries, pointee]
              dsimp only at h7
              omega
    split at h
    · obtain ⟨⟨y, σ2, s2⟩, h2, h⟩ := val_of_bind h
      cases y with
      | none => cases h
      | some y =>
        cases h
        obtain ⟨_, h3⟩ := runStore_rem hw h2
        have h4 := stores_fuA σ _ nd _ _ _ h3
        simp only [rtpEntries, pointee] at h4 ⊢
        omega
    · cases h
      simp [rtpEntries, pointee]

/-- C73 for `ParseRtp`, whatever the number of NAL units in the packet. -/
theorem C73_rtp {nd : Bool} {data : List UInt8} (hl : data.length < 2 ^ 61) {off length : Nat} (hb : off + length ≤ data.length)
    {σ σ' : Store} {c c' : Nat} {x : Rtp} (h : parseRtpData nd data off length σ c = .val (some x, σ', c')) :
    rtpEntries x ≤ 32 * length + 86 := by
  unfold parseRtpData at h
  rw [onData_eq hb hl] at h
  have h2 := strip_le ((data.drop off).take length)
  have h3 : ((data.drop off).take length).length ≤ length := by rw [List.length_take]; omega
  split at h
  · rename_i hf
    cases h1 : parseRtp nd σ ⟨Buf.start (strip ((data.drop off).take length)), c⟩ with
    | bad e => rw [h1] at h; cases h
    | val y =>
      obtain ⟨y, σ1, s1⟩ := y
      rw [h1] at h
      simp only [Res.bind, Res.val.injEq, Prod.mk.injEq] at h
      obtain ⟨rfl, rfl, rfl⟩ := h
      have := rtp_entries nd hf.lt h1
      omega
  · cases h

/-! ### Inputs that meet the hypotheses -/

/-- 21 bytes, a start code and a sequence parameter set with scaling lists, are enough for 91 elements. -/
example (nd : Bool) : ∃ r, parseBitstream nd {} (annexB [(true, exStapSpsNal)]) {} 0 = .val r ∧
    bitstreamEntries r.1 = 91 ∧ (annexB [(true, exStapSpsNal)]).length = 21 ∧ bitstreamEntries r.1 ≤ 27 * 21 := by
  cases nd <;> exact exists_dec (by decide +kernel)

example (nd : Bool) : ∃ r, parseBitstreamNALULength nd {} (17 :: exStapSpsNal ++ 17 :: exStapSpsNal) 1 {} 0 = .val r ∧
    bitstreamEntries r.1 = 182 := by
  cases nd <;> exact exists_dec (by decide +kernel)

example (nd : Bool) : ∃ r, parseRtpData nd (stapPacket 0 3 [exStapSpsNal, exStapSpsNal]) 0
    (stapPacket 0 3 [exStapSpsNal, exStapSpsNal]).length {} 0 = .val r ∧ r.1.any (fun x => rtpEntries x == 186) = true := by
  cases nd <;> exact exists_dec (by decide +kernel)

end H264.Props

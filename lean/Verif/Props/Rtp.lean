import Verif.RtpLemmas
import Verif.Props.Nal

/-
RTP packets: C40, C42.
-/

namespace H264.Props
open H264.Spec Prog

/-! ### The (data, length) overloads on lists -/

theorem onData_eq {α : Type} {nd : Bool} {f : St → Res (α × Store × St)} {data : List UInt8} {off len : Nat}
    (h : off + len ≤ data.length) (hl : data.length < 2 ^ 61) (cnt : Nat) :
    onData nd f data off len cnt =
      if Fits nd (strip ((data.drop off).take len)).length then
        (f ⟨Buf.start (strip ((data.drop off).take len)), cnt⟩).bind fun x => .val (x.1, x.2.1, x.2.2.cnt)
      else .bad .assertFail := by
  have hm := lt_maxVector
  unfold onData
  rw [unescapeRbsp_eq h (by omega), Res.val_bind]
  have hs := strip_length ((data.drop off).take len)
  have hs2 : ((data.drop off).take len).length ≤ data.length := by rw [List.length_take, List.length_drop]; omega
  by_cases hf : Fits nd (strip ((data.drop off).take len)).length
  · rw [if_pos hf, Buf.new_eq hf, Res.val_bind]
    rfl
  · rw [if_neg hf, Buf.new_bad (by omega) hf]
    rfl

/-- `runStore` from the start of a buffer. -/
theorem runStore_start {α : Type} (nd : Bool) (σ : Store) (p : Prog (α × Store)) {bytes : List UInt8} (h : bytes.length < 2 ^ 61)
    (c : Nat) : runStore nd σ p ⟨Buf.start bytes, c⟩ =
      match runL nd p ⟨allBits bytes, c⟩ with
      | .ok (a, σ') s' => .val (some a, σ', toSt (Buf.start bytes) s')
      | .null s' => .val (none, σ, toSt (Buf.start bytes) s')
      | .bad e => .bad e := by
  unfold runStore
  rw [run_eq nd p (Buf.start_wf h), Buf.start_rem]
  cases runL nd p ⟨allBits bytes, c⟩ with
  | ok a s => obtain ⟨a, τ⟩ := a; rfl
  | null s => rfl
  | bad e => rfl

theorem header_start (nd : Bool) {bytes : List UInt8} (h : bytes.length < 2 ^ 61) (c : Nat) :
    (run nd parseNalHeader ⟨Buf.start bytes, c⟩).res =
      match runL nd parseNalHeader ⟨allBits bytes, c⟩ with
      | .ok a s' => .val (some a, toSt (Buf.start bytes) s')
      | .null s' => .val (none, toSt (Buf.start bytes) s')
      | .bad e => .bad e := by
  rw [run_eq nd _ (Buf.start_wf h), Buf.start_rem]
  cases runL nd parseNalHeader ⟨allBits bytes, c⟩ <;> rfl

theorem seek0_start (bytes : List UInt8) (s : LSt) : ((toSt (Buf.start bytes) s).buf.seek 0 0).2 = Buf.start bytes := by
  unfold Buf.seek
  rw [if_neg (by omega)]
  rfl

/-- Everything ParseRtp does for NAL unit types up to 23, from the start of a buffer. -/
theorem parseRtp_single (nd : Bool) (σ : Store) {bytes : List UInt8} (h : bytes.length < 2 ^ 61) (c : Nat) {hd : NalHeader} {s : LSt}
    (hh : runL nd parseNalHeader ⟨allBits bytes, c⟩ = .ok hd s) (ht : hd.nal_unit_type ≤ 23) :
    parseRtp nd σ ⟨Buf.start bytes, c⟩ =
      match runL nd (parsePayload σ hd) s with
      | .ok (p, σ') s' => .val (some { nal_unit_header := hd, rtp_single := some ⟨hd, p⟩ }, σ', toSt (Buf.start bytes) s')
      | .null s' => .val (none, σ, toSt (Buf.start bytes) s')
      | .bad e => .bad e := by
  have hc : s.cnt = c := by
    obtain ⟨_, r, _, rfl⟩ := (codec_nalHeader nd _ c hd s).mp hh
    rfl
  unfold parseRtp
  rw [header_start nd h c, hh]
  simp only
  rw [Res.val_bind]
  dsimp only
  rw [seek0_start, if_pos ht]
  have e1 : ({ buf := Buf.start bytes, cnt := (toSt (Buf.start bytes) s).cnt } : St) = ⟨Buf.start bytes, c⟩ := by
    simp only [toSt, hc]
  rw [e1, runStore_start nd σ _ h c]
  unfold parseRtpSingle
  rw [runL_bind, hh]
  simp only [Out.bind]
  rw [runL_bind]
  cases runL nd (parsePayload σ hd) s with
  | ok a s' => obtain ⟨p, τ⟩ := a; rfl
  | null s' => rfl
  | bad e => rfl

/-- C40: for a packet that ParseNalUnit parses into a NAL unit of type up to 23, ParseRtp returns the same header and payload as a
single NAL unit packet, and leaves the same parameter sets; where ParseNalUnit returns null, so does ParseRtp. -/
theorem C40_single {nd : Bool} {opts : ParsingOptions} {data : List UInt8} {off len : Nat} (h : off + len ≤ data.length)
    (hl : data.length < 2 ^ 61) {σ σ' : Store} {c c' : Nat} {n : Option NalUnit}
    (he : parseNalUnit nd opts data off len σ c = .val (n, σ', c')) (ht : ∀ u ∈ n, u.nal_unit_header.nal_unit_type ≤ 23) :
    parseRtpData nd data off len σ c =
      .val (n.map (fun u => { nal_unit_header := u.nal_unit_header,
                              rtp_single := some ⟨u.nal_unit_header, u.nal_unit_payload⟩ }), σ', c') := by
  unfold parseRtpData
  rw [onData_eq h hl]
  rw [parseNalUnit_eqL h hl] at he
  split at he
  · rename_i hf
    rw [if_pos hf]
    rcases nalUnitL_cases he with ⟨rfl, rfl, s, h1, h2⟩ | ⟨hd, s, p, s', rfl, h1, h2, h3⟩
    · unfold parseRtp
      rw [header_start nd hf.lt c, h1]
      simp only
      rw [Res.val_bind]
      dsimp only
      rw [Res.pure_eq]
      simp only [Res.bind, toSt, h2, Option.map]
    · rw [parseRtp_single nd σ hf.lt c h1 (ht _ rfl), h2]
      simp only [Res.bind, toSt, h3, Option.map]
  · cases he

/-- C40: conversely, a single NAL unit packet is what ParseNalUnit makes of the same bytes. -/
theorem C40_single_conv {nd : Bool} (opts : ParsingOptions) {data : List UInt8} {off len : Nat} (h : off + len ≤ data.length)
    (hl : data.length < 2 ^ 61) {σ σ' : Store} {c c' : Nat} {x : Rtp} {y : RtpSingle}
    (he : parseRtpData nd data off len σ c = .val (some x, σ', c')) (hy : x.rtp_single = some y) :
    ∃ n, parseNalUnit nd opts data off len σ c = .val (some n, σ', c') ∧ x.nal_unit_header = n.nal_unit_header ∧
      y.nal_unit_header = n.nal_unit_header ∧ y.nal_unit_payload = n.nal_unit_payload ∧ n.nal_unit_header.nal_unit_type ≤ 23 ∧
      x.rtp_stapa = none ∧ x.rtp_fua = none := by
  unfold parseRtpData at he
  rw [onData_eq h hl] at he
  rw [parseNalUnit_eqL h hl]
  split at he
  · rename_i hf
    rw [if_pos hf]
    cases hr : runL nd parseNalHeader ⟨allBits (strip ((data.drop off).take len)), c⟩ with
    | bad e =>
      exact absurd hr (safe_nalHeader nd _ e)
    | null s =>
      unfold parseRtp at he
      rw [header_start nd hf.lt c, hr] at he
      simp only at he
      rw [Res.val_bind] at he
      dsimp only at he
      rw [Res.pure_eq] at he
      simp [Res.bind] at he
    | ok hd s =>
      by_cases ht : hd.nal_unit_type ≤ 23
      · rw [parseRtp_single nd σ hf.lt c hr ht] at he
        unfold nalUnitL
        rw [hr]
        simp only
        cases hp : runL nd (parsePayload σ hd) s with
        | bad e => rw [hp] at he; simp [Res.bind] at he
        | null s' => rw [hp] at he; simp [Res.bind] at he
        | ok a s' =>
          obtain ⟨p, τ⟩ := a
          rw [hp] at he
          simp only [Res.bind, Res.val.injEq, Prod.mk.injEq, Option.some.injEq] at he
          obtain ⟨rfl, rfl, rfl⟩ := he
          simp only [Option.some.injEq] at hy
          subst hy
          exact ⟨_, rfl, rfl, rfl, rfl, ht, rfl, rfl⟩
      · exfalso
        unfold parseRtp at he
        rw [header_start nd hf.lt c, hr] at he
        simp only at he
        rw [Res.val_bind] at he
        dsimp only at he
        rw [seek0_start, if_neg ht] at he
        split at he
        · revert he
          generalize parseRtpStapA nd σ _ = r
          cases r with
          | bad e => intro he; cases he
          | val r =>
            obtain ⟨a, b, s2⟩ := r
            rw [Res.val_bind]
            cases a with
            | none => intro he; simp [Res.pure_eq, Res.bind] at he
            | some a =>
              intro he
              simp only [Res.pure_eq, Res.bind, Option.map, Res.val.injEq, Prod.mk.injEq, Option.some.injEq] at he
              rw [← he.1] at hy; cases hy
        · split at he
          · revert he
            generalize runStore nd σ _ _ = r
            cases r with
            | bad e => intro he; cases he
            | val r =>
              obtain ⟨a, b, s2⟩ := r
              rw [Res.val_bind]
              cases a with
              | none => intro he; simp [Res.pure_eq, Res.bind] at he
              | some a =>
                intro he
                simp only [Res.pure_eq, Res.bind, Option.map, Res.val.injEq, Prod.mk.injEq, Option.some.injEq] at he
                rw [← he.1] at hy; cases hy
          · simp only [Res.pure_eq, Res.bind, Res.val.injEq, Prod.mk.injEq, Option.some.injEq] at he
            rw [← he.1] at hy; cases hy
  · cases he

/-- C40: for the packet types the library does not know (25 to 27 and 29 to 31) it returns only the header, and the parameter
sets stay as they are. -/
theorem C40_unknown {nd : Bool} (opts : ParsingOptions) {data : List UInt8} {off len : Nat} (h : off + len ≤ data.length)
    (hl : data.length < 2 ^ 61) {σ σ' : Store} {c c' : Nat} {n : NalUnit}
    (he : parseNalUnit nd opts data off len σ c = .val (some n, σ', c'))
    (ht : 23 < n.nal_unit_header.nal_unit_type ∧ n.nal_unit_header.nal_unit_type ≠ 24 ∧ n.nal_unit_header.nal_unit_type ≠ 28) :
    parseRtpData nd data off len σ c = .val (some { nal_unit_header := n.nal_unit_header }, σ, c) := by
  unfold parseRtpData
  rw [onData_eq h hl]
  rw [parseNalUnit_eqL h hl] at he
  split at he
  · rename_i hf
    rw [if_pos hf]
    rcases nalUnitL_cases he with ⟨h0, _⟩ | ⟨hd, s, p, s', h0, h1, h2, h3⟩
    · cases h0
    · cases h0
      have hc : s.cnt = c := by
        obtain ⟨_, r, _, rfl⟩ := (codec_nalHeader nd _ c hd s).mp h1
        rfl
      unfold parseRtp
      rw [header_start nd hf.lt c, h1]
      simp only
      rw [Res.val_bind]
      dsimp only
      dsimp only at ht
      rw [if_neg (by omega), if_neg ht.2.1, if_neg ht.2.2, Res.pure_eq]
      simp only [Res.bind, toSt, hc]
  · cases he

/-! ### C40 on a concrete packet -/

/-- The SPS of the unit test stream, sent as a packet, with its emulation prevention bytes. -/
def exSpsPacket : List UInt8 := (ex601.drop 4).take 24

example : ∃ x σ', parseRtpData false exSpsPacket 0 24 {} 0 = .val (some x, σ', 0) ∧ x.nal_unit_header.nal_unit_type = 7 ∧
    (∃ y s, x.rtp_single = some y ∧ y.nal_unit_payload.sps = some s) := by
  have h : ∃ r, parseNalUnit false {} exSpsPacket 0 24 {} 0 = .val r ∧
      (match r with | (some n, _, c) => decide (n.nal_unit_header.nal_unit_type = 7) && n.nal_unit_payload.sps.isSome && decide (c = 0)
                    | _ => false) = true :=
    Res.exists_of_passes (by decide +kernel)
  obtain ⟨⟨n, σ', c'⟩, h1, h2⟩ := h
  cases n with
  | none => simp at h2
  | some n =>
    simp only [Bool.and_eq_true, decide_eq_true_eq] at h2
    obtain ⟨⟨h3, h4⟩, rfl⟩ := h2
    have := C40_single (data := exSpsPacket) (by decide) (by decide) h1 (by intro u hu; cases hu; omega)
    obtain ⟨s, hs⟩ := Option.isSome_iff_exists.mp h4
    exact ⟨_, σ', this, h3, _, s, rfl, hs⟩

/-! ### FU-A -/

/-- The FU indicator: forbidden_zero_bit, nal_ref_idc and type 28. -/
def fuIndicator (f ref : Nat) : UInt8 := UInt8.ofNat (f * 128 + ref * 32 + 28)
/-- The FU header: S, E, R and the type of the fragmented NAL unit. -/
def fuHeader (s e r type : Nat) : UInt8 := UInt8.ofNat (s * 128 + e * 64 + r * 32 + type)
/-- The header byte of the NAL unit. -/
def nalHeaderByte (f ref type : Nat) : UInt8 := UInt8.ofNat (f * 128 + ref * 32 + type)

theorem fuIndicator_bits : ∀ f < 2, ∀ ref < 4, allBits [fuIndicator f ref] =
    encNalHeader { forbidden_zero_bit := f, nal_ref_idc := ref, nal_unit_type := 28 } := by decide +kernel
theorem fuHeader_bits : ∀ s < 2, ∀ e < 2, ∀ r < 2, ∀ t < 32, allBits [fuHeader s e r t] =
    encU 1 s ++ (encU 1 e ++ (encU 1 r ++ (encU 5 t ++ []))) := by decide +kernel
theorem nalHeaderByte_bits : ∀ f < 2, ∀ ref < 4, ∀ t < 32, allBits [nalHeaderByte f ref t] =
    encU 1 f ++ encU 2 ref ++ encU 5 t := by decide +kernel
theorem fuIndicator_ne : ∀ f < 2, ∀ ref < 4, fuIndicator f ref ≠ 0 := by decide +kernel
theorem fuHeader_ne : ∀ e < 2, ∀ r < 2, ∀ t < 32, fuHeader 1 e r t ≠ 0 := by decide +kernel
theorem nalHeaderByte_ne : ∀ f < 2, ∀ ref < 4, ∀ t < 32, t ≠ 0 → nalHeaderByte f ref t ≠ 0 := by decide +kernel

theorem Codec.parse_append' {α : Type} {p : Prog α} {e : α → List Bool} {V : α → Prop} (h : Codec p e V) (nd : Bool) {a : α} (ha : V a)
    {l r : List Bool} (hl : l = e a ++ r) (c : Nat) : runL nd p ⟨l, c⟩ = .ok a ⟨r, c⟩ := by
  rw [hl]; exact h.parse_append nd ha r c

theorem header_ok {f ref t : Nat} (hf : f < 2) (hr : ref < 4) (ht : t < 32) (ht' : t ∉ [14, 20, 21]) :
    NalHeader.Ok { forbidden_zero_bit := f, nal_ref_idc := ref, nal_unit_type := t } := by
  simp only [List.mem_cons, List.not_mem_nil, or_false, not_or] at ht'
  exact ⟨hf, hr, ht, ⟨ht'.2.2, rfl⟩, by rw [if_neg (by simp only; omega)]; exact ⟨rfl, rfl⟩⟩

/-- Everything ParseRtpFuA does with the first two bytes. -/
theorem runL_fuA (nd : Bool) (σ : Store) (nref : Nat) {f ref s e r t : Nat} (hf : f < 2) (hr : ref < 4) (hs : s < 2) (he : e < 2)
    (hR : r < 2) (ht : t < 32) (rest : List UInt8) (c : Nat) :
    runL nd (parseRtpFuA σ nref) ⟨allBits (fuIndicator f ref :: fuHeader s e r t :: rest), c⟩ =
      if s = 0 then
        .ok (⟨nref, { forbidden_zero_bit := f, nal_ref_idc := ref, nal_unit_type := 28 }, s, e, r, t, none⟩, σ) ⟨allBits rest, c⟩
      else
        match runL nd (parsePayloadRT σ nref t) ⟨allBits rest, c⟩ with
        | .ok (p, σ') s' =>
          .ok (⟨nref, { forbidden_zero_bit := f, nal_ref_idc := ref, nal_unit_type := 28 }, s, e, r, t, some p⟩, σ') s'
        | .null s' => .null s'
        | .bad x => .bad x := by
  have hok := header_ok (t := 28) hf hr (by decide) (by decide)
  have e1 : allBits (fuIndicator f ref :: fuHeader s e r t :: rest) =
      encNalHeader { forbidden_zero_bit := f, nal_ref_idc := ref, nal_unit_type := 28 } ++
        (encU 1 s ++ (encU 1 e ++ (encU 1 r ++ (encU 5 t ++ allBits rest)))) := by
    rw [← fuIndicator_bits f hf ref hr]
    have := fuHeader_bits s hs e he r hR t ht
    simp only [allBits_cons, allBits_nil, List.append_nil] at this ⊢
    rw [this]
    simp only [List.append_assoc]
  rw [e1]
  unfold parseRtpFuA
  rw [runL_bind, codec_nalHeader.parse_append nd hok]
  simp only [Out.bind]
  rw [runL_bind, (Codec.u' (n := 1)).parse_append nd hs]
  simp only [Out.bind]
  rw [runL_bind, (Codec.u' (n := 1)).parse_append nd he]
  simp only [Out.bind]
  rw [runL_bind, (Codec.u' (n := 1)).parse_append nd hR]
  simp only [Out.bind]
  rw [runL_bind, (Codec.u' (n := 5)).parse_append nd ht]
  simp only [Out.bind]
  split
  · rfl
  · rw [runL_bind]
    generalize runL nd (parsePayloadRT σ nref t) ⟨allBits rest, c⟩ = q
    cases q with
    | ok a s' => obtain ⟨p, τ⟩ := a; rfl
    | null s' => rfl
    | bad x => rfl

/-- Everything ParseRtp does for NAL unit type 28, from the start of a buffer. -/
theorem parseRtp_28 (nd : Bool) (σ : Store) {bytes : List UInt8} (h : bytes.length < 2 ^ 61) (c : Nat) {hd : NalHeader} {s : LSt}
    (hh : runL nd parseNalHeader ⟨allBits bytes, c⟩ = .ok hd s) (ht : hd.nal_unit_type = 28) :
    parseRtp nd σ ⟨Buf.start bytes, c⟩ =
      match runL nd (parseRtpFuA σ hd.nal_ref_idc) ⟨allBits bytes, c⟩ with
      | .ok (x, σ') s' => .val (some { nal_unit_header := hd, rtp_fua := some x }, σ', toSt (Buf.start bytes) s')
      | .null s' => .val (none, σ, toSt (Buf.start bytes) s')
      | .bad e => .bad e := by
  have hc : s.cnt = c := by
    obtain ⟨_, r, _, rfl⟩ := (codec_nalHeader nd _ c hd s).mp hh
    rfl
  have h23 : ¬ hd.nal_unit_type ≤ 23 := by omega
  have h24 : ¬ hd.nal_unit_type = 24 := by omega
  unfold parseRtp
  rw [header_start nd h c, hh]
  simp only
  rw [Res.val_bind]
  dsimp only
  rw [seek0_start, if_neg h23, if_neg h24, if_pos ht]
  have e1 : ({ buf := Buf.start bytes, cnt := (toSt (Buf.start bytes) s).cnt } : St) = ⟨Buf.start bytes, c⟩ := by
    simp only [toSt, hc]
  rw [e1, runStore_start nd σ _ h c]
  generalize runL nd (parseRtpFuA σ hd.nal_ref_idc) ⟨allBits bytes, c⟩ = q
  cases q with
  | ok a s' => obtain ⟨p, τ⟩ := a; rfl
  | null s' => rfl
  | bad e => rfl

/-- ParseRtp on a FU-A packet. -/
theorem parseRtp_fuA (nd : Bool) (σ : Store) {f ref s e r t : Nat} (hf : f < 2) (hr : ref < 4)
    {rest : List UInt8} (hl : (fuIndicator f ref :: fuHeader s e r t :: rest).length < 2 ^ 61) (c : Nat) :
    parseRtp nd σ ⟨Buf.start (fuIndicator f ref :: fuHeader s e r t :: rest), c⟩ =
      match runL nd (parseRtpFuA σ ref) ⟨allBits (fuIndicator f ref :: fuHeader s e r t :: rest), c⟩ with
      | .ok (x, σ') s' => .val (some { nal_unit_header := { forbidden_zero_bit := f, nal_ref_idc := ref, nal_unit_type := 28 },
                                       rtp_fua := some x }, σ', toSt (Buf.start (fuIndicator f ref :: fuHeader s e r t :: rest)) s')
      | .null s' => .val (none, σ, toSt (Buf.start (fuIndicator f ref :: fuHeader s e r t :: rest)) s')
      | .bad x => .bad x := by
  have hok := header_ok (t := 28) hf hr (by decide) (by decide)
  have e1 : allBits (fuIndicator f ref :: fuHeader s e r t :: rest) =
      encNalHeader { forbidden_zero_bit := f, nal_ref_idc := ref, nal_unit_type := 28 } ++ allBits (fuHeader s e r t :: rest) := by
    rw [← fuIndicator_bits f hf ref hr, ← allBits_append]; rfl
  have hh := codec_nalHeader.parse_append nd hok (allBits (fuHeader s e r t :: rest)) c
  rw [← e1] at hh
  generalize hhd : ({ forbidden_zero_bit := f, nal_ref_idc := ref, nal_unit_type := 28 } : NalHeader) = hd at hh ⊢
  have h28 : hd.nal_unit_type = 28 := by rw [← hhd]
  have href : hd.nal_ref_idc = ref := by rw [← hhd]
  rw [parseRtp_28 nd σ hl c hh h28, href]

/-- The payload parser looks at nal_ref_idc and nal_unit_type only, for types without header extension. -/
theorem payload_congr (σ : Store) {h h' : NalHeader} (e1 : h.nal_ref_idc = h'.nal_ref_idc) (e2 : h.nal_unit_type = h'.nal_unit_type)
    (h14 : h'.nal_unit_type ≠ 14) (h20 : h'.nal_unit_type ≠ 20) : parsePayload σ h = parsePayload σ h' := by
  unfold parsePayload
  rw [e1, e2]
  refine ite_congr rfl (fun _ => rfl) fun _ => ?_
  refine ite_congr rfl (fun _ => rfl) fun _ => ?_
  refine ite_congr rfl (fun _ => rfl) fun _ => ?_
  refine ite_congr rfl (fun h => absurd h h14) fun _ => ?_
  refine ite_congr rfl (fun _ => rfl) fun _ => ?_
  exact ite_congr rfl (fun h => absurd h h20) fun _ => rfl

theorem payloadRT_eq (σ : Store) (f ref t : Nat) (h14 : t ≠ 14) (h20 : t ≠ 20) :
    parsePayloadRT σ ref t = parsePayload σ { forbidden_zero_bit := f, nal_ref_idc := ref, nal_unit_type := t } := by
  unfold parsePayloadRT
  exact payload_congr σ rfl rfl h14 h20

/-- C42: the first fragment (S = 1) of a NAL unit of any type except 0, 14, 20 and 21 is parsed into the payload that ParseNalUnit
finds in the NAL unit that consists of the header byte and the same bytes, and changes the parameter sets in the same way.
Partial: not for types 14 and 20, where the fragment starts with a header extension that is taken for payload
(`C42_svc_wrong`). -/
theorem C42_start_partial {nd : Bool} (opts : ParsingOptions) {f ref e r t : Nat} (hf : f < 2) (hr : ref < 4) (he : e < 2)
    (hR : r < 2) (ht : t < 32) (ht' : t ∉ [0, 14, 20, 21]) {frag : List UInt8} (hl : frag.length + 2 < 2 ^ 32) {σ : Store} (hσ : σ.Valid)
    (c : Nat) :
    ∃ n σ' c', parseNalUnit nd opts (nalHeaderByte f ref t :: frag) 0 (frag.length + 1) σ c = .val (some n, σ', c') ∧
      n.nal_unit_header = { forbidden_zero_bit := f, nal_ref_idc := ref, nal_unit_type := t } ∧
      parseRtpData nd (fuIndicator f ref :: fuHeader 1 e r t :: frag) 0 (frag.length + 2) σ c =
        .val (some { nal_unit_header := { forbidden_zero_bit := f, nal_ref_idc := ref, nal_unit_type := 28 },
                     rtp_fua := some ⟨ref, { forbidden_zero_bit := f, nal_ref_idc := ref, nal_unit_type := 28 }, 1, e, r, t,
                       some n.nal_unit_payload⟩ }, σ', c') := by
  simp only [List.mem_cons, List.not_mem_nil, or_false, not_or] at ht'
  have hok := header_ok hf hr ht (by simp only [List.mem_cons, List.not_mem_nil, or_false, not_or]; exact ht'.2)
  have hs1 : strip (nalHeaderByte f ref t :: frag) = nalHeaderByte f ref t :: strip frag :=
    strip_ne (nalHeaderByte_ne f hf ref hr t ht ht'.1) _
  have hs2 : strip (fuIndicator f ref :: fuHeader 1 e r t :: frag) = fuIndicator f ref :: fuHeader 1 e r t :: strip frag := by
    rw [strip_ne (fuIndicator_ne f hf ref hr), strip_ne (fuHeader_ne e he r hR t ht)]
  have hsl := strip_length frag
  have hfit : ∀ l : List UInt8, l.length ≤ frag.length + 2 → Fits nd l.length := by
    intro l h; unfold Fits; split <;> omega
  have hn : parseNalUnit nd opts (nalHeaderByte f ref t :: frag) 0 (frag.length + 1) σ c =
      nalUnitL nd opts (nalHeaderByte f ref t :: strip frag) σ c := by
    rw [parseNalUnit_eqL (by simp) (by simp only [List.length_cons]; omega), List.drop_zero,
      List.take_of_length_le (by simp), hs1, if_pos (hfit _ (by simp only [List.length_cons]; omega))]
  have hb : allBits (nalHeaderByte f ref t :: strip frag) =
      encNalHeader { forbidden_zero_bit := f, nal_ref_idc := ref, nal_unit_type := t } ++ allBits (strip frag) := by
    rw [show nalHeaderByte f ref t :: strip frag = [nalHeaderByte f ref t] ++ strip frag from rfl, allBits_append,
      nalHeaderByte_bits f hf ref hr t ht]
    unfold encNalHeader
    rw [if_neg (by simp only; omega), List.append_nil]
  rw [hn]
  unfold nalUnitL
  rw [hb, codec_nalHeader.parse_append nd hok]
  simp only
  unfold parseRtpData
  rw [onData_eq (by simp) (by simp only [List.length_cons]; omega), List.drop_zero, List.take_of_length_le (by simp), hs2,
    if_pos (hfit _ (by simp only [List.length_cons]; omega)),
    parseRtp_fuA nd σ hf hr (by simp only [List.length_cons]; omega), runL_fuA nd σ ref hf hr (by decide) he hR ht,
    if_neg (by decide), payloadRT_eq σ f ref t ht'.2.1 ht'.2.2.1]
  cases hp : runL nd (parsePayload σ { forbidden_zero_bit := f, nal_ref_idc := ref, nal_unit_type := t }) ⟨allBits (strip frag), c⟩ with
  | bad x => exact absurd hp (safe_payload hσ _ nd _ x)
  | null s' => exact absurd hp (payload_not_null nd σ _ _ s')
  | ok a s' =>
    obtain ⟨p, τ⟩ := a
    exact ⟨_, τ, s'.cnt, rfl, rfl, rfl⟩

/-- C42: a later fragment (S = 0) has no payload and does not touch the parameter sets, whatever its bytes are. -/
theorem C42_later {nd : Bool} {f ref e r t : Nat} (hf : f < 2) (hr : ref < 4) (he : e < 2)
    (hR : r < 2) (ht : t < 32) {frag : List UInt8} (hl : frag.length + 2 < 2 ^ 32) (σ : Store) (c : Nat) :
    parseRtpData nd (fuIndicator f ref :: fuHeader 0 e r t :: frag) 0 (frag.length + 2) σ c =
      .val (some { nal_unit_header := { forbidden_zero_bit := f, nal_ref_idc := ref, nal_unit_type := 28 },
                   rtp_fua := some ⟨ref, { forbidden_zero_bit := f, nal_ref_idc := ref, nal_unit_type := 28 }, 0, e, r, t, none⟩ },
            σ, c) := by
  have hs2 : ∃ frag', strip (fuIndicator f ref :: fuHeader 0 e r t :: frag) = fuIndicator f ref :: fuHeader 0 e r t :: frag' := by
    rw [strip_ne (fuIndicator_ne f hf ref hr)]
    by_cases hh : fuHeader 0 e r t = 0 ∧ ∃ x, frag = 0 :: 3 :: x
    · obtain ⟨h1, x, rfl⟩ := hh
      rw [h1, strip_hit]
      exact ⟨0 :: strip x, rfl⟩
    · rw [strip_miss hh]
      exact ⟨_, rfl⟩
  obtain ⟨frag', hs2⟩ := hs2
  have hsl := strip_length (fuIndicator f ref :: fuHeader 0 e r t :: frag)
  rw [hs2] at hsl
  simp only [List.length_cons] at hsl
  have hfit : Fits nd (fuIndicator f ref :: fuHeader 0 e r t :: frag').length := by
    simp only [List.length_cons]
    unfold Fits; split <;> omega
  unfold parseRtpData
  rw [onData_eq (by simp) (by simp only [List.length_cons]; omega), List.drop_zero, List.take_of_length_le (by simp), hs2,
    if_pos hfit, parseRtp_fuA nd σ hf hr hfit.lt, runL_fuA nd σ ref hf hr (by decide) he hR ht, if_pos rfl]
  rfl

/-! ### C42 where it fails: header extensions in a fragment -/

theorem payloadRT_14 (nd : Bool) (σ : Store) (ref : Nat) (s : LSt) : runL nd (parsePayloadRT σ ref 14) s = .ok ({}, σ) s := by
  unfold parsePayloadRT parsePayload parsePrefixPayload
  rw [if_neg (by simp only; omega), if_neg (by simp only; omega), if_neg (by simp only; omega), if_pos rfl, if_neg (by simp)]
  rfl

theorem payloadRT_20 {nd : Bool} {σ σ' : Store} {ref : Nat} {s s' : LSt} {p : Payload}
    (h : runL nd (parsePayloadRT σ ref 20) s = .ok (p, σ') s') :
    σ' = σ ∧ ∀ x ∈ p.slice_layer_extension_rbsp, x.slice_header_in_scalable_extension = none := by
  unfold parsePayloadRT parsePayload at h
  rw [if_neg (by simp only; omega), if_neg (by simp only; omega), if_neg (by simp only; omega), if_neg (by simp only; omega),
    if_neg (by simp only; omega), if_pos rfl] at h
  unfold parseSliceLayerExt at h
  dsimp only at h
  rw [if_neg (by simp), if_neg (by simp)] at h
  generalize parseSliceHeader σ ref 20 = q at h
  rw [runL_bind, runL_attempt, runL_bind] at h
  cases hq : runL nd q s with
  | bad e => rw [hq] at h; simp [Out.bind] at h
  | null t =>
    rw [hq] at h
    simp only [Out.bind, pure_eq, runL_ret, Out.ok.injEq, Prod.mk.injEq] at h
    obtain ⟨⟨rfl, rfl⟩, _⟩ := h
    exact ⟨rfl, fun x hx => by cases hx⟩
  | ok a t =>
    rw [hq] at h
    simp only [Out.bind, pure_eq, runL_ret, Out.ok.injEq, Prod.mk.injEq] at h
    obtain ⟨⟨rfl, rfl⟩, _⟩ := h
    exact ⟨rfl, fun x hx => by cases hx; rfl⟩

/-- C42 is false for prefix NAL units (type 14): whatever the first fragment holds, its payload is empty, although ParseNalUnit
finds a prefix NAL unit in `[0x6e, 0xc0, 0x80, 0x0f, 0x20]`. -/
theorem C42_prefix_lost :
    (∀ (nd : Bool) (f ref e r : Nat), f < 2 → ref < 4 → e < 2 → r < 2 → ∀ (frag : List UInt8), frag.length + 2 < 2 ^ 32 →
      ∀ (σ : Store) (c : Nat),
      parseRtpData nd (fuIndicator f ref :: fuHeader 1 e r 14 :: frag) 0 (frag.length + 2) σ c =
        .val (some { nal_unit_header := { forbidden_zero_bit := f, nal_ref_idc := ref, nal_unit_type := 28 },
                     rtp_fua := some ⟨ref, { forbidden_zero_bit := f, nal_ref_idc := ref, nal_unit_type := 28 }, 1, e, r, 14,
                       some {}⟩ }, σ, c)) ∧
    ∃ n, parseNalUnit false {} (nalHeaderByte 0 3 14 :: [0xc0, 0x80, 0x0f, 0x20]) 0 5 {} 0 = .val n ∧
      ∃ u x, n.1 = some u ∧ u.nal_unit_payload.prefix_nal_unit = some x ∧ x.prefix_nal_unit_svc.isSome := by
  refine ⟨fun nd f ref e r hf hr he hR frag hl σ c => ?_, ?_⟩
  · have hs2 : strip (fuIndicator f ref :: fuHeader 1 e r 14 :: frag) = fuIndicator f ref :: fuHeader 1 e r 14 :: strip frag := by
      rw [strip_ne (fuIndicator_ne f hf ref hr), strip_ne (fuHeader_ne e he r hR 14 (by decide))]
    have hsl := strip_length frag
    have hfit : Fits nd (fuIndicator f ref :: fuHeader 1 e r 14 :: strip frag).length := by
      simp only [List.length_cons]
      unfold Fits; split <;> omega
    unfold parseRtpData
    rw [onData_eq (by simp) (by simp only [List.length_cons]; omega), List.drop_zero, List.take_of_length_le (by simp), hs2,
      if_pos hfit, parseRtp_fuA nd σ hf hr hfit.lt, runL_fuA nd σ ref hf hr (by decide) he hR (by decide), if_neg (by decide),
      payloadRT_14]
    rfl
  · obtain ⟨n, h1, h2⟩ : ∃ n, parseNalUnit false {} (nalHeaderByte 0 3 14 :: [0xc0, 0x80, 0x0f, 0x20]) 0 5 {} 0 = .val n ∧
        ((n.1.bind (·.nal_unit_payload.prefix_nal_unit)).bind (·.prefix_nal_unit_svc)).isSome = true :=
      Res.exists_of_passes (by decide +kernel)
    refine ⟨n, h1, ?_⟩
    rw [Option.isSome_iff_exists] at h2
    obtain ⟨y, h2⟩ := h2
    rw [Option.bind_eq_some_iff] at h2
    obtain ⟨x, h2, h3⟩ := h2
    rw [Option.bind_eq_some_iff] at h2
    obtain ⟨u, h2, h4⟩ := h2
    exact ⟨u, x, h2, h4, by rw [h3]; rfl⟩

/-- C42 is false for scalable slices (type 20): no first fragment, whatever it holds, gives a slice header in scalable
extension. -/
theorem C42_scalable_lost {nd : Bool} {f ref e r : Nat} (hf : f < 2) (hr : ref < 4) (he : e < 2) (hR : r < 2) {frag : List UInt8}
    (hl : frag.length + 2 < 2 ^ 32) {σ σ' : Store} {c c' : Nat} {x : Rtp}
    (h : parseRtpData nd (fuIndicator f ref :: fuHeader 1 e r 20 :: frag) 0 (frag.length + 2) σ c = .val (some x, σ', c')) :
    σ' = σ ∧ ∃ y p, x.rtp_fua = some y ∧ y.nal_unit_payload = some p ∧
      ∀ z ∈ p.slice_layer_extension_rbsp, z.slice_header_in_scalable_extension = none := by
  have hs2 : strip (fuIndicator f ref :: fuHeader 1 e r 20 :: frag) = fuIndicator f ref :: fuHeader 1 e r 20 :: strip frag := by
    rw [strip_ne (fuIndicator_ne f hf ref hr), strip_ne (fuHeader_ne e he r hR 20 (by decide))]
  have hsl := strip_length frag
  have hfit : Fits nd (fuIndicator f ref :: fuHeader 1 e r 20 :: strip frag).length := by
    simp only [List.length_cons]
    unfold Fits; split <;> omega
  unfold parseRtpData at h
  rw [onData_eq (by simp) (by simp only [List.length_cons]; omega), List.drop_zero, List.take_of_length_le (by simp), hs2,
    if_pos hfit, parseRtp_fuA nd σ hf hr hfit.lt, runL_fuA nd σ ref hf hr (by decide) he hR (by decide), if_neg (by decide)] at h
  cases hp : runL nd (parsePayloadRT σ ref 20) ⟨allBits (strip frag), c⟩ with
  | bad e => rw [hp] at h; simp [Res.bind] at h
  | null s' => rw [hp] at h; simp [Res.bind] at h
  | ok a s' =>
    obtain ⟨p, τ⟩ := a
    rw [hp] at h
    simp only [Res.bind, Res.val.injEq, Prod.mk.injEq, Option.some.injEq] at h
    obtain ⟨rfl, rfl, _⟩ := h
    obtain ⟨h1, h2⟩ := payloadRT_20 hp
    exact ⟨h1, _, p, rfl, rfl, h2⟩

/-- The stream of the unit test for slice headers in scalable extension; the last NAL unit is such a slice. -/
def exSvcStream : List UInt8 :=
  [0, 0, 0, 1, 103, 66, 0, 10, 166, 130, 196, 228, 0, 0, 0, 1, 104, 206, 7, 114, 0, 0, 0, 1, 111, 83, 0, 11, 172, 77, 2, 193, 44, 129, 32,
   0, 0, 0, 1, 104, 83, 129, 220, 128]
def exSvcSlice : List UInt8 := [192, 144, 15, 180, 4, 95, 192, 196, 66, 0, 4, 224]

/-- The NAL unit itself has one: ParseNalUnit after the parameter sets. -/
example : ∃ r, (parseBitstream false {} exSvcStream {} 0).bind (fun b =>
      parseNalUnit false {} (nalHeaderByte 0 3 20 :: exSvcSlice) 0 13 b.2.1 0) = .val r ∧
    ((r.1.bind (·.nal_unit_payload.slice_layer_extension_rbsp)).bind (·.slice_header_in_scalable_extension)).isSome = true :=
  Res.exists_of_passes (by decide +kernel)

/-- The SPS as a first fragment. -/
example : ∃ n σ' c', parseNalUnit false {} exSpsPacket 0 24 {} 0 = .val (some n, σ', c') ∧ n.nal_unit_payload.sps.isSome ∧
    ∃ x, parseRtpData false (0x7c :: 0x87 :: exSpsPacket.tail) 0 25 {} 0 = .val (some x, σ', c') ∧
      x.rtp_fua.bind (·.nal_unit_payload) = some n.nal_unit_payload := by
  have hv : Store.Valid {} := ⟨by simp, by simp, by simp⟩
  obtain ⟨n, σ', c', h1, h2, h3⟩ := C42_start_partial (nd := false) {} (f := 0) (ref := 3) (e := 0) (r := 0) (t := 7)
    (by decide) (by decide) (by decide) (by decide) (by decide) (by decide) (frag := exSpsPacket.tail) (by decide)
    hv 0
  have e1 : nalHeaderByte 0 3 7 :: exSpsPacket.tail = exSpsPacket := by decide +kernel
  have e2 : exSpsPacket.tail.length = 23 := by decide +kernel
  rw [e1, e2] at h1
  rw [e2] at h3
  refine ⟨n, σ', c', h1, ?_, _, h3, rfl⟩
  have h : ∃ r, parseNalUnit false {} exSpsPacket 0 24 {} 0 = .val r ∧
      (r.1.bind (·.nal_unit_payload.sps)).isSome = true :=
    Res.exists_of_passes (by decide +kernel)
  obtain ⟨r, h4, h5⟩ := h
  rw [h1] at h4
  cases h4
  exact h5

end H264.Props

import Verif.Model.Nal
import Verif.Codecs.Scalable
import Verif.ChecksumLemmas
import Verif.EscapeLemmas

/-
The NAL unit parsers on lists of bits.
-/

namespace H264
open Prog

/-! ### The checksum never fails and leaves the reader alone -/

theorem checksumWords_total : ∀ (n f : Nat) (x : Buf) (s : Nat), x.WF → x.rem.length ≤ n → n < f →
    ∃ v y, checksumWords f x s = .val (v, y) ∧ y.WF ∧ y.bytes = x.bytes ∧ y.rem.length < 32 := by
  intro n
  induction n using Nat.strongRecOn with
  | ind n ih =>
    intro f x s hx hn hf
    obtain ⟨f, rfl⟩ : ∃ g, f = g + 1 := ⟨f - 1, by omega⟩
    have e := Buf.readBits_eq hx 32 32
    by_cases h : x.rem.length < 32
    · refine ⟨s, x, ?_, hx, rfl, h⟩
      rw [if_pos (by omega)] at e
      simp only [checksumWords, Buf.readUInt32]
      rw [e]
      simp
    · rw [if_neg (by omega)] at e
      have hw := hx.adv (n := 32) (by omega)
      obtain ⟨v, y, h1, h2, h3, h4⟩ := ih (n - 32) (by omega) f (x.adv 32) (add64 s (bitsVal (x.rem.take 32))) hw
        (by rw [Buf.rem_adv, List.length_drop]; omega) (by omega)
      refine ⟨v, y, ?_, h2, h3, h4⟩
      simp only [checksumWords, Buf.readUInt32]
      rw [e]
      simpa using h1

theorem checksumTail_total : ∀ (n f : Nat) (x : Buf) (i v : Nat), x.WF → x.rem.length ≤ n → n < 8 * f →
    ∃ j w y, checksumTail f x i v = .val (j, w, y) ∧ y.WF ∧ y.bytes = x.bytes := by
  intro n
  induction n using Nat.strongRecOn with
  | ind n ih =>
    intro f x i v hx hn hf
    obtain ⟨f, rfl⟩ : ∃ g, f = g + 1 := ⟨f - 1, by omega⟩
    have e := Buf.readBits_eq hx 32 8
    have hr := Buf.remaining_eq hx
    simp only [checksumTail]
    by_cases h : x.remaining ≥ 8 ∧ i < 4
    · rw [if_pos h]
      rw [if_neg (by omega)] at e
      have hw := hx.adv (n := 8) (by omega)
      obtain ⟨j, w, y, h1, h2, h3⟩ := ih (n - 8) (by omega) f (x.adv 8) (i + 1)
        (v ||| ((bitsVal (x.rem.take 8) <<< (8 * (3 - i))) % 2 ^ 32)) hw
        (by rw [Buf.rem_adv, List.length_drop]; omega) (by omega)
      refine ⟨j, w, y, ?_, h2, h3⟩
      have hv : bitsVal (x.rem.take 8) < 256 := by
        have := bitsVal_lt (x.rem.take 8)
        rwa [List.length_take_of_le (by omega)] at this
      simp only [Buf.readUInt8]
      rw [e]
      simp only [Res.val_bind]
      rw [show decide (bitsVal (x.rem.take 8) ≤ 255) = true by simp; omega, Res.check_true]
      simp only [Res.val_bind, Res.pure_eq]
      rw [Nat.mod_eq_of_lt hv]
      exact h1
    · rw [if_neg h]
      exact ⟨i, v, x, rfl, hx, rfl⟩

theorem getNaluChecksum_total (x : Buf) (hx : x.WF) : ∃ ck, getNaluChecksum x = .val (ck, x) := by
  have hr := Buf.remaining_eq hx
  obtain ⟨v, y, h1, h2, h3, h4⟩ := checksumWords_total x.rem.length (x.remaining + 1) x 0 hx (by omega) (by omega)
  obtain ⟨j, w, z, h5, h6, h7⟩ := checksumTail_total y.rem.length 5 y 0 0 h2 (by omega) (by omega)
  have hb : z.seek x.byteOff x.bitOff = (true, x) := Buf.seek_back hx (by rw [h7, h3])
  unfold getNaluChecksum
  simp only [Buf.currentOffset]
  rw [h1, Res.val_bind, h5]
  simp only [Res.val_bind]
  rw [hb]
  simp only [Res.pure_eq]
  generalize checksumFold _ = a
  exact ⟨_, rfl⟩

/-! ### Payloads -/

theorem safe_prefixSvc (a b c : Nat) : Safe (parsePrefixSvc a b c) := by
  unfold parsePrefixSvc parsePrefixExt parsePrefixExtData
  have := safe_ext2Loop
  have := safe_trailing
  have := safe_more
  safe

theorem safe_prefixRbsp (a b c d : Nat) : Safe (parsePrefixRbsp a b c d) := by
  unfold parsePrefixRbsp
  have := safe_prefixSvc b c d
  safe

theorem safe_sliceLayer {σ : Store} (hσ : σ.Valid) (a b : Nat) : Safe (parseSliceLayer σ a b) :=
  Safe.bind (safe_sliceHeader hσ.inRange a b) (fun _ => Safe.pure _)

theorem safe_sliceLayerExt {σ : Store} (hσ : σ.Valid) (h : NalHeader) : Safe (parseSliceLayerExt σ h) := by
  unfold parseSliceLayerExt
  refine Safe.ite (fun _ => Safe.bind (Safe.attempt (safe_scalHeader hσ h)) (fun _ => Safe.pure _)) (fun _ => ?_)
  exact Safe.ite (fun _ => Safe.pure _) (fun _ => Safe.bind (safe_sliceHeader hσ.inRange _ _) (fun _ => Safe.pure _))

theorem safe_prefixPayload (h : NalHeader) : Safe (parsePrefixPayload h) := by
  unfold parsePrefixPayload
  refine Safe.ite (fun _ => ?_) (fun _ => Safe.pure _)
  split
  · exact Safe.attempt (safe_prefixRbsp _ _ _ _)
  · exact Safe.pure _

theorem safe_payload {σ : Store} (hσ : σ.Valid) (h : NalHeader) : Safe (parsePayload σ h) := by
  unfold parsePayload
  refine Safe.ite (fun _ => Safe.bind (Safe.attempt (safe_sliceLayer hσ _ _)) (fun _ => Safe.pure _)) (fun _ => ?_)
  refine Safe.ite (fun _ => Safe.bind (Safe.attempt safe_sps) (fun _ => Safe.pure _)) (fun _ => ?_)
  refine Safe.ite (fun _ => Safe.bind (Safe.attempt (safe_pps _)) (fun _ => Safe.pure _)) (fun _ => ?_)
  refine Safe.ite (fun _ => Safe.bind (safe_prefixPayload h) (fun _ => Safe.pure _)) (fun _ => ?_)
  refine Safe.ite (fun _ => Safe.bind (Safe.attempt safe_subsetSps) (fun _ => Safe.pure _)) (fun _ => ?_)
  exact Safe.ite (fun _ => Safe.bind (Safe.attempt (safe_sliceLayerExt hσ h)) (fun _ => Safe.pure _)) (fun _ => Safe.pure _)

/-- What the call of a parser with an ignored failure gives. -/
theorem runL_attempt_bind {α β : Type} (nd : Bool) (p : Prog α) (f : Option α → β) (s : LSt) :
    runL nd (do let x ← p.attempt; pure (f x)) s =
      match runL nd p s with
      | .ok a s' => .ok (f (some a)) s'
      | .null s' => .ok (f none) s'
      | .bad e => .bad e := by
  rw [runL_bind, runL_attempt]
  cases runL nd p s <;> rfl

/-- Everything a payload parse does to the store, by NAL unit type. -/
theorem runL_payload (nd : Bool) (σ : Store) (h : NalHeader) (s : LSt) : runL nd (parsePayload σ h) s =
    if h.nal_unit_type = 1 ∨ h.nal_unit_type = 5 then
      match runL nd (parseSliceLayer σ h.nal_ref_idc h.nal_unit_type) s with
      | .ok a s' => .ok ({ slice_layer_without_partitioning_rbsp := some a }, σ) s'
      | .null s' => .ok ({}, σ) s'
      | .bad e => .bad e
    else if h.nal_unit_type = 7 then
      match runL nd parseSps s with
      | .ok a s' => .ok ({ sps := some a }, σ.addSps (some a)) s'
      | .null s' => .ok ({}, σ) s'
      | .bad e => .bad e
    else if h.nal_unit_type = 8 then
      match runL nd (parsePps 1) s with
      | .ok a s' => .ok ({ pps := some a }, σ.addPps (some a)) s'
      | .null s' => .ok ({}, σ) s'
      | .bad e => .bad e
    else if h.nal_unit_type = 14 then
      match runL nd (parsePrefixPayload h) s with
      | .ok a s' => .ok ({ prefix_nal_unit := a }, σ) s'
      | .null s' => .null s'
      | .bad e => .bad e
    else if h.nal_unit_type = 15 then
      match runL nd parseSubsetSps s with
      | .ok a s' => .ok ({ subset_sps := some a }, σ.addSubsetSps (some a)) s'
      | .null s' => .ok ({}, σ) s'
      | .bad e => .bad e
    else if h.nal_unit_type = 20 then
      match runL nd (parseSliceLayerExt σ h) s with
      | .ok a s' => .ok ({ slice_layer_extension_rbsp := some a }, σ) s'
      | .null s' => .ok ({}, σ) s'
      | .bad e => .bad e
    else .ok ({}, σ) s := by
  unfold parsePayload
  split
  · refine (runL_attempt_bind nd (parseSliceLayer σ h.nal_ref_idc h.nal_unit_type)
      (fun x => (({ slice_layer_without_partitioning_rbsp := x } : Payload), σ)) s).trans ?_
    cases runL nd (parseSliceLayer σ h.nal_ref_idc h.nal_unit_type) s <;> rfl
  split
  · refine (runL_attempt_bind nd parseSps (fun x => (({ sps := x } : Payload), σ.addSps x)) s).trans ?_
    cases runL nd parseSps s <;> rfl
  split
  · refine (runL_attempt_bind nd (parsePps 1) (fun x => (({ pps := x } : Payload), σ.addPps x)) s).trans ?_
    cases runL nd (parsePps 1) s <;> rfl
  split
  · rw [runL_bind]
    cases runL nd (parsePrefixPayload h) s <;> rfl
  split
  · refine (runL_attempt_bind nd parseSubsetSps (fun x => (({ subset_sps := x } : Payload), σ.addSubsetSps x)) s).trans ?_
    cases runL nd parseSubsetSps s <;> rfl
  split
  · refine (runL_attempt_bind nd (parseSliceLayerExt σ h)
      (fun x => (({ slice_layer_extension_rbsp := x } : Payload), σ)) s).trans ?_
    cases runL nd (parseSliceLayerExt σ h) s <;> rfl
  rfl

/-- The payload parser never returns null. -/
theorem payload_not_null (nd : Bool) (σ : Store) (h : NalHeader) (s s' : LSt) : runL nd (parsePayload σ h) s ≠ .null s' := by
  rw [runL_payload]
  split
  · cases runL nd (parseSliceLayer σ h.nal_ref_idc h.nal_unit_type) s <;> simp
  split
  · cases runL nd parseSps s <;> simp
  split
  · cases runL nd (parsePps 1) s <;> simp
  split
  · have : runL nd (parsePrefixPayload h) s ≠ .null s' := by
      unfold parsePrefixPayload
      split
      · split
        · rw [runL_attempt]; split <;> simp
        · simp
      · simp
    revert this
    cases runL nd (parsePrefixPayload h) s <;> simp
  split
  · cases runL nd parseSubsetSps s <;> simp
  split
  · cases runL nd (parseSliceLayerExt σ h) s <;> simp
  simp

/-- Parsing a payload keeps the store valid. -/
theorem payload_valid (nd : Bool) {σ : Store} (hσ : σ.Valid) (h : NalHeader) {s s' : LSt} {p : Payload} {σ' : Store}
    (he : runL nd (parsePayload σ h) s = .ok (p, σ') s') : σ'.Valid := by
  rw [runL_payload] at he
  revert he
  split
  · cases runL nd (parseSliceLayer σ h.nal_ref_idc h.nal_unit_type) s <;> simp <;> rintro _ rfl _ <;> exact hσ
  split
  · cases h7 : runL nd parseSps s with
    | ok a s1 =>
      simp only [Out.ok.injEq, Prod.mk.injEq]
      rintro ⟨⟨_, rfl⟩, _⟩
      have hr := spsData_ranges nd ((sps_iff nd s a).mp ⟨s1, h7⟩).choose_spec
      refine ⟨?_, hσ.pps, hσ.subset_sps⟩
      intro k x hx
      simp only [Store.addSps, upd] at hx
      split at hx
      · cases hx; exact ⟨⟨hr.1, hr.2.1⟩, by symm; assumption⟩
      · exact hσ.sps k x hx
    | null s1 => simp; rintro _ rfl _; exact hσ
    | bad e => simp
  split
  · cases h7 : runL nd (parsePps 1) s with
    | ok a s1 =>
      simp only [Out.ok.injEq, Prod.mk.injEq]
      rintro ⟨⟨_, rfl⟩, _⟩
      have hr := pps_sound nd h7
      refine ⟨hσ.sps, ?_, hσ.subset_sps⟩
      intro k x hx
      simp only [Store.addPps, upd] at hx
      split at hx
      · cases hx; exact ⟨hr.1, by symm; assumption⟩
      · exact hσ.pps k x hx
    | null s1 => simp; rintro _ rfl _; exact hσ
    | bad e => simp
  split
  · cases runL nd (parsePrefixPayload h) s <;> simp <;> rintro _ rfl _ <;> exact hσ
  split
  · cases h7 : runL nd parseSubsetSps s with
    | ok a s1 =>
      simp only [Out.ok.injEq, Prod.mk.injEq]
      rintro ⟨⟨_, rfl⟩, _⟩
      have hr := subsetSps_ranges nd h7
      refine ⟨hσ.sps, hσ.pps, ?_⟩
      intro k x hx
      simp only [Store.addSubsetSps, upd] at hx
      split at hx
      · cases hx; exact ⟨hr, by symm; assumption⟩
      · exact hσ.subset_sps k x hx
    | null s1 => simp; rintro _ rfl _; exact hσ
    | bad e => simp
  split
  · cases runL nd (parseSliceLayerExt σ h) s <;> simp <;> rintro _ rfl _ <;> exact hσ
  simp; rintro _ rfl _; exact hσ

/-! ### Whole NAL units -/

/-- A reader at the start of `bytes`. -/
def Buf.start (bytes : List UInt8) : Buf := ⟨bytes, 0, 0⟩

theorem Buf.start_wf {bytes : List UInt8} (h : bytes.length < 2 ^ 61) : (Buf.start bytes).WF :=
  ⟨h, by show 0 < 8; decide, by simp [Buf.pos, Buf.start]⟩

@[simp] theorem Buf.start_rem (bytes : List UInt8) : (Buf.start bytes).rem = allBits bytes := by
  simp [Buf.rem, Buf.pos, Buf.start]

/-- `BitBuffer` accepts a buffer of this size (the assertion of its constructor, in builds that have it). -/
def Fits (nd : Bool) (n : Nat) : Prop := if nd then n < 2 ^ 61 else n ≤ 2 ^ 32 - 1

theorem Fits.lt {nd : Bool} {n : Nat} (h : Fits nd n) : n < 2 ^ 61 := by
  unfold Fits at h
  split at h
  · exact h
  · omega

theorem Fits.le {nd : Bool} {n m : Nat} (h : Fits nd n) (hm : m ≤ n) : Fits nd m := by
  unfold Fits at *
  split at h
  · rw [if_pos ‹_›]; omega
  · rw [if_neg ‹_›]; omega

theorem Buf.new_eq {nd : Bool} {bytes : List UInt8} (h : Fits nd bytes.length) : Buf.new nd bytes = .val (Buf.start bytes) := by
  unfold Fits at h
  unfold Buf.new
  split
  · rfl
  · rw [if_neg ‹_›] at h
    unfold Buf.mk'
    rw [show decide (bytes.length ≤ 2 ^ 32 - 1) = true by simpa using h]
    rfl

/-- The checksum of a NAL unit, if asked for. -/
def ckOf (opts : ParsingOptions) (bytes : List UInt8) : Option NaluChecksum :=
  if opts.add_checksum then
    match getNaluChecksum (Buf.start bytes) with
    | .val (c, _) => some c
    | .bad _ => none
  else none

/-- `ParseNalUnit` on the list of bits. -/
def nalUnitL (nd : Bool) (opts : ParsingOptions) (bytes : List UInt8) (σ : Store) (cnt : Nat) :
    Res (Option NalUnit × Store × Nat) :=
  match runL nd parseNalHeader ⟨allBits bytes, cnt⟩ with
  | .bad e => .bad e
  | .null s => .val (none, σ, s.cnt)
  | .ok h s =>
    match runL nd (parsePayload σ h) s with
    | .bad e => .bad e
    | .null s => .val (none, σ, s.cnt)
    | .ok (p, σ') s =>
      .val (some { parsed_length := (8 * bytes.length - s.rem.length + 7) / 8, checksum := ckOf opts bytes,
                   nal_unit_header := h, nal_unit_payload := p }, σ', s.cnt)

theorem toSt_start {bytes : List UInt8} {s : LSt} : (toSt (Buf.start bytes) s) = ⟨(Buf.start bytes).adv (8 * bytes.length - s.rem.length), s.cnt⟩ := by
  simp only [toSt, Buf.start_rem, length_allBits]

theorem run_from {α : Type} (nd : Bool) (p : Prog α) {b : Buf} (h : b.WF) {s : LSt}
    (hs : ∃ n, n ≤ b.rem.length ∧ s.rem = b.rem.drop n) : run nd p (toSt b s) = (runL nd p s).mapSt (toSt b) := by
  obtain ⟨n, h1, h2⟩ := hs
  have e : toSt b s = ⟨b.adv n, s.cnt⟩ := by simp only [toSt]; rw [h2]; congr 2; simp; omega
  have hrem : (b.adv n).rem = s.rem := by rw [Buf.rem_adv, h2]
  rw [e, run_eq nd p (h.adv h1), hrem]
  have hd := runL_drop nd p s
  have key : ∀ (s' : LSt), (∃ m, m ≤ s.rem.length ∧ s'.rem = s.rem.drop m) → toSt (b.adv n) s' = toSt b s' := by
    rintro s' ⟨m, hm1, hm2⟩
    simp only [toSt]
    rw [hrem, hm2, h2, Buf.adv_adv]
    congr 2
    simp
    rw [h2] at hm1
    simp at hm1
    omega
  show (runL nd p s).mapSt _ = _
  generalize runL nd p s = r at *
  cases r with
  | ok a s' => simp only [Out.mapSt]; rw [key s' hd.1]
  | null s' => simp only [Out.mapSt]; rw [key s' hd.1]
  | bad e => rfl

theorem currentByte_start (bytes : List UInt8) (n : Nat) : currentByte ((Buf.start bytes).adv n) = (n + 7) / 8 := by
  have e1 : ((Buf.start bytes).adv n).byteOff = n / 8 := by simp [Buf.adv, Buf.pos, Buf.start]
  have e2 : ((Buf.start bytes).adv n).bitOff = n % 8 := by simp [Buf.adv, Buf.pos, Buf.start]
  unfold currentByte
  rw [e1, e2]
  split <;> omega

theorem ckOf_eq (opts : ParsingOptions) {bytes : List UInt8} (h : bytes.length < 2 ^ 61) :
    unitChecksum opts (Buf.start bytes) = .val (ckOf opts bytes, Buf.start bytes) := by
  obtain ⟨ck, hck⟩ := getNaluChecksum_total _ (Buf.start_wf h)
  unfold ckOf unitChecksum
  rw [hck]
  simp only [Res.val_bind, Res.pure_eq]
  cases opts.add_checksum <;> simp

attribute [irreducible] ckOf

/-- `ParseNalUnit` step by step. -/
theorem parseNalUnitBuf_step (nd : Bool) (opts : ParsingOptions) (σ : Store) (b : Buf) (cnt : Nat) (ck : Option NaluChecksum)
    (h0 : unitChecksum opts b = .val (ck, b)) : parseNalUnitBuf nd opts σ ⟨b, cnt⟩ =
      match run nd parseNalHeader ⟨b, cnt⟩ with
      | .bad e => .bad e
      | .null s => .val (none, σ, s)
      | .ok h s =>
        match run nd (parsePayload σ h) s with
        | .bad e => .bad e
        | .null s => .val (none, σ, s)
        | .ok x s =>
          .val (some { parsed_length := currentByte s.buf, checksum := ck, nal_unit_header := h, nal_unit_payload := x.1 },
            x.2, s) := by
  unfold parseNalUnitBuf
  dsimp only
  rw [h0]
  rw [Res.val_bind]
  dsimp only
  generalize run nd parseNalHeader ⟨b, cnt⟩ = r
  cases r with
  | bad e => rfl
  | null s => rfl
  | ok h s =>
    dsimp only [Out.res]
    rw [Res.val_bind]
    dsimp only
    generalize run nd (parsePayload σ h) s = r2
    cases r2 <;> rfl

theorem parseNalUnitUnescaped_eq {nd : Bool} {bytes : List UInt8} (hb : Fits nd bytes.length) (opts : ParsingOptions)
    (σ : Store) (cnt : Nat) : parseNalUnitUnescaped nd opts bytes σ cnt = nalUnitL nd opts bytes σ cnt := by
  have hw := Buf.start_wf hb.lt
  unfold parseNalUnitUnescaped
  rw [Buf.new_eq hb, Res.val_bind, parseNalUnitBuf_step nd opts σ _ cnt _ (ckOf_eq opts hb.lt), run_eq nd parseNalHeader hw cnt,
    Buf.start_rem]
  have hd := runL_drop nd parseNalHeader ⟨allBits bytes, cnt⟩
  unfold nalUnitL
  generalize runL nd parseNalHeader ⟨allBits bytes, cnt⟩ = r at *
  cases r with
  | bad e => rfl
  | null s => rfl
  | ok h s =>
    dsimp only [Out.mapSt]
    rw [run_from nd (parsePayload σ h) hw (by simpa using hd.1)]
    generalize runL nd (parsePayload σ h) s = r2
    cases r2 with
    | bad e => rfl
    | null s => rfl
    | ok x s2 =>
      obtain ⟨p, σ'⟩ := x
      dsimp only [Out.mapSt]
      rw [toSt_start, currentByte_start, Res.val_bind]
      rfl

/-- A NAL unit inside a larger array. -/
theorem parseNalUnit_eq {nd : Bool} {data : List UInt8} {off len : Nat} (h : off + len ≤ data.length)
    (hl : data.length ≤ maxVector) (opts : ParsingOptions) (σ : Store) (cnt : Nat) :
    parseNalUnit nd opts data off len σ cnt =
      parseNalUnitUnescaped nd opts (strip ((data.drop off).take len)) σ cnt := by
  unfold parseNalUnit
  rw [unescapeRbsp_eq h hl]
  rfl

/-- Only the bytes of the NAL unit matter. -/
theorem parseNalUnit_local {nd : Bool} {data : List UInt8} {off len : Nat} (h : off + len ≤ data.length)
    (hl : data.length ≤ maxVector) (opts : ParsingOptions) (σ : Store) (cnt : Nat) :
    parseNalUnit nd opts data off len σ cnt =
      parseNalUnit nd opts ((data.drop off).take len) 0 ((data.drop off).take len).length σ cnt := by
  rw [parseNalUnit_eq h hl, parseNalUnit_eq (by omega) (by rw [List.length_take, List.length_drop]; omega)]
  rw [List.drop_zero, List.take_of_length_le (Nat.le_refl _)]

/-- What a successful or failed NAL unit parse does. -/
theorem nalUnitL_cases {nd : Bool} {opts : ParsingOptions} {bytes : List UInt8} {σ σ' : Store} {cnt cnt' : Nat}
    {n : Option NalUnit} (h : nalUnitL nd opts bytes σ cnt = .val (n, σ', cnt')) :
    (n = none ∧ σ' = σ ∧ ∃ s, runL nd parseNalHeader ⟨allBits bytes, cnt⟩ = .null s ∧ s.cnt = cnt') ∨
    (∃ hd s p s', n = some { parsed_length := (8 * bytes.length - s'.rem.length + 7) / 8, checksum := ckOf opts bytes,
                             nal_unit_header := hd, nal_unit_payload := p } ∧
      runL nd parseNalHeader ⟨allBits bytes, cnt⟩ = .ok hd s ∧ runL nd (parsePayload σ hd) s = .ok (p, σ') s' ∧
      s'.cnt = cnt') := by
  unfold nalUnitL at h
  revert h
  generalize hr : runL nd parseNalHeader ⟨allBits bytes, cnt⟩ = r
  cases r with
  | bad e => intro h; cases h
  | null s =>
    intro h
    simp only [Res.val.injEq, Prod.mk.injEq] at h
    exact Or.inl ⟨h.1.symm, h.2.1.symm, s, rfl, h.2.2⟩
  | ok hd s =>
    dsimp only
    generalize hr2 : runL nd (parsePayload σ hd) s = r2
    cases r2 with
    | bad e => intro h; cases h
    | null s1 => exact absurd hr2 (payload_not_null nd σ hd s s1)
    | ok x s1 =>
      obtain ⟨p, σ1⟩ := x
      intro h
      simp only [Res.val.injEq, Prod.mk.injEq] at h
      obtain ⟨h1, rfl, h2⟩ := h
      exact Or.inr ⟨hd, s, p, s1, h1.symm, rfl, hr2, h2⟩

theorem nalUnitL_valid {nd : Bool} {opts : ParsingOptions} {bytes : List UInt8} {σ σ' : Store} {cnt cnt' : Nat}
    {n : Option NalUnit} (hσ : σ.Valid) (h : nalUnitL nd opts bytes σ cnt = .val (n, σ', cnt')) : σ'.Valid := by
  rcases nalUnitL_cases h with ⟨_, rfl, _⟩ | ⟨hd, s, p, s', _, _, h2, _⟩
  · exact hσ
  · exact payload_valid nd hσ hd h2

theorem nalUnitL_safe (nd : Bool) (opts : ParsingOptions) (bytes : List UInt8) {σ : Store} (hσ : σ.Valid) (cnt : Nat) (e : Bad) :
    nalUnitL nd opts bytes σ cnt ≠ .bad e := by
  unfold nalUnitL
  generalize hr : runL nd parseNalHeader ⟨allBits bytes, cnt⟩ = r
  cases r with
  | bad e => exact absurd hr (safe_nalHeader nd _ e)
  | null s => simp
  | ok hd s =>
    dsimp only
    generalize hr2 : runL nd (parsePayload σ hd) s = r2
    cases r2 with
    | bad e => exact absurd hr2 (safe_payload hσ hd nd s e)
    | null s1 => simp
    | ok x s1 => simp

end H264

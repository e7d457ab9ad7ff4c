import Verif.RtpLemmas
import Verif.Props.Reach
import Verif.Spec.Handmade

/-
The parsers under a parser state that only meets some invariant: enough for C80.
-/

namespace H264
open Prog Props Spec

/-- A condition on parser states under which payloads can be parsed, and which parsing keeps. -/
structure Invariant (I : Store → Prop) : Prop where
  safe : ∀ σ h, I σ → Safe (parsePayload σ h)
  keep : ∀ nd σ h s p σ' s', I σ → runL nd (parsePayload σ h) s = .ok (p, σ') s' → I σ'

section
variable {I : Store → Prop} (hI : Invariant I) {nd : Bool}

theorem runStore_inv {α : Type} {σ : Store} {p : Prog (α × Store)} {s : St} (hb : s.buf.WF) (hσ : I σ)
    (hs : Safe p) (hp : ∀ l a τ l', runL nd p l = .ok (a, τ) l' → I τ) :
    ∃ x σ' s', runStore nd σ p s = .val (x, σ', s') ∧ I σ' ∧ s'.buf.WF := by
  obtain ⟨b, c⟩ := s
  have hw := run_wf nd p hb c
  have hbad := hs.run nd hb c
  unfold runStore
  have he := run_eq nd p hb c
  generalize run nd p ⟨b, c⟩ = r at *
  cases r with
  | ok a s1 =>
    obtain ⟨a, τ⟩ := a
    refine ⟨_, _, _, rfl, ?_, hw.1⟩
    cases hr : runL nd p ⟨b.rem, c⟩ with
    | ok a' s2 =>
      rw [hr] at he
      simp only [Out.mapSt, Out.ok.injEq] at he
      obtain ⟨rfl, _⟩ := he
      exact hp _ _ _ _ hr
    | null s2 => rw [hr] at he; cases he
    | bad e => rw [hr] at he; cases he
  | null s1 => exact ⟨_, _, _, rfl, hσ, hw.1⟩
  | bad e => exact absurd rfl (hbad e)

include hI

theorem Invariant.nalUnitL {opts : ParsingOptions} (bytes : List UInt8) {σ : Store} (hσ : I σ) (c : Nat) :
    ∃ n σ' c', nalUnitL nd opts bytes σ c = .val (n, σ', c') ∧ I σ' := by
  cases hr : H264.nalUnitL nd opts bytes σ c with
  | val r =>
    obtain ⟨n, σ', c'⟩ := r
    refine ⟨n, σ', c', rfl, ?_⟩
    rcases nalUnitL_cases hr with ⟨_, rfl, _⟩ | ⟨hd, s, p, s', _, _, h2, _⟩
    · exact hσ
    · exact hI.keep nd σ hd s p σ' s' hσ h2
  | bad e =>
    exfalso
    revert hr
    unfold H264.nalUnitL
    generalize hr : runL nd parseNalHeader ⟨allBits bytes, c⟩ = r
    cases r with
    | bad e => exact absurd hr (safe_nalHeader nd _ e)
    | null s => simp
    | ok hd s =>
      dsimp only
      generalize hr2 : runL nd (parsePayload σ hd) s = r2
      cases r2 with
      | bad e => exact absurd hr2 (hI.safe σ hd hσ nd s e)
      | null s1 => simp
      | ok x s1 => simp

theorem Invariant.nalUnit {opts : ParsingOptions} {data : List UInt8} {off len : Nat} (h : off + len ≤ data.length)
    (hl : data.length < 2 ^ 61) (hf : nd = false → len < 2 ^ 32) {σ : Store} (hσ : I σ) (c : Nat) :
    ∃ n σ' c', parseNalUnit nd opts data off len σ c = .val (n, σ', c') ∧ I σ' := by
  have hfit : Fits nd (strip ((data.drop off).take len)).length := by
    refine fits_of (n := len) (by omega) hf ?_
    have := strip_length ((data.drop off).take len)
    rw [List.length_take] at this
    omega
  rw [parseNalUnit_eqL h hl, if_pos hfit]
  exact hI.nalUnitL _ hσ c

theorem Invariant.inOrder {opts : ParsingOptions} : ∀ (us : List (Nat × List UInt8)) (σ : Store) (c : Nat), I σ →
    (∀ u ∈ us, u.2.length < 2 ^ 61 ∧ (nd = false → u.2.length < 2 ^ 32)) →
    ∃ ns σ' c', InOrder (fun b => parseNalUnit nd opts b 0 b.length) us σ c ns σ' c' ∧ I σ'
  | [], σ, c, hσ, _ => ⟨[], σ, c, .nil σ c, hσ⟩
  | (off, bytes) :: us, σ, c, hσ, hu => by
    obtain ⟨hl, hf⟩ := hu (off, bytes) (by simp)
    dsimp only at hl hf
    obtain ⟨n, σ1, c1, he, hv⟩ := hI.nalUnit (nd := nd) (opts := opts) (data := bytes) (off := 0) (len := bytes.length)
      (by omega) hl hf hσ c
    obtain ⟨ns, σ', c', h1, h2⟩ := Invariant.inOrder us σ1 c1 hv (fun u hu' => hu u (by simp [hu']))
    cases n with
    | none =>
      have : σ1 = σ := parseNalUnit_none (by omega) hl he
      subst this
      exact ⟨_, _, _, .skip he h1, h2⟩
    | some n => exact ⟨_, _, _, .unit he h1, h2⟩

theorem Invariant.bitstream {opts : ParsingOptions} {data : List UInt8} (hl : data.length < 2 ^ 61)
    (hf : nd = false → ∀ e ∈ entries data (starts data), e.payload_size < 2 ^ 32) {σ : Store} (hσ : I σ) (c : Nat) :
    ∃ bs σ' c', parseBitstream nd opts data σ c = .val (bs, σ', c') ∧ I σ' := by
  obtain ⟨ns, σ', c', h, h2⟩ := hI.inOrder (nd := nd) (opts := opts)
    ((entries data (starts data)).map fun e => (e.payload_start_offset, sliceOf data e)) σ c hσ (by
      intro u hu
      refine ⟨slice_lt hl _ u hu, fun h0 => ?_⟩
      simp only [List.mem_map] at hu
      obtain ⟨e, he, rfl⟩ := hu
      have := hf h0 e he
      simp only [sliceOf, List.length_take]
      omega)
  exact ⟨{ nal_units := ns }, σ', c', (C18_in_order nd opts data hl σ c _ σ' c').mpr ⟨rfl, h⟩, h2⟩

theorem Invariant.bitstreamNALULength {opts : ParsingOptions} {data : List UInt8} (hl : data.length < 2 ^ 61)
    (hf : nd = false → data.length < 2 ^ 32) {k : Nat} (hk : k ≤ 7) {σ : Store} (hσ : I σ) (c : Nat) :
    ∃ bs σ' c', parseBitstreamNALULength nd opts data k σ c = .val (bs, σ', c') ∧ I σ' := by
  by_cases h0 : k = 0
  · subst h0
    by_cases hd : data = []
    · subst hd; exact ⟨_, _, _, rfl, hσ⟩
    · obtain ⟨n, σ', c', h, h2⟩ := hI.nalUnit (nd := nd) (opts := opts) (data := data) (off := 0) (len := data.length) (by omega) hl hf
        hσ c
      exact ⟨{ nal_units := n.toList.map fun n => { n with offset := 0, length := 0 } }, σ', c',
        (C17_no_prefix_partial nd opts data hl hd σ c _ σ' c').mpr ⟨rfl, n, h, rfl⟩, h2⟩
  · obtain ⟨us, h1, h2⟩ := C17_in_order_upto7_partial nd opts data hl (k := k) (by omega) hk
    obtain ⟨ns, σ', c', h, h3⟩ := hI.inOrder (nd := nd) (opts := opts) us σ c hσ (by
      intro u hu
      have := lengthUnits_lt h1 u hu
      exact ⟨by omega, fun h => by have := hf h; omega⟩)
    exact ⟨{ nal_units := ns.map fun n => { n with length := k } }, σ', c', (h2 σ c _ σ' c').mpr ⟨rfl, ns, h, rfl⟩, h3⟩

theorem Invariant.payload (h : NalHeader) {σ : Store} (hσ : I σ) {s : St} (hb : s.buf.WF) :
    ∃ x σ' s', runStore nd σ (parsePayload σ h) s = .val (x, σ', s') ∧ I σ' ∧ s'.buf.WF :=
  runStore_inv hb hσ (hI.safe σ h hσ) (fun _ _ _ _ h1 => hI.keep _ _ _ _ _ _ _ hσ h1)

theorem Invariant.rtpSingle {σ : Store} (hσ : I σ) {s : St} (hb : s.buf.WF) :
    ∃ x σ' s', runStore nd σ (parseRtpSingle σ) s = .val (x, σ', s') ∧ I σ' ∧ s'.buf.WF := by
  refine runStore_inv hb hσ ?_ ?_
  · unfold parseRtpSingle
    refine Safe.bind safe_nalHeader (fun h => Safe.bind (hI.safe σ h hσ) (fun x => ?_))
    exact Safe.pure _
  · intro l a τ l' h
    unfold parseRtpSingle at h
    simp only [runL_bind_ok] at h
    obtain ⟨hd, s1, _, ⟨p, τ⟩, s2, h2, h3⟩ := h
    simp only [Prog.pure_eq, runL_ret, Out.ok.injEq, Prod.mk.injEq] at h3
    rw [← h3.1.2]
    exact hI.keep _ _ _ _ _ _ _ hσ h2

theorem Invariant.rtpFuA (ref : Nat) {σ : Store} (hσ : I σ) {s : St} (hb : s.buf.WF) :
    ∃ x σ' s', runStore nd σ (parseRtpFuA σ ref) s = .val (x, σ', s') ∧ I σ' ∧ s'.buf.WF := by
  refine runStore_inv hb hσ ?_ ?_
  · unfold parseRtpFuA
    refine Safe.bind safe_nalHeader (fun h => Safe.bind (Safe.u _) (fun sb => Safe.bind (Safe.u _) (fun eb =>
      Safe.bind (Safe.u _) (fun rb => Safe.bind (Safe.u _) (fun ty => ?_)))))
    refine Safe.ite (fun _ => Safe.pure _) (fun _ => Safe.bind ?_ (fun x => ?_))
    · unfold parsePayloadRT; exact hI.safe σ _ hσ
    · exact Safe.pure _
  · intro l a τ l' h
    unfold parseRtpFuA at h
    simp only [runL_bind_ok] at h
    obtain ⟨hd, s1, _, sb, s2, _, eb, s3, _, rb, s4, _, ty, s5, _, h⟩ := h
    split at h
    · simp only [Prog.pure_eq, runL_ret, Out.ok.injEq, Prod.mk.injEq] at h
      rw [← h.1.2]; exact hσ
    · simp only [runL_bind_ok] at h
      obtain ⟨⟨p, τ⟩, s6, h6, h⟩ := h
      simp only [Prog.pure_eq, runL_ret, Out.ok.injEq, Prod.mk.injEq] at h
      rw [← h.1.2]
      unfold parsePayloadRT at h6
      exact hI.keep _ _ _ _ _ _ _ hσ h6

theorem Invariant.stapAUnit {σ : Store} (hσ : I σ) {s : St} (hb : s.buf.WF) :
    ∃ x σ' s', runStore nd σ (parseStapAUnit σ) s = .val (x, σ', s') ∧ I σ' ∧ s'.buf.WF := by
  refine runStore_inv hb hσ ?_ ?_
  · unfold parseStapAUnit
    refine Safe.bind (Safe.u _) (fun n => Safe.bind Safe.remaining (fun r => Safe.bind (Safe.guard _) (fun _ =>
      Safe.bind safe_nalHeader (fun h => Safe.bind (hI.safe σ h hσ) (fun x => ?_)))))
    exact Safe.pure _
  · intro l a τ l' h
    unfold parseStapAUnit at h
    simp only [runL_bind_ok] at h
    obtain ⟨n, s1, _, r, s2, _, _, s3, _, hd, s4, _, ⟨p, τ⟩, s5, h5, h⟩ := h
    simp only [Prog.pure_eq, runL_ret, Out.ok.injEq, Prod.mk.injEq] at h
    rw [← h.1.2]
    exact hI.keep _ _ _ _ _ _ _ hσ h5

theorem Invariant.stapALoop : ∀ (f : Nat) (σ : Store) (s : St), I σ → s.buf.WF → s.buf.rem.length < f →
    ∃ x σ' s', stapALoop nd f σ s = .val (x, σ', s') ∧ I σ' ∧ s'.buf.WF := by
  intro f
  induction f with
  | zero => intro σ s _ _ h; omega
  | succ f ih =>
    intro σ s hσ hb hf
    unfold H264.stapALoop
    by_cases h : s.buf.remaining > 0
    · rw [if_pos h]
      obtain ⟨x, τ, s1, hr, v1, v2⟩ := hI.stapAUnit (nd := nd) hσ hb
      rw [hr, Res.val_bind]
      cases x with
      | none => exact ⟨none, τ, s1, rfl, v1, v2⟩
      | some x =>
        have := runStore_reads (k := 16) hb (fun l x l' => stapAUnit_reads) hr
        obtain ⟨y, τ', s2, h1, h2, h3⟩ := ih τ s1 v1 v2 (by omega)
        dsimp only
        rw [h1, Res.val_bind]
        cases y with
        | none => exact ⟨none, τ', s2, rfl, h2, h3⟩
        | some ys => exact ⟨some (x :: ys), τ', s2, rfl, h2, h3⟩
    · rw [if_neg h]
      exact ⟨_, _, _, rfl, hσ, hb⟩

theorem Invariant.rtpStapA {σ : Store} (hσ : I σ) {s : St} (hb : s.buf.WF) :
    ∃ x σ' s', parseRtpStapA nd σ s = .val (x, σ', s') ∧ I σ' ∧ s'.buf.WF := by
  obtain ⟨h, s1, h0, hw⟩ := safe_good nd safe_nalHeader hb
  unfold parseRtpStapA
  rw [h0, Res.val_bind]
  cases h with
  | none => exact ⟨none, σ, s1, by dsimp only; rw [Res.pure_eq], hσ, hw⟩
  | some h =>
    obtain ⟨x, σ', s', h1, h2, h3⟩ := hI.stapALoop (nd := nd) (s1.buf.remaining + 1) σ s1 hσ hw
      (by rw [Buf.remaining_eq hw]; omega)
    dsimp only
    rw [h1, Res.val_bind]
    cases x with
    | none => exact ⟨none, σ', s', by dsimp only; rw [Res.pure_eq], h2, h3⟩
    | some x => exact ⟨some { header := h, nal_units := x }, σ', s', by dsimp only; rw [Res.pure_eq], h2, h3⟩

theorem Invariant.rtp {σ : Store} (hσ : I σ) {s : St} (hb : s.buf.WF) :
    ∃ x σ' s', parseRtp nd σ s = .val (x, σ', s') ∧ I σ' ∧ s'.buf.WF := by
  obtain ⟨h, s1, h0, hw⟩ := safe_good nd safe_nalHeader hb
  unfold parseRtp
  rw [h0, Res.val_bind]
  cases h with
  | none => exact ⟨none, σ, s1, by dsimp only; rw [Res.pure_eq], hσ, hw⟩
  | some h =>
    have hw0 : ({ s1 with buf := (s1.buf.seek 0 0).2 } : St).buf.WF := seek0_wf hw
    dsimp only
    dsimp only at hw0
    generalize (s1.buf.seek 0 0).2 = b0 at *
    by_cases h1 : h.nal_unit_type ≤ 23
    · obtain ⟨x, σ', s', g1, g2, g3⟩ := hI.rtpSingle (nd := nd) (s := ⟨b0, s1.cnt⟩) hσ hw0
      rw [if_pos h1, g1, Res.val_bind]; dsimp only; rw [Res.pure_eq]
      exact ⟨_, _, _, rfl, g2, g3⟩
    · rw [if_neg h1]
      by_cases h2 : h.nal_unit_type = 24
      · obtain ⟨x, σ', s', g1, g2, g3⟩ := hI.rtpStapA (nd := nd) (s := ⟨b0, s1.cnt⟩) hσ hw0
        rw [if_pos h2, g1, Res.val_bind]; dsimp only; rw [Res.pure_eq]
        exact ⟨_, _, _, rfl, g2, g3⟩
      · rw [if_neg h2]
        by_cases h3 : h.nal_unit_type = 28
        · obtain ⟨x, σ', s', g1, g2, g3⟩ := hI.rtpFuA (nd := nd) h.nal_ref_idc (s := ⟨b0, s1.cnt⟩) hσ hw0
          rw [if_pos h3, g1, Res.val_bind]; dsimp only; rw [Res.pure_eq]
          exact ⟨_, _, _, rfl, g2, g3⟩
        · rw [if_neg h3, Res.pure_eq]
          exact ⟨_, _, _, rfl, hσ, hw0⟩

omit hI in
theorem onData_inv {α : Type} {f : St → Res (α × Store × St)} {data : List UInt8} {off len : Nat}
    (h : off + len ≤ data.length) (hl : data.length < 2 ^ 61) (hf : nd = false → len < 2 ^ 32)
    (hg : ∀ s : St, s.buf.WF → ∃ x σ' s', f s = .val (x, σ', s') ∧ I σ' ∧ s'.buf.WF) (cnt : Nat) :
    ∃ x σ' cnt', onData nd f data off len cnt = .val (x, σ', cnt') ∧ I σ' := by
  have hm : 2 ^ 61 ≤ maxVector := by decide
  have hfit : Fits nd len := fits_of (by omega) hf (Nat.le_refl _)
  unfold onData
  rw [unescapeRbsp_eq h (by omega), Res.val_bind]
  have hfit' : Fits nd (strip ((data.drop off).take len)).length :=
    hfit.le (Nat.le_trans (strip_length _) (by rw [List.length_take]; omega))
  rw [Buf.new_eq hfit', Res.val_bind]
  obtain ⟨x, σ', s', h1, h2, _⟩ := hg ⟨Buf.start (strip ((data.drop off).take len)), cnt⟩ (Buf.start_wf hfit'.lt)
  rw [h1, Res.val_bind]
  dsimp only
  rw [Res.pure_eq]
  exact ⟨_, _, _, rfl, h2⟩

end

/-! ### Usable states -/

theorem usableDepth_small {v : Nat} (h : v ≤ 6) : UsableDepth v := Or.inl (by omega)

theorem safe_qpDelta_usable {b : Nat} (hb : UsableDepth b) : Safe (parseQpDelta b) := by
  unfold parseQpDelta
  have h : ∃ x : Int, toI32 b = x ∧ -357913941 ≤ x ∧ x ≤ 357913932 := by
    refine ⟨_, rfl, ?_⟩
    unfold UsableDepth at hb
    unfold toI32
    split <;> omega
  obtain ⟨x, e, h1, h2⟩ := h
  rw [e]
  have e1 : sint (6 * x) = .val (6 * x) := sint_eq (by omega) (by omega)
  have e2 : sint (-51 - 6 * x) = .val (-51 - 6 * x) := sint_eq (by omega) (by omega)
  have e3 : sint (51 + 6 * x) = .val (51 + 6 * x) := sint_eq (by omega) (by omega)
  exact Safe.bind Safe.se (fun v => Safe.liftBind e1 (Safe.liftBind e2 (Safe.guardBind (fun _ =>
    Safe.liftBind e1 (Safe.liftBind e3 (Safe.guardBind (fun _ => Safe.ret _)))))))

theorem safe_changeCycle_usable {s : SpsData} {p : Pps} (hp : UsableRate p.slice_group_change_rate_minus1) :
    Safe (parseChangeCycle s p) := by
  unfold parseChangeCycle
  refine Safe.opt (fun _ => ?_)
  unfold UsableRate at hp
  have h : ∃ n, sliceGroupChangeCycleLen s.pic_width_in_mbs_minus1 s.pic_height_in_map_units_minus1
      p.slice_group_change_rate_minus1 = .val n := by
    unfold sliceGroupChangeCycleLen
    dsimp only
    rw [if_neg (by unfold add32; omega)]
    exact ⟨_, rfl⟩
  obtain ⟨n, hn⟩ := h
  refine Safe.liftBind hn ?_
  safe

theorem safe_sliceHeader_usable {σ : Store} (hσ : σ.Usable) (ref type : Nat) : Safe (parseSliceHeader σ ref type) := by
  unfold parseSliceHeader
  refine Safe.bind (by unfold parseSliceStart; safe) (fun x => ?_)
  split
  · exact Safe.null
  · rename_i p hp
    split
    · exact Safe.null
    · rename_i s hs
      have q1 := safe_qpDelta_usable (hσ.depth _ _ hs)
      have q2 := safe_changeCycle_usable (s := s) (hσ.rate _ _ hp)
      unfold parseSliceBody parseFieldPic parsePoc0 parsePoc1 parseNumRef parseSliceMod parseSwitching parseDeblocking
      safe

theorem safe_scalHeader_usable {σ : Store} (hσ : σ.Usable) (n : NalHeader) : Safe (parseScalHeader σ n) := by
  unfold parseScalHeader
  refine Safe.bind (by unfold parseSliceStart; safe) (fun x => ?_)
  split
  · exact Safe.null
  · rename_i p hp
    split
    · exact Safe.null
    · rename_i ss hss
      have q2 := safe_changeCycle_usable (s := ss.seq_parameter_set_data) (hσ.rate _ _ hp)
      split
      · exact Safe.null
      · unfold parseScalBody parseScalPic parseFieldPic parsePoc0 parsePoc1 parseScalRef parseNumRef parseScalWeights
          parseStoreRef parseScalQp parseDeblocking parseScalLayer parseLayerDeblocking parseRefChroma parseFourSe
          parseScalPred parseModes parseAdaptive parseScan
        cases n.svc_extension with
        | none => safe
        | some e => safe

theorem safe_sliceLayer_usable {σ : Store} (hσ : σ.Usable) (a b : Nat) : Safe (parseSliceLayer σ a b) :=
  Safe.bind (safe_sliceHeader_usable hσ a b) (fun _ => Safe.pure _)

theorem safe_sliceLayerExt_usable {σ : Store} (hσ : σ.Usable) (h : NalHeader) : Safe (parseSliceLayerExt σ h) := by
  unfold parseSliceLayerExt
  refine Safe.ite (fun _ => Safe.bind (Safe.attempt (safe_scalHeader_usable hσ h)) (fun _ => Safe.pure _)) (fun _ => ?_)
  exact Safe.ite (fun _ => Safe.pure _) (fun _ => Safe.bind (safe_sliceHeader_usable hσ _ _) (fun _ => Safe.pure _))

theorem usableRate_of {p : Pps} (hp : p.InRange) : UsableRate p.slice_group_change_rate_minus1 := by
  unfold UsableRate
  have := hp.groups.change
  by_cases hc : p.num_slice_groups_minus1 > 0 ∧ 3 ≤ p.slice_group_map_type ∧ p.slice_group_map_type ≤ 5
  · rw [if_pos hc] at this; exact this.2
  · rw [if_neg hc] at this; rw [this.2]; decide

theorem usable_invariant : Invariant Store.Usable where
  safe σ h hσ := by
    unfold parsePayload
    refine Safe.ite (fun _ => Safe.bind (Safe.attempt (safe_sliceLayer_usable hσ _ _)) (fun _ => Safe.pure _)) (fun _ => ?_)
    refine Safe.ite (fun _ => Safe.bind (Safe.attempt safe_sps) (fun _ => Safe.pure _)) (fun _ => ?_)
    refine Safe.ite (fun _ => Safe.bind (Safe.attempt (safe_pps _)) (fun _ => Safe.pure _)) (fun _ => ?_)
    refine Safe.ite (fun _ => Safe.bind (safe_prefixPayload h) (fun _ => Safe.pure _)) (fun _ => ?_)
    refine Safe.ite (fun _ => Safe.bind (Safe.attempt safe_subsetSps) (fun _ => Safe.pure _)) (fun _ => ?_)
    exact Safe.ite (fun _ => Safe.bind (Safe.attempt (safe_sliceLayerExt_usable hσ h)) (fun _ => Safe.pure _)) (fun _ => Safe.pure _)
  keep nd σ h s p σ' s' hσ he := by
    rw [runL_payload] at he
    revert he
    split
    · cases runL nd (parseSliceLayer σ h.nal_ref_idc h.nal_unit_type) s <;> simp <;> rintro _ rfl _ <;> exact hσ
    split
    · cases h7 : runL nd parseSps s with
      | ok a s1 =>
        simp only [Out.ok.injEq, Prod.mk.injEq]
        rintro ⟨⟨_, rfl⟩, _⟩
        have hr := spsData_ranges nd ((sps_iff nd s a).mp ⟨s1, h7⟩).choose_spec
        refine ⟨?_, hσ.rate, hσ.l0, hσ.l1⟩
        intro k x hx
        simp only [Store.addSps, upd] at hx
        split at hx
        · cases hx; exact usableDepth_small hr.1.bit_depth_luma_minus8
        · exact hσ.depth k x hx
      | null s1 => simp; rintro _ rfl _; exact hσ
      | bad e => simp
    split
    · cases h7 : runL nd (parsePps 1) s with
      | ok a s1 =>
        simp only [Out.ok.injEq, Prod.mk.injEq]
        rintro ⟨⟨_, rfl⟩, _⟩
        have hr := (pps_sound nd h7).1
        refine ⟨hσ.depth, ?_, ?_, ?_⟩
        all_goals
          intro k x hx
          simp only [Store.addPps, upd] at hx
          split at hx
        · cases hx; exact usableRate_of hr
        · exact hσ.rate k x hx
        · cases hx; exact Nat.lt_of_le_of_lt hr.l0 (by decide)
        · exact hσ.l0 k x hx
        · cases hx; exact Nat.lt_of_le_of_lt hr.l1 (by decide)
        · exact hσ.l1 k x hx
      | null s1 => simp; rintro _ rfl _; exact hσ
      | bad e => simp
    split
    · cases runL nd (parsePrefixPayload h) s <;> simp <;> rintro _ rfl _ <;> exact hσ
    split
    · cases h7 : runL nd parseSubsetSps s with
      | ok a s1 =>
        simp only [Out.ok.injEq, Prod.mk.injEq]
        rintro ⟨⟨_, rfl⟩, _⟩
        exact ⟨hσ.depth, hσ.rate, hσ.l0, hσ.l1⟩
      | null s1 => simp; rintro _ rfl _; exact hσ
      | bad e => simp
    split
    · cases runL nd (parseSliceLayerExt σ h) s <;> simp <;> rintro _ rfl _ <;> exact hσ
    simp
    rintro _ rfl _
    exact hσ

theorem Store.Valid.usable {σ : Store} (hσ : σ.Valid) : σ.Usable where
  depth k s h := usableDepth_small (hσ.sps k s h).1.1.bit_depth_luma_minus8
  rate k p h := usableRate_of (hσ.pps k p h).1
  l0 k p h := Nat.lt_of_le_of_lt (hσ.pps k p h).1.l0 (by decide)
  l1 k p h := Nat.lt_of_le_of_lt (hσ.pps k p h).1.l1 (by decide)

end H264

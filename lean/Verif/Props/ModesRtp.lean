import Verif.Props.Modes
import Verif.Count

/-
A build with assertions and an NDEBUG build: C45 for RTP packets that are FU-A or STAP-A.
-/

namespace H264.Props
open Prog H264.Spec

/-! ### FU-A -/

/-- C45 for a FU-A packet: both builds return the same.  Partial: unless a first fragment starts a parameter set with a scaling
list in which a delta_scale cannot be read. -/
theorem C45_rtp_fua_partial {f ref s e r t : Nat} (hf : f < 2) (hr : ref < 4) (hs : s < 2) (he : e < 2) (hR : r < 2) (ht : t < 32)
    {frag : List UInt8} (hl : frag.length + 2 < 2 ^ 32) {σ : Store}
    (hm : s = 1 → ¬ UnreadablePayload t (allBits (withoutEmulation frag))) (c : Nat) (nd nd' : Bool)
    {x : Option Rtp} {σ' : Store} {c' : Nat}
    (h : parseRtpData nd (fuIndicator f ref :: fuHeader s e r t :: frag) 0 (frag.length + 2) σ c = .val (x, σ', c')) :
    parseRtpData nd' (fuIndicator f ref :: fuHeader s e r t :: frag) 0 (frag.length + 2) σ c = .val (x, σ', c') := by
  obtain rfl | rfl : s = 0 ∨ s = 1 := by omega
  · rw [C42_later hf hr he hR ht hl] at h ⊢
    exact h
  · have hs2 : strip (fuIndicator f ref :: fuHeader 1 e r t :: frag) = fuIndicator f ref :: fuHeader 1 e r t :: strip frag := by
      rw [strip_ne (fuIndicator_ne f hf ref hr), strip_ne (fuHeader_ne e he r hR t ht)]
    have hsl := strip_length frag
    have hfit : ∀ nd, Fits nd (fuIndicator f ref :: fuHeader 1 e r t :: strip frag).length := by
      intro nd
      simp only [List.length_cons]
      unfold Fits; split <;> omega
    have key : ∀ nd, parseRtpData nd (fuIndicator f ref :: fuHeader 1 e r t :: frag) 0 (frag.length + 2) σ c =
        match runL nd (parsePayloadRT σ ref t) ⟨allBits (strip frag), c⟩ with
        | .ok (p, τ) s' => .val (some { nal_unit_header := { forbidden_zero_bit := f, nal_ref_idc := ref, nal_unit_type := 28 },
                                        rtp_fua := some ⟨ref, { forbidden_zero_bit := f, nal_ref_idc := ref, nal_unit_type := 28 }, 1, e, r, t, some p⟩ }, τ, s'.cnt)
        | .null s' => .val (none, σ, s'.cnt)
        | .bad e => .bad e := by
      intro nd
      unfold parseRtpData
      rw [onData_eq (by simp) (by simp only [List.length_cons]; omega), List.drop_zero, List.take_of_length_le (by simp), hs2,
        if_pos (hfit nd), parseRtp_fuA nd σ hf hr (hfit nd).lt, runL_fuA nd σ ref hf hr (by decide) he hR ht, if_neg (by decide)]
      generalize runL nd (parsePayloadRT σ ref t) ⟨allBits (strip frag), c⟩ = q
      cases q with
      | ok a s' => obtain ⟨p, τ⟩ := a; rfl
      | null s' => rfl
      | bad e => rfl
    have hsim : SimAt (parsePayloadRT σ ref t) ⟨allBits (strip frag), c⟩ := by
      unfold parsePayloadRT
      exact simAt_payload (by rw [strip_eq]; exact hm rfl)
    have same : ∀ nd nd', parseRtpData nd (fuIndicator f ref :: fuHeader 1 e r t :: frag) 0 (frag.length + 2) σ c =
        parseRtpData nd' (fuIndicator f ref :: fuHeader 1 e r t :: frag) 0 (frag.length + 2) σ c := by
      have h0 : parseRtpData true (fuIndicator f ref :: fuHeader 1 e r t :: frag) 0 (frag.length + 2) σ c =
          parseRtpData false (fuIndicator f ref :: fuHeader 1 e r t :: frag) 0 (frag.length + 2) σ c := by
        rw [key, key]
        unfold SimAt at hsim
        generalize runL true (parsePayloadRT σ ref t) ⟨allBits (strip frag), c⟩ = x at *
        generalize runL false (parsePayloadRT σ ref t) ⟨allBits (strip frag), c⟩ = y at *
        cases x <;> cases y <;> simp only [Out.sim] at hsim
        · obtain ⟨rfl, h2⟩ := hsim
          dsimp only
          rw [h2]
        · dsimp only
          rw [hsim]
        · rw [hsim]
      intro nd nd'
      cases nd <;> cases nd' <;> first | rfl | exact h0 | exact h0.symm
    rw [same nd' nd]
    exact h

/-! ### Success in one build -/

/-- When one build returns a value that satisfies `P`, the other returns it too and stops at the same place. -/
def OkIf {α : Type} (p : Prog α) (s : LSt) (P : α → Prop) : Prop :=
  ∀ nd nd' a t, runL nd p s = .ok a t → P a → runL nd' p s = .ok a t

theorem OkIf.of_same {α : Type} {p : Prog α} {s : LSt} {P : α → Prop} (h : SameAt p s) : OkIf p s P := by
  have key : ∀ a t, runL true p s = .ok a t ↔ runL false p s = .ok a t := by
    intro a t
    unfold SameAt at h
    revert h
    cases runL true p s <;> cases runL false p s <;> simp [Out.same]
    rintro rfl rfl
    exact Iff.rfl
  intro nd nd' a t h1 _
  cases nd <;> cases nd' <;> first | exact h1 | exact (key a t).mp h1 | exact (key a t).mpr h1

theorem OkIf.of_mode {α : Type} {p : Prog α} {P : α → Prop} (h : ModeIndep p) (s : LSt) : OkIf p s P := .of_same (h s)

theorem OkIf.of_codec {α : Type} {p : Prog α} {e : α → List Bool} {V : α → Prop} {P : α → Prop} (h : Codec p e V) (s : LSt) :
    OkIf p s P := by
  obtain ⟨l, c⟩ := s
  intro nd nd' a t h1 _
  exact (h nd' l c a t).mpr ((h nd l c a t).mp h1)

theorem OkIf.map {α β : Type} {p : Prog α} {g : α → β} {s : LSt} {P : β → Prop} (h : OkIf p s (fun a => P (g a))) :
    OkIf (p >>= fun a => Pure.pure (g a)) s P := by
  intro nd nd' b t h1 hb
  rw [runL_bind_ok] at h1 ⊢
  obtain ⟨a, s1, h2, h3⟩ := h1
  simp only [Prog.pure_eq, runL_ret, Out.ok.injEq] at h3
  obtain ⟨rfl, rfl⟩ := h3
  exact ⟨a, s1, h nd nd' a s1 h2 hb, by simp⟩

theorem OkIf.attempt {α : Type} {p : Prog α} {s : LSt} {P : Option α → Prop} (h : OkIf p s (fun a => P (some a))) (hn : ¬ P none) :
    OkIf p.attempt s P := by
  intro nd nd' b t h1 hb
  rw [runL_attempt] at h1 ⊢
  cases b with
  | none => exact absurd hb hn
  | some b =>
    cases h2 : runL nd p s with
    | bad e => rw [h2] at h1; cases h1
    | null s1 => rw [h2] at h1; cases h1
    | ok a s1 =>
      rw [h2] at h1
      cases h1
      rw [h nd nd' _ _ h2 hb]

theorem OkIf.ite {α : Type} {c : Prop} [Decidable c] {p q : Prog α} {s : LSt} {P : α → Prop} (hp : c → OkIf p s P)
    (hq : ¬ c → OkIf q s P) : OkIf (if c then p else q) s P := by
  by_cases h : c
  · rw [if_pos h]; exact hp h
  · rw [if_neg h]; exact hq h

theorem OkIf.bind {α β : Type} {p : Prog α} {f : α → Prog β} {s : LSt} {Q : α → Prop} {P : β → Prop} (hp : OkIf p s Q)
    (hf : ∀ a s1, Q a → OkIf (f a) s1 P)
    (hq : ∀ nd a s1 b t, runL nd (f a) s1 = .ok b t → P b → Q a) : OkIf (p >>= f) s P := by
  intro nd nd' b t h1 hb
  rw [runL_bind_ok] at h1 ⊢
  obtain ⟨a, s1, h2, h3⟩ := h1
  have ha := hq nd a s1 b t h3 hb
  exact ⟨a, s1, hp nd nd' a s1 h2 ha, hf a s1 ha nd nd' b t h3 hb⟩

/-- The two builds agree on an SPS without scaling matrix. -/
theorem okIf_spsData (s : LSt) : OkIf parseSpsData s (fun d => d.seq_scaling_matrix_present_flag = 0) := by
  obtain ⟨l, c⟩ := s
  intro nd nd' d t h hf
  rcases spsData_sound nd h with ⟨x, r, ok, rfl, rfl, rfl⟩ | ⟨hd, rest, h3, h4, ls, ds, rest', h5, _⟩
  · exact spsData_complete nd' ok r c
  · exfalso
    unfold parseSpsData at h
    rw [runL_bind_ok] at h
    obtain ⟨hd', s3, h6, h2⟩ := h
    rw [h4, codec_spsHead.parse_append nd h3] at h6
    simp only [Out.ok.injEq] at h6
    obtain ⟨rfl, _⟩ := h6
    rw [runL_bind_ok] at h2
    obtain ⟨_, _, _, h2⟩ := h2
    rw [runL_bind_ok] at h2
    obtain ⟨_, _, _, h2⟩ := h2
    simp only [Prog.pure_eq, runL_ret, Out.ok.injEq] at h2
    rw [← h2.1] at hf
    have : spsListCount hd = 0 := by unfold spsListCount; rw [if_neg (by dsimp only at hf; omega)]
    omega

theorem okIf_pps (s : LSt) (cf : Nat) : OkIf (parsePps cf) s (fun p => p.pic_scaling_matrix_present_flag = 0) := by
  unfold parsePps
  refine OkIf.bind (Q := fun _ => True) (.of_codec codec_ppsHead _) (fun hd s1 _ => ?_) (fun _ _ _ _ _ _ _ => trivial)
  refine OkIf.bind (Q := fun _ => True) (.of_mode mode_more _) (fun more s2 _ => ?_) (fun _ _ _ _ _ _ _ => trivial)
  refine OkIf.bind (Q := fun e => e.2.1 = 0) ?_ (fun e s3 _ => ?_) ?_
  · unfold Prog.opt
    refine OkIf.ite (fun _ => ?_) (fun _ => .of_mode (ModeIndep.pure _) _)
    obtain ⟨l, c⟩ := s2
    intro nd nd' e t h he
    rcases ppsExt_sound nd h with ⟨x, r, ok, rfl, rfl, rfl⟩ | ⟨h1, _⟩
    · exact ppsExt_complete nd' ok r c
    · omega
  · exact .of_mode (ModeIndep.bind mode_attempt_trailing (fun _ => ModeIndep.pure _)) _
  · intro nd a s1 b t h hb
    rw [runL_bind_ok] at h
    obtain ⟨_, _, _, h⟩ := h
    simp only [Prog.pure_eq, runL_ret, Out.ok.injEq] at h
    rw [← h.1] at hb
    exact hb

/-- The payload holds no scaling matrix. -/
structure NoMatrix (p : Payload) : Prop where
  sps : ∀ s ∈ p.sps, s.seq_scaling_matrix_present_flag = 0
  pps : ∀ s ∈ p.pps, s.pic_scaling_matrix_present_flag = 0
  subset_sps : ∀ s ∈ p.subset_sps, s.seq_parameter_set_data.seq_scaling_matrix_present_flag = 0

theorem okIf_payload (σ : Store) (h : NalHeader) (s : LSt) :
    OkIf (parsePayload σ h) s (fun x => Complete h.nal_unit_type x.1 ∧ NoMatrix x.1) := by
  unfold parsePayload
  refine OkIf.ite (fun h1 => ?_) (fun _ => OkIf.ite (fun h7 => ?_) (fun _ => OkIf.ite (fun h8 => ?_) (fun _ =>
    OkIf.ite (fun h14 => ?_) (fun _ => OkIf.ite (fun h15 => ?_) (fun _ => OkIf.ite (fun h20 => ?_) (fun _ => ?_))))))
  · refine OkIf.map (OkIf.attempt (OkIf.of_mode ?_ _) ?_)
    · exact ModeIndep.bind (mode_sliceHeader σ _ _) (fun _ => ModeIndep.pure _)
    · rintro ⟨⟨hc, _⟩, _⟩
      unfold Payload.isPayloadParsed at hc
      rw [if_neg (by omega), if_neg (by omega), if_neg (by omega), if_neg (by omega), if_pos h1] at hc
      cases hc
  · refine OkIf.map (OkIf.attempt ?_ ?_)
    · unfold parseSps
      refine OkIf.bind (okIf_spsData _) (fun d s1 _ => .of_mode ?_ _) ?_
      · exact ModeIndep.bind mode_attempt_trailing (fun _ => ModeIndep.pure _)
      · intro nd d s1 b t h hb
        rw [runL_bind_ok] at h
        obtain ⟨_, _, _, h⟩ := h
        simp only [Prog.pure_eq, runL_ret, Out.ok.injEq] at h
        rw [← h.1] at hb
        exact hb.2.sps _ rfl
    · rintro ⟨⟨hc, _⟩, _⟩
      unfold Payload.isPayloadParsed at hc
      rw [if_pos h7] at hc
      cases hc
  · refine OkIf.map (OkIf.attempt ?_ ?_)
    · intro nd nd' a t h1 h2
      exact okIf_pps _ _ nd nd' a t h1 (h2.2.pps _ rfl)
    · rintro ⟨⟨hc, _⟩, _⟩
      unfold Payload.isPayloadParsed at hc
      rw [if_neg (by omega), if_pos h8] at hc
      cases hc
  · refine OkIf.map ?_
    have hn : ∀ x : Payload × Store, x.1.prefix_nal_unit = none → ¬ (Complete h.nal_unit_type x.1 ∧ NoMatrix x.1) := by
      rintro x hx ⟨⟨hc, _⟩, _⟩
      unfold Payload.isPayloadParsed at hc
      rw [if_neg (by omega), if_neg (by omega), if_neg (by omega), if_pos h14, hx] at hc
      cases hc
    unfold parsePrefixPayload
    refine OkIf.ite (fun _ => ?_) (fun _ => .of_mode (ModeIndep.pure _) _)
    cases h.svc_extension with
    | none => exact .of_mode (ModeIndep.pure _) _
    | some e => exact OkIf.attempt (.of_mode (mode_prefixRbsp _ _ _ _) _) (hn _ rfl)
  · refine OkIf.map (OkIf.attempt ?_ ?_)
    · unfold parseSubsetSps
      refine OkIf.bind (okIf_spsData _) (fun d s1 _ => .of_mode ?_ _) ?_
      · exact ModeIndep.bind (mode_subsetExt _ _) (fun _ => ModeIndep.bind mode_ext2 (fun _ =>
          ModeIndep.bind mode_attempt_trailing (fun _ => ModeIndep.pure _)))
      · intro nd d s1 b t h hb
        rw [runL_bind_ok] at h
        obtain ⟨_, _, _, h⟩ := h
        rw [runL_bind_ok] at h
        obtain ⟨_, _, _, h⟩ := h
        rw [runL_bind_ok] at h
        obtain ⟨_, _, _, h⟩ := h
        simp only [Prog.pure_eq, runL_ret, Out.ok.injEq] at h
        rw [← h.1] at hb
        exact hb.2.subset_sps _ rfl
    · rintro ⟨⟨hc, _⟩, _⟩
      unfold Payload.isPayloadParsed at hc
      rw [if_neg (by omega), if_neg (by omega), if_pos h15] at hc
      cases hc
  · refine OkIf.map (OkIf.attempt ?_ ?_)
    · unfold parseSliceLayerExt
      refine OkIf.ite (fun _ => OkIf.map (OkIf.attempt (.of_mode (mode_scalHeader σ h) _) ?_)) (fun _ => ?_)
      · rintro ⟨⟨_, hc⟩, _⟩
        have := hc _ h20 rfl
        simp at this
      · exact OkIf.ite (fun _ => .of_mode (ModeIndep.pure _) _) (fun _ =>
          .of_mode (ModeIndep.bind (mode_sliceHeader σ _ _) (fun _ => ModeIndep.pure _)) _)
    · rintro ⟨⟨hc, _⟩, _⟩
      unfold Payload.isPayloadParsed at hc
      rw [if_neg (by omega), if_neg (by omega), if_neg (by omega), if_neg (by omega), if_neg (by omega), if_pos h20] at hc
      cases hc
  · exact .of_mode (ModeIndep.pure _) _

theorem okIf_stapAUnit (σ : Store) (s : LSt) :
    OkIf (parseStapAUnit σ) s (fun x => Complete x.1.2.1.nal_unit_type x.1.2.2 ∧ NoMatrix x.1.2.2) := by
  unfold parseStapAUnit
  refine OkIf.bind (Q := fun _ => True) (.of_mode (by modeindep) _) (fun n s1 _ => ?_) (fun _ _ _ _ _ _ _ => trivial)
  refine OkIf.bind (Q := fun _ => True) (.of_mode (by modeindep) _) (fun n s1 _ => ?_) (fun _ _ _ _ _ _ _ => trivial)
  refine OkIf.bind (Q := fun _ => True) (.of_mode (by modeindep) _) (fun n s1 _ => ?_) (fun _ _ _ _ _ _ _ => trivial)
  refine OkIf.bind (Q := fun _ => True) (.of_mode mode_nalHeader _) (fun h s1 _ => ?_) (fun _ _ _ _ _ _ _ => trivial)
  refine OkIf.bind (okIf_payload σ h s1) (fun p s2 _ => .of_mode (ModeIndep.pure _) _) ?_
  intro nd a s1 b t h1 hb
  obtain ⟨p, τ⟩ := a
  simp only [Prog.pure_eq, runL_ret, Out.ok.injEq] at h1
  rw [← h1.1] at hb
  exact hb

/-! ### STAP-A -/

theorem runStore_bad {α : Type} (nd : Bool) (σ : Store) {p : Prog (α × Store)} {b : Buf} {c : Nat} (hb : b.WF)
    {e : Bad} (h : runL nd p ⟨b.rem, c⟩ = .bad e) : runStore nd σ p ⟨b, c⟩ = .bad e := by
  unfold runStore
  rw [run_eq nd p hb, h]
  rfl

theorem stapALoop_okIf {nd nd' : Bool} : ∀ (f : Nat) {σ σ' : Store} {s s' : St} {xs : List (Nat × NalHeader × Payload)}, s.buf.WF →
    stapALoop nd f σ s = .val (some xs, σ', s') →
    (∀ x ∈ xs, Complete x.2.1.nal_unit_type x.2.2 ∧ NoMatrix x.2.2) → stapALoop nd' f σ s = .val (some xs, σ', s') := by
  intro f
  induction f with
  | zero =>
    intro σ σ' s s' xs _ h _
    unfold stapALoop at h
    cases h
  | succ f ih =>
    intro σ σ' s s' xs hb h hx
    obtain ⟨b, c⟩ := s
    dsimp only at hb
    unfold stapALoop at h ⊢
    dsimp only at h ⊢
    by_cases hr : b.remaining > 0
    · rw [if_pos hr] at h ⊢
      cases h1 : runL nd (parseStapAUnit σ) ⟨b.rem, c⟩ with
      | bad e =>
        rw [runStore_bad nd σ hb h1, Res.bad_bind] at h
        cases h
      | null s1 =>
        rw [runStore_null nd σ hb h1, Res.val_bind] at h
        dsimp only at h
        rw [Res.pure_eq] at h
        simp at h
      | ok a s1 =>
        obtain ⟨x, τ⟩ := a
        rw [runStore_ok nd σ hb h1, Res.val_bind] at h
        dsimp only at h
        have hb' : (toSt b s1).buf.WF := by
          have h2 := (run_ok_iff nd (parseStapAUnit σ) hb c (x, τ) (toSt b s1)).mpr ⟨s1, h1, rfl⟩
          have h3 := run_wf nd (parseStapAUnit σ) hb c
          rw [h2] at h3
          exact h3.1
        cases h3 : stapALoop nd f τ (toSt b s1) with
        | bad e => rw [h3, Res.bad_bind] at h; cases h
        | val y =>
          obtain ⟨ys, τ', s2⟩ := y
          rw [h3, Res.val_bind] at h
          dsimp only at h
          cases ys with
          | none =>
            dsimp only at h
            rw [Res.pure_eq] at h
            simp at h
          | some ys =>
            dsimp only at h
            rw [Res.pure_eq] at h
            simp only [Res.val.injEq, Prod.mk.injEq, Option.some.injEq] at h
            obtain ⟨rfl, rfl, rfl⟩ := h
            have hx1 := hx x (by simp)
            rw [runStore_ok nd' σ hb (okIf_stapAUnit σ _ nd nd' _ _ h1 hx1), Res.val_bind]
            dsimp only
            rw [ih hb' h3 (fun y hy => hx y (by simp [hy])), Res.val_bind]
            dsimp only
            rw [Res.pure_eq]
    · rw [if_neg hr] at h ⊢
      exact h

/-- C45 for a packet that is parsed as a STAP-A packet.  Partial: for packets all of whose NAL units are parsed completely, and
hold no scaling matrix; see `C45_stapa_differs`. -/
theorem C45_rtp_stapa_partial {data : List UInt8} {off len : Nat} (h : off + len ≤ data.length)
    (hl : data.length < 2 ^ 32) (σ : Store) (c : Nat) (nd nd' : Bool) {x : Rtp} {y : RtpStapA} {σ' : Store} {c' : Nat}
    (he : parseRtpData nd data off len σ c = .val (some x, σ', c')) (hx : x.rtp_stapa = some y)
    (hy : ∀ u ∈ y.nal_units, Complete u.2.1.nal_unit_type u.2.2 ∧ NoMatrix u.2.2) :
    parseRtpData nd' data off len σ c = .val (some x, σ', c') := by
  have hf : ∀ nd, Fits nd (strip ((data.drop off).take len)).length := by
    intro nd
    have := strip_length ((data.drop off).take len)
    rw [List.length_take, List.length_drop] at this
    unfold Fits
    split <;> omega
  unfold parseRtpData at he ⊢
  rw [onData_eq h (by omega), if_pos (hf _)] at he ⊢
  have hl2 : (strip ((data.drop off).take len)).length < 2 ^ 61 := by
    have := strip_length ((data.drop off).take len)
    rw [List.length_take, List.length_drop] at this
    omega
  generalize strip ((data.drop off).take len) = bytes at *
  cases h1 : runL nd parseNalHeader ⟨allBits bytes, c⟩ with
  | bad e => exact absurd h1 (safe_nalHeader nd _ e)
  | null s =>
    unfold parseRtp at he
    rw [header_start nd hl2 c, h1] at he
    simp only at he
    rw [Res.val_bind] at he
    dsimp only at he
    rw [Res.pure_eq] at he
    simp [Res.bind] at he
  | ok hd s =>
    have h1' := OkIf.of_mode (P := fun _ => True) mode_nalHeader ⟨allBits bytes, c⟩ nd nd' hd s h1 trivial
    have h24 : hd.nal_unit_type = 24 := by
      refine Classical.byContradiction fun ht => ?_
      unfold parseRtp at he
      rw [header_start nd hl2 c, h1] at he
      simp only at he
      rw [Res.val_bind] at he
      dsimp only at he
      rw [seek0_start, if_neg ht] at he
      have key : ∀ {α : Type} (r : Res (Option α × Store × St)) (g : α → Rtp), (∀ a, (g a).rtp_stapa = none) →
          ((r >>= fun a => Pure.pure (a.1.map g, a.2.1, a.2.2)).bind fun x : Option Rtp × Store × St => Res.val (x.1, x.2.1, x.2.2.cnt)) ≠
            Res.val (some x, σ', c') := by
        intro α r g hg he
        cases r with
        | bad e => cases he
        | val r =>
          obtain ⟨a, b, s2⟩ := r
          rw [Res.val_bind] at he
          cases a with
          | none => simp [Res.pure_eq, Res.bind] at he
          | some a =>
            simp only [Res.pure_eq, Res.bind, Option.map, Res.val.injEq, Prod.mk.injEq, Option.some.injEq] at he
            rw [← he.1, hg] at hx; cases hx
      split at he
      · exact key _ (fun z => { nal_unit_header := hd, rtp_single := some z }) (fun _ => rfl) he
      · split at he
        · exact key _ (fun z => { nal_unit_header := hd, rtp_fua := some z }) (fun _ => rfl) he
        · simp only [Res.pure_eq, Res.bind, Res.val.injEq, Prod.mk.injEq, Option.some.injEq] at he
          rw [← he.1] at hx; cases hx
    rw [parseRtp_24 nd σ hl2 c h1 h24, parseRtpStapA_start nd σ hl2 c h1] at he
    rw [parseRtp_24 nd' σ hl2 c h1' h24, parseRtpStapA_start nd' σ hl2 c h1']
    have hb : (toSt (Buf.start bytes) s).buf.WF := by
      have h3 := run_wf nd parseNalHeader (Buf.start_wf hl2) c
      rw [run_eq nd _ (Buf.start_wf hl2), Buf.start_rem, h1] at h3
      exact h3.1
    cases h2 : stapALoop nd ((toSt (Buf.start bytes) s).buf.remaining + 1) σ (toSt (Buf.start bytes) s) with
    | bad e => rw [h2] at he; cases he
    | val z =>
      obtain ⟨z, τ, s1⟩ := z
      rw [h2] at he
      cases z with
      | none => cases he
      | some z =>
        simp only [Res.bind, Option.map, Res.val.injEq, Prod.mk.injEq, Option.some.injEq] at he
        obtain ⟨rfl, rfl, rfl⟩ := he
        simp only [Option.some.injEq] at hx
        subst hx
        rw [stapALoop_okIf _ hb h2 hy]
        rfl

/-- C45 is false for STAP-A packets with a NAL unit that is not parsed completely: a slice whose first ue(v) is cut off.  The NDEBUG
build returns the packet; the build with assertions goes back, takes the zero byte for a size field, and returns null. -/
theorem C45_stapa_differs :
    (∃ r, parseRtpData true [0x78, 0, 2, 0x65, 0] 0 5 {} 0 = .val r ∧
      (r.1.bind (·.rtp_stapa)).map (fun y => y.nal_units.map fun u => (u.1, u.2.1.nal_unit_type)) = some [(2, 5)]) ∧
    (∃ r, parseRtpData false [0x78, 0, 2, 0x65, 0] 0 5 {} 0 = .val r ∧ r.1 = none) :=
  ⟨exists_dec (by decide +kernel), exists_dec (by decide +kernel)⟩

instance (p : Payload) : Decidable (NoMatrix p) :=
  decidable_of_iff ((∀ s ∈ p.sps, s.seq_scaling_matrix_present_flag = 0) ∧ (∀ s ∈ p.pps, s.pic_scaling_matrix_present_flag = 0) ∧
    (∀ s ∈ p.subset_sps, s.seq_parameter_set_data.seq_scaling_matrix_present_flag = 0))
    ⟨fun ⟨a, b, c⟩ => ⟨a, b, c⟩, fun ⟨a, b, c⟩ => ⟨a, b, c⟩⟩

/-- The SPS of `exSvcStream`, in the Baseline profile. -/
def exBaseSpsNal : List UInt8 := [103, 66, 0, 10, 166, 130, 196, 228]

/-- A STAP-A packet of an SPS, an end of sequence and a PPS meets the hypotheses. -/
example (nd : Bool) : ∃ r, parseRtpData nd (stapPacket 0 3 [exBaseSpsNal, [10], exStapPpsNal]) 0
      (stapPacket 0 3 [exBaseSpsNal, [10], exStapPpsNal]).length {} 0 = .val r ∧
    ((r.1.bind (·.rtp_stapa)).map (fun y => y.nal_units.all fun u =>
      u.2.2.isPayloadParsed u.2.1.nal_unit_type && decide (u.2.1.nal_unit_type ≠ 20) && decide (NoMatrix u.2.2)) = some true ∧
     (r.1.bind (·.rtp_stapa)).map (·.nal_units.length) = some 3) := by
  cases nd <;> exact exists_dec (by decide +kernel)

/-- A first fragment of a slice meets the hypothesis of `C45_rtp_fua_partial`. -/
example (l : List Bool) : ¬ UnreadablePayload 5 l := by
  rintro (⟨h, _⟩ | ⟨h, _⟩ | ⟨h, _⟩) <;> omega

end H264.Props

import Verif.Props.State
import Verif.Props.StapA
import Verif.Props.Length

/-
C68 for RTP packets and length-prefixed streams.
-/

namespace H264.Props
open H264 H264.Spec Prog

/-- A parser call that can change the store, with more parameter sets. -/
theorem runStore_holds {α : Type} {nd : Bool} {σ τ σ' : Store} {p q : Prog (α × Store)} {s s' : St} {x : α} (hb : s.buf.WF)
    (hpq : ∀ l l', runL nd p l = .ok (x, σ') l' → ∃ τ', runL nd q l = .ok (x, τ') l' ∧ Holds τ' σ')
    (h : runStore nd σ p s = .val (some x, σ', s')) :
    s'.buf.WF ∧ ∃ τ', runStore nd τ q s = .val (some x, τ', s') ∧ Holds τ' σ' := by
  obtain ⟨b, c⟩ := s
  have hw := run_wf nd p hb c
  unfold runStore at h ⊢
  rw [run_eq nd p hb c] at h hw
  rw [run_eq nd q hb c]
  have hd := hpq ⟨b.rem, c⟩
  generalize runL nd p ⟨b.rem, c⟩ = r at *
  cases r with
  | ok a s1 =>
    obtain ⟨a, τ1⟩ := a
    simp only [Out.mapSt, Res.val.injEq, Prod.mk.injEq, Option.some.injEq] at h
    obtain ⟨rfl, rfl, rfl⟩ := h
    obtain ⟨τ', h1, h2⟩ := hd _ rfl
    rw [h1]
    exact ⟨hw.1, τ', rfl, h2⟩
  | null s1 => simp [Out.mapSt] at h
  | bad e => simp [Out.mapSt] at h

theorem rtpSingle_holds {nd : Bool} {σ τ σ' : Store} (hτ : Holds τ σ) {l l' : LSt} {x : RtpSingle}
    (hh : HasHeader { nal_unit_header := x.nal_unit_header, nal_unit_payload := x.nal_unit_payload })
    (h : runL nd (parseRtpSingle σ) l = .ok (x, σ') l') : ∃ τ', runL nd (parseRtpSingle τ) l = .ok (x, τ') l' ∧ Holds τ' σ' := by
  unfold parseRtpSingle at h ⊢
  simp only [runL_bind_ok] at h ⊢
  obtain ⟨hd, s1, h1, ⟨p, σ1⟩, s2, h2, h3⟩ := h
  simp only [Prog.pure_eq, runL_ret, Out.ok.injEq, Prod.mk.injEq] at h3
  obtain ⟨⟨rfl, rfl⟩, rfl⟩ := h3
  obtain ⟨τ', h4, h5⟩ := payload_holds hτ h2 hh
  exact ⟨τ', ⟨hd, s1, h1, ⟨p, τ'⟩, s2, h4, rfl⟩, h5⟩

theorem rtpFuA_holds {nd : Bool} {σ τ σ' : Store} (hτ : Holds τ σ) {ref : Nat} {l l' : LSt} {x : RtpFuA}
    (hh : ∀ p, x.nal_unit_payload = some p → HasHeader { nal_unit_header := { x.header with nal_unit_type := x.fu_type }, nal_unit_payload := p })
    (h : runL nd (parseRtpFuA σ ref) l = .ok (x, σ') l') : ∃ τ', runL nd (parseRtpFuA τ ref) l = .ok (x, τ') l' ∧ Holds τ' σ' := by
  unfold parseRtpFuA at h ⊢
  simp only [runL_bind_ok] at h ⊢
  obtain ⟨hd, s1, h1, sb, s2, h2, eb, s3, h3, rb, s4, h4, ty, s5, h5, h⟩ := h
  by_cases hs : sb = 0
  · rw [if_pos hs] at h
    simp only [Prog.pure_eq, runL_ret, Out.ok.injEq, Prod.mk.injEq] at h
    obtain ⟨⟨rfl, rfl⟩, rfl⟩ := h
    exact ⟨τ, ⟨hd, s1, h1, sb, s2, h2, eb, s3, h3, rb, s4, h4, ty, s5, h5, by rw [if_pos hs]; rfl⟩, hτ⟩
  · rw [if_neg hs] at h
    simp only [runL_bind_ok] at h
    obtain ⟨⟨p, σ1⟩, s6, h6, h⟩ := h
    simp only [Prog.pure_eq, runL_ret, Out.ok.injEq, Prod.mk.injEq] at h
    obtain ⟨⟨rfl, rfl⟩, rfl⟩ := h
    have hp := hh p rfl
    obtain ⟨τ', h7, h8⟩ := payload_holds hτ h6 ⟨hp.1, hp.2⟩
    refine ⟨τ', ⟨hd, s1, h1, sb, s2, h2, eb, s3, h3, rb, s4, h4, ty, s5, h5, ?_⟩, h8⟩
    rw [if_neg hs]
    simp only [runL_bind_ok]
    exact ⟨⟨p, τ'⟩, s6, h7, rfl⟩

theorem stapAUnit_holds {nd : Bool} {σ τ σ' : Store} (hτ : Holds τ σ) {l l' : LSt} {x : Nat × NalHeader × Payload}
    (hh : HasHeader { nal_unit_header := x.2.1, nal_unit_payload := x.2.2 })
    (h : runL nd (parseStapAUnit σ) l = .ok (x, σ') l') : ∃ τ', runL nd (parseStapAUnit τ) l = .ok (x, τ') l' ∧ Holds τ' σ' := by
  unfold parseStapAUnit at h ⊢
  simp only [runL_bind_ok] at h ⊢
  obtain ⟨n, s1, h1, r, s2, h2, g, s3, h3, hd, s4, h4, ⟨p, σ1⟩, s5, h5, h⟩ := h
  simp only [Prog.pure_eq, runL_ret, Out.ok.injEq, Prod.mk.injEq] at h
  obtain ⟨⟨rfl, rfl⟩, rfl⟩ := h
  obtain ⟨τ', h6, h7⟩ := payload_holds hτ h5 hh
  exact ⟨τ', ⟨n, s1, h1, r, s2, h2, g, s3, h3, hd, s4, h4, ⟨p, τ'⟩, s5, h6, rfl⟩, h7⟩

theorem stapALoop_holds (nd : Bool) : ∀ (f : Nat) {σ τ σ' : Store} {s s' : St} {xs : List (Nat × NalHeader × Payload)}, Holds τ σ →
    s.buf.WF → (∀ u ∈ xs, HasHeader { nal_unit_header := u.2.1, nal_unit_payload := u.2.2 }) →
    stapALoop nd f σ s = .val (some xs, σ', s') → ∃ τ', stapALoop nd f τ s = .val (some xs, τ', s') ∧ Holds τ' σ' := by
  intro f
  induction f with
  | zero => intro σ τ σ' s s' xs _ _ _ h; cases h
  | succ f ih =>
    intro σ τ σ' s s' xs hτ hb hh h
    unfold stapALoop at h ⊢
    by_cases hr : s.buf.remaining > 0
    · rw [if_pos hr] at h ⊢
      cases h1 : runStore nd σ (parseStapAUnit σ) s with
      | bad e => rw [h1] at h; cases h
      | val y =>
        obtain ⟨x, σ1, s1⟩ := y
        rw [h1, Res.val_bind] at h
        dsimp only at h
        cases x with
        | none => cases h
        | some x =>
          dsimp only at h
          cases h2 : stapALoop nd f σ1 s1 with
          | bad e => rw [h2] at h; cases h
          | val y =>
            obtain ⟨ys, σ2, s2⟩ := y
            rw [h2, Res.val_bind] at h
            dsimp only at h
            cases ys with
            | none => cases h
            | some ys =>
              dsimp only at h
              simp only [Res.pure_eq, Res.val.injEq, Prod.mk.injEq, Option.some.injEq] at h
              obtain ⟨rfl, rfl, rfl⟩ := h
              obtain ⟨hw, τ1, h3, h4⟩ := runStore_holds (τ := τ) (q := parseStapAUnit τ) hb
                (fun l l' => stapAUnit_holds hτ (hh x (List.mem_cons_self ..))) h1
              obtain ⟨τ2, h5, h6⟩ := ih h4 hw (fun u hu => hh u (List.mem_cons_of_mem _ hu)) h2
              refine ⟨τ2, ?_, h6⟩
              rw [h3, Res.val_bind]
              dsimp only
              rw [h5, Res.val_bind]
              rfl
    · rw [if_neg hr] at h ⊢
      simp only [Res.pure_eq, Res.val.injEq, Prod.mk.injEq, Option.some.injEq] at h
      obtain ⟨rfl, rfl, rfl⟩ := h
      exact ⟨τ, rfl, hτ⟩

theorem header_wf (nd : Bool) {s s' : St} {h : Option NalHeader} (hb : s.buf.WF) (hr : (run nd parseNalHeader s).res = .val (h, s')) :
    s'.buf.WF := by
  obtain ⟨x, s1, h1, h2⟩ := safe_good nd safe_nalHeader hb
  rw [h1] at hr
  cases hr
  exact h2

theorem rtpStapA_holds (nd : Bool) {σ τ σ' : Store} {s s' : St} {x : RtpStapA} (hτ : Holds τ σ) (hb : s.buf.WF)
    (hh : ∀ u ∈ x.nal_units, HasHeader { nal_unit_header := u.2.1, nal_unit_payload := u.2.2 })
    (h : parseRtpStapA nd σ s = .val (some x, σ', s')) : ∃ τ', parseRtpStapA nd τ s = .val (some x, τ', s') ∧ Holds τ' σ' := by
  unfold parseRtpStapA at h ⊢
  cases h0 : (run nd parseNalHeader s).res with
  | bad e => rw [h0] at h; cases h
  | val y =>
    obtain ⟨hd, s1⟩ := y
    have hw := header_wf nd hb h0
    rw [h0, Res.val_bind] at h
    rw [Res.val_bind]
    dsimp only at h ⊢
    cases hd with
    | none => cases h
    | some hd =>
      dsimp only at h ⊢
      cases h2 : stapALoop nd (s1.buf.remaining + 1) σ s1 with
      | bad e => rw [h2] at h; cases h
      | val y =>
        obtain ⟨ys, σ2, s2⟩ := y
        rw [h2, Res.val_bind] at h
        dsimp only at h
        cases ys with
        | none => cases h
        | some ys =>
          dsimp only at h
          simp only [Res.pure_eq, Res.val.injEq, Prod.mk.injEq, Option.some.injEq] at h
          obtain ⟨rfl, rfl, rfl⟩ := h
          obtain ⟨τ2, h5, h6⟩ := stapALoop_holds nd _ hτ hw hh h2
          refine ⟨τ2, ?_, h6⟩
          rw [h5, Res.val_bind]
          rfl

theorem rtp_holds (nd : Bool) {σ τ σ' : Store} {s s' : St} {x : Rtp} (hτ : Holds τ σ) (hb : s.buf.WF)
    (hh : RtpHasHeaders x) (h : parseRtp nd σ s = .val (some x, σ', s')) : ∃ τ', parseRtp nd τ s = .val (some x, τ', s') ∧ Holds τ' σ' := by
  unfold parseRtp at h ⊢
  cases h0 : (run nd parseNalHeader s).res with
  | bad e => rw [h0] at h; cases h
  | val y =>
    obtain ⟨hd, s1⟩ := y
    have hw := seek0_wf (header_wf nd hb h0)
    rw [h0, Res.val_bind] at h
    rw [Res.val_bind]
    dsimp only at h ⊢
    cases hd with
    | none => cases h
    | some hd =>
      dsimp only at h ⊢
      generalize (s1.buf.seek 0 0).2 = b0 at *
      by_cases t1 : hd.nal_unit_type ≤ 23
      · rw [if_pos t1] at h ⊢
        cases h2 : runStore nd σ (parseRtpSingle σ) ⟨b0, s1.cnt⟩ with
        | bad e => rw [h2] at h; cases h
        | val y =>
          obtain ⟨y, σ2, s2⟩ := y
          rw [h2, Res.val_bind] at h
          dsimp only at h
          cases y with
          | none => cases h
          | some y =>
            simp only [Res.pure_eq, Res.val.injEq, Prod.mk.injEq, Option.some.injEq, Option.map_some] at h
            obtain ⟨rfl, rfl, rfl⟩ := h
            obtain ⟨_, τ2, h5, h6⟩ := runStore_holds (τ := τ) (q := parseRtpSingle τ) hw (fun l l' => rtpSingle_holds hτ (hh.1 _ rfl)) h2
            refine ⟨τ2, ?_, h6⟩
            rw [h5, Res.val_bind]
            rfl
      rw [if_neg t1] at h ⊢
      by_cases t2 : hd.nal_unit_type = 24
      · rw [if_pos t2] at h ⊢
        cases h2 : parseRtpStapA nd σ ⟨b0, s1.cnt⟩ with
        | bad e => rw [h2] at h; cases h
        | val y =>
          obtain ⟨y, σ2, s2⟩ := y
          rw [h2, Res.val_bind] at h
          dsimp only at h
          cases y with
          | none => cases h
          | some y =>
            simp only [Res.pure_eq, Res.val.injEq, Prod.mk.injEq, Option.some.injEq, Option.map_some] at h
            obtain ⟨rfl, rfl, rfl⟩ := h
            obtain ⟨τ2, h5, h6⟩ := rtpStapA_holds nd hτ hw (hh.2.1 _ rfl) h2
            refine ⟨τ2, ?_, h6⟩
            rw [h5, Res.val_bind]
            rfl
      rw [if_neg t2] at h ⊢
      by_cases t3 : hd.nal_unit_type = 28
      · rw [if_pos t3] at h ⊢
        cases h2 : runStore nd σ (parseRtpFuA σ hd.nal_ref_idc) ⟨b0, s1.cnt⟩ with
        | bad e => rw [h2] at h; cases h
        | val y =>
          obtain ⟨y, σ2, s2⟩ := y
          rw [h2, Res.val_bind] at h
          dsimp only at h
          cases y with
          | none => cases h
          | some y =>
            simp only [Res.pure_eq, Res.val.injEq, Prod.mk.injEq, Option.some.injEq, Option.map_some] at h
            obtain ⟨rfl, rfl, rfl⟩ := h
            obtain ⟨_, τ2, h5, h6⟩ := runStore_holds (τ := τ) (q := parseRtpFuA τ hd.nal_ref_idc) hw
              (fun l l' => rtpFuA_holds hτ (fun p => hh.2.2 _ p rfl)) h2
            refine ⟨τ2, ?_, h6⟩
            rw [h5, Res.val_bind]
            rfl
      rw [if_neg t3] at h ⊢
      simp only [Res.pure_eq, Res.val.injEq, Prod.mk.injEq, Option.some.injEq] at h
      obtain ⟨rfl, rfl, rfl⟩ := h
      exact ⟨τ, rfl, hτ⟩

/-- C68: an RTP packet that was returned, the slices in it with their headers, is returned just the same when the parser state holds more
parameter sets. -/
theorem C68_rtp {nd : Bool} {data : List UInt8} {off len : Nat} (hb : off + len ≤ data.length) (hl : data.length < 2 ^ 61)
    {σ σ' τ : Store} {c c' : Nat} {x : Rtp} (h : parseRtpData nd data off len σ c = .val (some x, σ', c')) (hn : RtpHasHeaders x)
    (hτ : Holds τ σ) : ∃ τ', parseRtpData nd data off len τ c = .val (some x, τ', c') ∧ Holds τ' σ' := by
  unfold parseRtpData at h ⊢
  rw [onData_eq hb hl] at h ⊢
  split at h
  · rename_i hf
    rw [if_pos hf]
    have hw := Buf.start_wf hf.lt
    generalize Buf.start _ = b at *
    cases h1 : parseRtp nd σ ⟨b, c⟩ with
    | bad e => rw [h1] at h; cases h
    | val y =>
      obtain ⟨y, σ1, s1⟩ := y
      rw [h1] at h
      simp only [Res.bind, Res.val.injEq, Prod.mk.injEq] at h
      obtain ⟨rfl, rfl, rfl⟩ := h
      obtain ⟨τ', h2, h3⟩ := rtp_holds nd hτ hw hn h1
      rw [h2]
      exact ⟨τ', rfl, h3⟩
  · cases h

/-- C68: a self-contained RTP session, one whose packets are returned by a new parser, the slices in them with their headers, is parsed by
a parser with any history just as by a new one. -/
theorem C68_rtp_session {nd : Bool} {ps : List (List UInt8)} (hl : ∀ p ∈ ps, p.length < 2 ^ 61) {σ σ' : Store} {c c' : Nat} {xs : List Rtp}
    (h : Packets nd ps σ c xs σ' c') (hn : ∀ x ∈ xs, RtpHasHeaders x) {τ : Store} (hτ : Holds τ σ) :
    ∃ τ', Packets nd ps τ c xs τ' c' ∧ Holds τ' σ' := by
  induction h generalizing τ with
  | nil σ c => exact ⟨τ, .nil τ c, hτ⟩
  | cons h1 _ ih =>
    obtain ⟨τ1, h3, h4⟩ := C68_rtp (by omega) (hl _ (List.mem_cons_self ..)) h1 (hn _ (List.mem_cons_self ..)) hτ
    obtain ⟨τ2, h5, h6⟩ := ih (fun p hp => hl p (List.mem_cons_of_mem _ hp)) (fun x hx => hn x (List.mem_cons_of_mem _ hx)) h4
    exact ⟨τ2, .cons h3 h5, h6⟩

/-- C68 for streams with size fields. -/
theorem C68_length_prefixed {nd : Bool} {opts : ParsingOptions} {data : List UInt8} (hl : data.length < 2 ^ 61) {k : Nat} (hk : 0 < k)
    (hk7 : k ≤ 7) {σ σ' τ : Store} {c c' : Nat} {bs : Bitstream} (h : parseBitstreamNALULength nd opts data k σ c = .val (bs, σ', c'))
    (hn : ∀ n ∈ bs.nal_units, HasHeader n) (hτ : Holds τ σ) :
    ∃ τ', parseBitstreamNALULength nd opts data k τ c = .val (bs, τ', c') ∧ Holds τ' σ' := by
  obtain ⟨us, hu, hp⟩ := C17_in_order_upto7_partial nd opts data hl hk hk7
  obtain ⟨h1, ns, h2, h3⟩ := (hp σ c bs σ' c').mp h
  rw [h3] at hn
  obtain ⟨τ', h4, h5⟩ := inOrder_holds (fun u hx => Nat.lt_of_le_of_lt (lengthUnits_lt hu u hx) hl) h2
    (fun n hx => hn { n with length := k } (List.mem_map.mpr ⟨n, hx, rfl⟩)) hτ
  exact ⟨τ', (hp τ c bs τ' c').mpr ⟨h1, ns, h4, h3⟩, h5⟩

/-- What is looked at in the examples: a single NAL unit packet, and if it is a slice then with its header. -/
def plainSingle (x : Rtp) : Bool :=
  match x.rtp_single with
  | some y => x.rtp_stapa.isNone && x.rtp_fua.isNone && y.nal_unit_header.nal_unit_type != 20 &&
      ((y.nal_unit_header.nal_unit_type != 1 && y.nal_unit_header.nal_unit_type != 5) ||
        y.nal_unit_payload.slice_layer_without_partitioning_rbsp.isSome)
  | none => false

theorem plainSingle_has {x : Rtp} (h : plainSingle x = true) : RtpHasHeaders x := by
  unfold plainSingle at h
  split at h
  · rename_i y hy
    simp only [Bool.and_eq_true, Bool.or_eq_true, bne_iff_ne, Option.isNone_iff_eq_none] at h
    obtain ⟨⟨⟨h1, h2⟩, h3⟩, h4⟩ := h
    refine ⟨fun z hz => ?_, fun z hz => absurd hz (by rw [h1]; exact fun e => by cases e), fun z p hz => absurd hz (by rw [h2]; exact fun e => by cases e)⟩
    rw [hy] at hz
    cases hz
    refine ⟨fun t => ?_, fun t => absurd t h3⟩
    rcases h4 with h4 | h4
    · rcases t with t | t
      · exact absurd t h4.1
      · exact absurd t h4.2
    · exact h4
  · cases h

/-- Parse one packet after the other (used in the example). -/
def feedRtp (nd : Bool) : List (List UInt8) → Store → Nat → Option (List Rtp × Store × Nat)
  | [], σ, c => some ([], σ, c)
  | p :: ps, σ, c =>
    match parseRtpData nd p 0 p.length σ c with
    | .val (some x, σ1, c1) => (feedRtp nd ps σ1 c1).map fun r => (x :: r.1, r.2)
    | _ => none

theorem feedRtp_packets (nd : Bool) : ∀ (ps : List (List UInt8)) (σ : Store) (c : Nat) (r : List Rtp × Store × Nat),
    feedRtp nd ps σ c = some r → Packets nd ps σ c r.1 r.2.1 r.2.2
  | [], σ, c, r, h => by cases h; exact .nil σ c
  | p :: ps, σ, c, r, h => by
    unfold feedRtp at h
    split at h
    · rename_i x σ1 c1 h1
      obtain ⟨r1, h2, rfl⟩ := Option.map_eq_some_iff.mp h
      exact .cons h1 (feedRtp_packets nd ps σ1 c1 r1 h2)
    · cases h

/-- The NAL units of the stream of the example as RTP packets: self-contained, the fourth is a slice. -/
theorem exPackets (nd : Bool) : ∃ xs σ' c', Packets nd (exStreamUnits.map (·.2)) {} 0 xs σ' c' ∧ (∀ x ∈ xs, RtpHasHeaders x) ∧
    xs.length = 5 := by
  have h : ((feedRtp nd (exStreamUnits.map (·.2)) {} 0).any fun r => r.1.all plainSingle && r.1.length == 5) = true := by
    cases nd <;> decide +kernel
  cases hr : feedRtp nd (exStreamUnits.map (·.2)) {} 0 with
  | none => rw [hr] at h; cases h
  | some r =>
    rw [hr] at h
    simp only [Option.any_some, Bool.and_eq_true, List.all_eq_true, beq_iff_eq] at h
    exact ⟨_, _, _, feedRtp_packets nd _ _ _ r hr, fun x hx => plainSingle_has (h.1 x hx), h.2⟩

example (nd : Bool) (τ : Store) : ∃ xs τ' c', Packets nd (exStreamUnits.map (·.2)) τ 0 xs τ' c' ∧ xs.length = 5 := by
  obtain ⟨xs, σ', c', h1, h2, h3⟩ := exPackets nd
  obtain ⟨τ', h4, _⟩ := C68_rtp_session (by decide +kernel) h1 h2 (holds_empty τ)
  exact ⟨xs, τ', c', h4, h3⟩

end H264.Props

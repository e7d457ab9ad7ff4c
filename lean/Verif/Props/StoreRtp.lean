import Verif.Spec.StoreRtp
import Verif.Props.Nal
import Verif.Props.StapA
import Verif.Props.Common
import Verif.Props.Reach

/-
C69: what RTP packets leave in the parser state.
-/

namespace H264.Props
open H264 H264.Spec Prog

theorem LatestOf.refl (σ : Store) : LatestOf σ [] σ := fun _ => ⟨rfl, rfl, rfl⟩

/-- A parser call that can change the store leaves it as it was, or changes it as the payloads say. -/
theorem runStore_latest {α : Type} {nd : Bool} {σ σ' : Store} {p : Prog (α × Store)} {s s' : St} {x : Option α} {f : α → List Payload}
    (hb : s.buf.WF) (hp : ∀ l l' a τ, runL nd p l = .ok (a, τ) l' → LatestOf σ (f a) τ) (h : runStore nd σ p s = .val (x, σ', s')) :
    s'.buf.WF ∧ (x = none → σ' = σ) ∧ LatestOf σ (x.toList.flatMap f) σ' := by
  obtain ⟨b, c⟩ := s
  have hw := run_wf nd p hb c
  unfold runStore at h
  rw [run_eq nd p hb c] at h hw
  have hd := hp ⟨b.rem, c⟩
  generalize runL nd p ⟨b.rem, c⟩ = r at *
  cases r with
  | ok a s1 =>
    obtain ⟨a, τ1⟩ := a
    simp only [Out.mapSt, Res.val.injEq, Prod.mk.injEq] at h
    obtain ⟨rfl, rfl, rfl⟩ := h
    refine ⟨hw.1, fun e => (by cases e), ?_⟩
    have := hd _ _ _ rfl
    simpa using this
  | null s1 =>
    simp only [Out.mapSt, Res.val.injEq, Prod.mk.injEq] at h
    obtain ⟨rfl, rfl, rfl⟩ := h
    exact ⟨hw.1, fun _ => rfl, LatestOf.refl σ⟩
  | bad e => cases h

theorem rtpSingle_latest {nd : Bool} {σ σ' : Store} {l l' : LSt} {x : RtpSingle}
    (h : runL nd (parseRtpSingle σ) l = .ok (x, σ') l') : LatestOf σ [x.nal_unit_payload] σ' := by
  unfold parseRtpSingle at h
  simp only [runL_bind_ok] at h
  obtain ⟨hd, s1, h1, ⟨p, σ1⟩, s2, h2, h3⟩ := h
  simp only [Prog.pure_eq, runL_ret, Out.ok.injEq, Prod.mk.injEq] at h3
  obtain ⟨⟨rfl, rfl⟩, rfl⟩ := h3
  exact payload_latest nd hd h2

theorem rtpFuA_latest {nd : Bool} {σ σ' : Store} {ref : Nat} {l l' : LSt} {x : RtpFuA}
    (h : runL nd (parseRtpFuA σ ref) l = .ok (x, σ') l') : LatestOf σ x.nal_unit_payload.toList σ' := by
  unfold parseRtpFuA at h
  simp only [runL_bind_ok] at h
  obtain ⟨hd, s1, h1, sb, s2, h2, eb, s3, h3, rb, s4, h4, ty, s5, h5, h⟩ := h
  by_cases hs : sb = 0
  · rw [if_pos hs] at h
    simp only [Prog.pure_eq, runL_ret, Out.ok.injEq, Prod.mk.injEq] at h
    obtain ⟨⟨rfl, rfl⟩, rfl⟩ := h
    exact LatestOf.refl σ
  · rw [if_neg hs] at h
    simp only [runL_bind_ok] at h
    obtain ⟨⟨p, σ1⟩, s6, h6, h⟩ := h
    simp only [Prog.pure_eq, runL_ret, Out.ok.injEq, Prod.mk.injEq] at h
    obtain ⟨⟨rfl, rfl⟩, rfl⟩ := h
    exact payload_latest nd _ h6

theorem stapAUnit_latest {nd : Bool} {σ σ' : Store} {l l' : LSt} {x : Nat × NalHeader × Payload}
    (h : runL nd (parseStapAUnit σ) l = .ok (x, σ') l') : LatestOf σ [x.2.2] σ' := by
  unfold parseStapAUnit at h
  simp only [runL_bind_ok] at h
  obtain ⟨n, s1, h1, r, s2, h2, g, s3, h3, hd, s4, h4, ⟨p, σ1⟩, s5, h5, h⟩ := h
  simp only [Prog.pure_eq, runL_ret, Out.ok.injEq, Prod.mk.injEq] at h
  obtain ⟨⟨rfl, rfl⟩, rfl⟩ := h
  exact payload_latest nd hd h5

/-- The loop over the NAL units of a STAP-A packet: the payloads that were parsed, all of them if it succeeds. -/
theorem stapALoop_latest (nd : Bool) : ∀ (f : Nat) {σ σ' : Store} {s s' : St} {xs : Option (List (Nat × NalHeader × Payload))},
    s.buf.WF → stapALoop nd f σ s = .val (xs, σ', s') → ∃ ps, LatestOf σ ps σ' ∧ ∀ ys, xs = some ys → ps = ys.map (·.2.2) := by
  intro f
  induction f with
  | zero => intro σ σ' s s' xs _ h; cases h
  | succ f ih =>
    intro σ σ' s s' xs hb h
    unfold stapALoop at h
    by_cases hr : s.buf.remaining > 0
    · rw [if_pos hr] at h
      cases h1 : runStore nd σ (parseStapAUnit σ) s with
      | bad e => rw [h1] at h; cases h
      | val y =>
        obtain ⟨x, σ1, s1⟩ := y
        rw [h1, Res.val_bind] at h
        dsimp only at h
        obtain ⟨hw, h2, h3⟩ := runStore_latest (f := fun (a : Nat × NalHeader × Payload) => [a.2.2]) hb (fun l l' a τ => stapAUnit_latest) h1
        cases x with
        | none =>
          dsimp only at h
          simp only [Res.pure_eq, Res.val.injEq, Prod.mk.injEq] at h
          obtain ⟨rfl, rfl, rfl⟩ := h
          exact ⟨_, h3, fun ys e => by cases e⟩
        | some x =>
          dsimp only at h
          cases h4 : stapALoop nd f σ1 s1 with
          | bad e => rw [h4] at h; cases h
          | val y =>
            obtain ⟨ys, σ2, s2⟩ := y
            rw [h4, Res.val_bind] at h
            dsimp only at h
            obtain ⟨ps, h5, h6⟩ := ih hw h4
            refine ⟨[x.2.2] ++ ps, ?_⟩
            cases ys with
            | none =>
              dsimp only at h
              simp only [Res.pure_eq, Res.val.injEq, Prod.mk.injEq] at h
              obtain ⟨rfl, rfl, rfl⟩ := h
              exact ⟨LatestOf.append h3 h5, fun ys e => by cases e⟩
            | some ys =>
              dsimp only at h
              simp only [Res.pure_eq, Res.val.injEq, Prod.mk.injEq] at h
              obtain ⟨rfl, rfl, rfl⟩ := h
              refine ⟨LatestOf.append h3 h5, fun zs e => ?_⟩
              cases e
              rw [h6 ys rfl]
              rfl
    · rw [if_neg hr] at h
      simp only [Res.pure_eq, Res.val.injEq, Prod.mk.injEq] at h
      obtain ⟨rfl, rfl, rfl⟩ := h
      exact ⟨[], LatestOf.refl σ, fun ys e => by cases e; rfl⟩

theorem rtpStapA_latest (nd : Bool) {σ σ' : Store} {s s' : St} {x : Option RtpStapA} (hb : s.buf.WF)
    (h : parseRtpStapA nd σ s = .val (x, σ', s')) : ∃ ps, LatestOf σ ps σ' ∧ ∀ y, x = some y → ps = y.nal_units.map (·.2.2) := by
  unfold parseRtpStapA at h
  cases h0 : (run nd parseNalHeader s).res with
  | bad e => rw [h0] at h; cases h
  | val y =>
    obtain ⟨hd, s1⟩ := y
    obtain ⟨_, s1', h01, hw⟩ := safe_good nd safe_nalHeader hb
    rw [h0] at h01
    cases h01
    rw [h0, Res.val_bind] at h
    dsimp only at h
    cases hd with
    | none =>
      dsimp only at h
      simp only [Res.pure_eq, Res.val.injEq, Prod.mk.injEq] at h
      obtain ⟨rfl, rfl, rfl⟩ := h
      exact ⟨[], LatestOf.refl σ, fun y e => by cases e⟩
    | some hd =>
      dsimp only at h
      cases h2 : stapALoop nd (s1.buf.remaining + 1) σ s1 with
      | bad e => rw [h2] at h; cases h
      | val y =>
        obtain ⟨ys, σ2, s2⟩ := y
        rw [h2, Res.val_bind] at h
        dsimp only at h
        obtain ⟨ps, h5, h6⟩ := stapALoop_latest nd _ hw h2
        refine ⟨ps, ?_⟩
        cases ys with
        | none =>
          dsimp only at h
          simp only [Res.pure_eq, Res.val.injEq, Prod.mk.injEq] at h
          obtain ⟨rfl, rfl, rfl⟩ := h
          exact ⟨h5, fun y e => by cases e⟩
        | some ys =>
          dsimp only at h
          simp only [Res.pure_eq, Res.val.injEq, Prod.mk.injEq] at h
          obtain ⟨rfl, rfl, rfl⟩ := h
          exact ⟨h5, fun y e => by cases e; exact h6 ys rfl⟩

/-- The type in a header that was parsed is that of the first byte. -/
theorem header_typeL {nd : Bool} {bytes : List UInt8} {c : Nat} {hd : NalHeader} {s : LSt}
    (hr : runL nd parseNalHeader ⟨allBits bytes, c⟩ = .ok hd s) : packetType bytes = some hd.nal_unit_type := by
  obtain ⟨ok, r, he, _⟩ := (codec_nalHeader nd _ _ _ _).mp hr
  cases bytes with
  | nil =>
    have := congrArg List.length he
    simp [encNalHeader] at this
  | cons b rest =>
    have h8 := nalHeaderByte_bits _ ok.forbidden_zero_bit _ ok.nal_ref_idc _ ok.nal_unit_type
    have h1 : (allBits (b :: rest)).take 8 = allBits [b] := by
      rw [allBits_cons, List.take_append_of_le_length (by simp), List.take_of_length_le (by simp)]
      simp
    have h2 : (allBits (b :: rest)).take 8 = allBits [nalHeaderByte hd.forbidden_zero_bit hd.nal_ref_idc hd.nal_unit_type] := by
      rw [he, h8, encNalHeader, List.append_assoc, List.take_append_of_le_length (by simp), List.take_of_length_le (by simp)]
    have h3 := allBits_inj (h1.symm.trans h2)
    have h4 : ∀ f < 2, ∀ ref < 4, ∀ t < 32, (nalHeaderByte f ref t).toNat % 32 = t := by decide +kernel
    injection h3 with h3
    unfold packetType
    rw [List.head?_cons, Option.map_some, h3, h4 _ ok.forbidden_zero_bit _ ok.nal_ref_idc _ ok.nal_unit_type]

theorem header_type {nd : Bool} {bytes : List UInt8} (hl : bytes.length < 2 ^ 61) {c : Nat} {hd : NalHeader} {s : St}
    (h : (run nd parseNalHeader ⟨Buf.start bytes, c⟩).res = .val (some hd, s)) : packetType bytes = some hd.nal_unit_type := by
  rw [header_start nd hl] at h
  cases hr : runL nd parseNalHeader ⟨allBits bytes, c⟩ with
  | bad e => rw [hr] at h; cases h
  | null s1 => rw [hr] at h; cases h
  | ok a s1 =>
    rw [hr] at h
    cases h
    exact header_typeL hr

theorem packetType_strip (p : List UInt8) : packetType (strip p) = packetType p := by
  have := congrArg List.head? (strip_take1 p)
  rw [List.head?_take, List.head?_take, if_neg (by omega), if_neg (by omega)] at this
  unfold packetType
  rw [this]

theorem rtp_latest (nd : Bool) {bytes : List UInt8} (hl : bytes.length < 2 ^ 61) {σ σ' : Store} {c : Nat} {s' : St} {x : Option Rtp}
    (h : parseRtp nd σ ⟨Buf.start bytes, c⟩ = .val (x, σ', s')) :
    ∃ ps, LatestOf σ ps σ' ∧ (∀ y, x = some y → ps = rtpPayloads y) ∧ (x = none → packetType bytes ≠ some 24 → σ' = σ) := by
  have hb := Buf.start_wf hl
  unfold parseRtp at h
  cases h0 : (run nd parseNalHeader ⟨Buf.start bytes, c⟩).res with
  | bad e => rw [h0] at h; cases h
  | val y =>
    obtain ⟨hd, s1⟩ := y
    obtain ⟨_, s1', h01, hw⟩ := safe_good nd safe_nalHeader (s := ⟨Buf.start bytes, c⟩) hb
    rw [h0] at h01
    cases h01
    rw [h0, Res.val_bind] at h
    dsimp only at h
    cases hd with
    | none =>
      dsimp only at h
      simp only [Res.pure_eq, Res.val.injEq, Prod.mk.injEq] at h
      obtain ⟨rfl, rfl, rfl⟩ := h
      exact ⟨[], LatestOf.refl σ, fun y e => (by cases e), fun _ _ => rfl⟩
    | some hd =>
      have ht := header_type hl h0
      dsimp only at h
      have hw := seek0_wf hw
      generalize (s1.buf.seek 0 0).2 = b0 at *
      by_cases t1 : hd.nal_unit_type ≤ 23
      · rw [if_pos t1] at h
        cases h2 : runStore nd σ (parseRtpSingle σ) ⟨b0, s1.cnt⟩ with
        | bad e => rw [h2] at h; cases h
        | val y =>
          obtain ⟨y, σ2, s2⟩ := y
          rw [h2, Res.val_bind] at h
          dsimp only at h
          simp only [Res.pure_eq, Res.val.injEq, Prod.mk.injEq] at h
          obtain ⟨rfl, rfl, rfl⟩ := h
          obtain ⟨_, h3, h4⟩ := runStore_latest (f := fun a => [a.nal_unit_payload]) hw (fun l l' a τ => rtpSingle_latest) h2
          refine ⟨_, h4, fun z e => ?_, fun e _ => h3 (by simpa using e)⟩
          obtain ⟨w, rfl, rfl⟩ := Option.map_eq_some_iff.mp e
          rfl
      rw [if_neg t1] at h
      by_cases t2 : hd.nal_unit_type = 24
      · rw [if_pos t2] at h
        cases h2 : parseRtpStapA nd σ ⟨b0, s1.cnt⟩ with
        | bad e => rw [h2] at h; cases h
        | val y =>
          obtain ⟨y, σ2, s2⟩ := y
          rw [h2, Res.val_bind] at h
          dsimp only at h
          simp only [Res.pure_eq, Res.val.injEq, Prod.mk.injEq] at h
          obtain ⟨rfl, rfl, rfl⟩ := h
          obtain ⟨ps, h3, h4⟩ := rtpStapA_latest nd hw h2
          refine ⟨ps, h3, fun z e => ?_, fun _ e => absurd (by rw [ht, t2]) e⟩
          obtain ⟨w, rfl, rfl⟩ := Option.map_eq_some_iff.mp e
          rw [h4 w rfl]
          simp [rtpPayloads]
      rw [if_neg t2] at h
      by_cases t3 : hd.nal_unit_type = 28
      · rw [if_pos t3] at h
        cases h2 : runStore nd σ (parseRtpFuA σ hd.nal_ref_idc) ⟨b0, s1.cnt⟩ with
        | bad e => rw [h2] at h; cases h
        | val y =>
          obtain ⟨y, σ2, s2⟩ := y
          rw [h2, Res.val_bind] at h
          dsimp only at h
          simp only [Res.pure_eq, Res.val.injEq, Prod.mk.injEq] at h
          obtain ⟨rfl, rfl, rfl⟩ := h
          obtain ⟨_, h3, h4⟩ := runStore_latest (f := fun a => a.nal_unit_payload.toList) hw (fun l l' a τ => rtpFuA_latest) h2
          refine ⟨_, h4, fun z e => ?_, fun e _ => h3 (by simpa using e)⟩
          obtain ⟨w, rfl, rfl⟩ := Option.map_eq_some_iff.mp e
          simp [rtpPayloads]
      rw [if_neg t3] at h
      simp only [Res.pure_eq, Res.val.injEq, Prod.mk.injEq] at h
      obtain ⟨rfl, rfl, rfl⟩ := h
      exact ⟨[], LatestOf.refl σ, fun y e => by cases e; rfl, fun e => by cases e⟩

theorem rtpData_latest {nd : Bool} {p : List UInt8} (hl : p.length < 2 ^ 61) {σ σ' : Store} {c c' : Nat} {x : Option Rtp}
    (h : parseRtpData nd p 0 p.length σ c = .val (x, σ', c')) :
    ∃ ps, LatestOf σ ps σ' ∧ (∀ y, x = some y → ps = rtpPayloads y) ∧ (x = none → packetType p ≠ some 24 → σ' = σ) := by
  unfold parseRtpData at h
  rw [onData_eq (by omega) hl, List.drop_zero, List.take_length] at h
  split at h
  · rename_i hf
    cases h1 : parseRtp nd σ ⟨Buf.start (strip p), c⟩ with
    | bad e => rw [h1] at h; cases h
    | val y =>
      obtain ⟨y, σ1, s1⟩ := y
      rw [h1] at h
      simp only [Res.bind, Res.val.injEq, Prod.mk.injEq] at h
      obtain ⟨rfl, rfl, rfl⟩ := h
      obtain ⟨ps, h2, h3, h4⟩ := rtp_latest nd (by have := strip_length p; omega) h1
      refine ⟨ps, h2, h3, fun e e' => h4 e ?_⟩
      rw [packetType_strip]
      exact e'
  · cases h

/-- C69: after a packet that was returned, the parser state holds for every id the last parameter set with that id in the packet, and
otherwise what it held before. -/
theorem C69_returned_partial {nd : Bool} {p : List UInt8} (hl : p.length < 2 ^ 61) {σ σ' : Store} {c c' : Nat} {x : Rtp}
    (h : parseRtpData nd p 0 p.length σ c = .val (some x, σ', c')) : LatestOf σ (rtpPayloads x) σ' := by
  obtain ⟨ps, h1, h2, _⟩ := rtpData_latest hl h
  rw [← h2 x rfl]
  exact h1

/-- C69: a packet that was refused leaves the parser state exactly as it was, unless it is a STAP-A packet. -/
theorem C69_refused_partial {nd : Bool} {p : List UInt8} (hl : p.length < 2 ^ 61) {σ σ' : Store} {c c' : Nat}
    (h : parseRtpData nd p 0 p.length σ c = .val (none, σ', c')) (ht : packetType p ≠ some 24) : σ' = σ := by
  obtain ⟨ps, _, _, h3⟩ := rtpData_latest hl h
  exact h3 rfl ht

/-- C69: what any packet, returned or not, leaves in the parser state is what was there, with some parameter sets stored under their own
ids. -/
theorem C69_stored_partial {nd : Bool} {p : List UInt8} (hl : p.length < 2 ^ 61) {σ σ' : Store} {c c' : Nat} {x : Option Rtp}
    (h : parseRtpData nd p 0 p.length σ c = .val (x, σ', c')) : ∃ ps, LatestOf σ ps σ' := by
  obtain ⟨ps, h1, _⟩ := rtpData_latest hl h
  exact ⟨ps, h1⟩

/-- C69: after any sequence of packets of which no STAP-A packet was refused, the parser state holds for every id the parameter set that
was returned last. -/
theorem C69_session_partial {nd : Bool} {ps : List (List UInt8)} (hl : ∀ p ∈ ps, p.length < 2 ^ 61) {σ σ' : Store} {c c' : Nat}
    {xs : List (Option Rtp)} (h : Session nd ps σ c xs σ' c')
    (hs : ∀ (i : Nat) (p : List UInt8), ps[i]? = some p → xs[i]? = some none → packetType p ≠ some 24) :
    LatestOf σ (xs.flatMap fun x => x.toList.flatMap rtpPayloads) σ' := by
  induction h with
  | nil σ c => exact LatestOf.refl σ
  | @cons p ps σ σ1 σ' c c1 c' x xs h1 _ ih =>
    have h2 := ih (fun p hp => hl p (List.mem_cons_of_mem _ hp)) (fun i p hp hx => hs (i + 1) p (by simpa using hp) (by simpa using hx))
    rw [List.flatMap_cons]
    refine LatestOf.append ?_ h2
    cases x with
    | none =>
      rw [C69_refused_partial (hl _ (List.mem_cons_self ..)) h1 (hs 0 p rfl rfl)]
      exact LatestOf.refl σ
    | some x => simpa using C69_returned_partial (hl _ (List.mem_cons_self ..)) h1

/-- C69 fails for STAP-A: this packet, with an SPS and a NAL unit that is cut off, is refused, but the SPS stays stored. -/
theorem C69_stapa_not_atomic (nd : Bool) : ∃ r, parseRtpData nd (stapPacket 0 3 [exStapSpsNal] ++ [0, 5, 0x68]) 0 23 {} 0 = .val r ∧
    r.1 = none ∧ (r.2.1.sps 0).isSome := by
  cases nd <;> exact exists_dec (by decide +kernel)

/-- C35: the same for a length-prefixed stream. -/
theorem C35_length_prefixed {nd : Bool} {opts : ParsingOptions} {data : List UInt8} (hl : data.length < 2 ^ 61) {k : Nat} (hk : 0 < k)
    (hk7 : k ≤ 7) {σ σ' : Store} {c c' : Nat} {bs : Bitstream} (h : parseBitstreamNALULength nd opts data k σ c = .val (bs, σ', c')) :
    LatestOf σ (bs.nal_units.map (·.nal_unit_payload)) σ' := by
  obtain ⟨us, hu, hp⟩ := C17_in_order_upto7_partial nd opts data hl hk hk7
  obtain ⟨_, ns, h2, h3⟩ := (hp σ c bs σ' c').mp h
  rw [h3, List.map_map]
  exact C35_sequence (fun u hx => Nat.lt_of_le_of_lt (lengthUnits_lt hu u hx) hl) h2

/-- Parse one packet after the other (used in the example). -/
def feedSession (nd : Bool) : List (List UInt8) → Store → Nat → Option (List (Option Rtp) × Store × Nat)
  | [], σ, c => some ([], σ, c)
  | p :: ps, σ, c =>
    match parseRtpData nd p 0 p.length σ c with
    | .val (x, σ1, c1) => (feedSession nd ps σ1 c1).map fun r => (x :: r.1, r.2)
    | .bad _ => none

theorem feedSession_session (nd : Bool) : ∀ (ps : List (List UInt8)) (σ : Store) (c : Nat) (r : List (Option Rtp) × Store × Nat),
    feedSession nd ps σ c = some r → Session nd ps σ c r.1 r.2.1 r.2.2
  | [], σ, c, r, h => by cases h; exact .nil σ c
  | p :: ps, σ, c, r, h => by
    unfold feedSession at h
    split at h
    · rename_i x σ1 c1 h1
      obtain ⟨r1, h2, rfl⟩ := Option.map_eq_some_iff.mp h
      exact .cons h1 (feedSession_session nd ps σ1 c1 r1 h2)
    · cases h

/-- A session: the SPS and the PPS of the example in one packet, a packet that is refused, an end of sequence in another. -/
example (nd : Bool) : ∃ xs σ' c', Session nd [stapPacket 0 3 [exStapSpsNal, exStapPpsExtNal], [14], [10]] {} 0 xs σ' c' ∧
    xs.map Option.isSome = [true, false, true] ∧ (σ'.sps 0).isSome ∧ LatestOf {} (xs.flatMap fun x => x.toList.flatMap rtpPayloads) σ' := by
  have h : ((feedSession nd [stapPacket 0 3 [exStapSpsNal, exStapPpsExtNal], [14], [10]] {} 0).any fun r =>
      decide (r.1.map Option.isSome = [true, false, true]) && (r.2.1.sps 0).isSome) = true := by
    cases nd <;> decide +kernel
  cases hr : feedSession nd [stapPacket 0 3 [exStapSpsNal, exStapPpsExtNal], [14], [10]] {} 0 with
  | none => rw [hr] at h; cases h
  | some r =>
    rw [hr] at h
    simp only [Option.any_some, Bool.and_eq_true, decide_eq_true_eq] at h
    have hs := feedSession_session nd _ _ _ r hr
    refine ⟨_, _, _, hs, h.1, h.2, C69_session_partial (by decide +kernel) hs (fun i p hp hx => ?_)⟩
    match i with
    | 0 =>
      have h2 := congrArg (·[0]?) h.1
      rw [List.getElem?_map, hx] at h2
      cases h2
    | 1 => cases hp; decide
    | 2 => cases hp; decide
    | i + 3 => simp at hp

end H264.Props

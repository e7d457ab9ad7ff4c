import Verif.NalLemmas
import Verif.Model.Rtp

/-
The store and the reader through the RTP parsers.
-/

namespace H264
open Prog

/-- After any call the reader is in a good state, over the same bytes, and has not moved back. -/
theorem run_wf {α : Type} (nd : Bool) (p : Prog α) {b : Buf} (hb : b.WF) (c : Nat) :
    match run nd p ⟨b, c⟩ with
    | .ok _ s => s.buf.WF ∧ s.buf.bytes = b.bytes ∧ s.buf.rem.length ≤ b.rem.length
    | .null s => s.buf.WF ∧ s.buf.bytes = b.bytes ∧ s.buf.rem.length ≤ b.rem.length
    | .bad _ => True := by
  rw [run_eq nd p hb c]
  have hd := runL_drop nd p ⟨b.rem, c⟩
  have key : ∀ s : LSt, (∃ n, n ≤ b.rem.length ∧ s.rem = b.rem.drop n) →
      (toSt b s).buf.WF ∧ (toSt b s).buf.bytes = b.bytes ∧ (toSt b s).buf.rem.length ≤ b.rem.length := by
    rintro s ⟨n, h1, h2⟩
    refine ⟨hb.adv (by omega), rfl, ?_⟩
    simp only [toSt, Buf.rem_adv, List.length_drop]
    omega
  generalize runL nd p ⟨b.rem, c⟩ = r at *
  cases r with
  | ok a s => exact key s hd.1
  | null s => exact key s hd.1
  | bad e => trivial

/-- A parser call that can change the store keeps it valid, if every success on lists does. -/
theorem runStore_valid {α : Type} {nd : Bool} {σ σ' : Store} {p : Prog (α × Store)} {s s' : St} {x : Option α}
    (hb : s.buf.WF) (hσ : σ.Valid) (hp : ∀ l a τ l', runL nd p l = .ok (a, τ) l' → τ.Valid)
    (h : runStore nd σ p s = .val (x, σ', s')) :
    σ'.Valid ∧ s'.buf.WF ∧ s'.buf.bytes = s.buf.bytes ∧ s'.buf.rem.length ≤ s.buf.rem.length := by
  obtain ⟨b, c⟩ := s
  have hw := run_wf nd p hb c
  unfold runStore at h
  have he := run_eq nd p hb c
  generalize run nd p ⟨b, c⟩ = r at *
  cases r with
  | ok a s1 =>
    obtain ⟨a, τ⟩ := a
    simp only [Res.val.injEq, Prod.mk.injEq] at h
    obtain ⟨_, rfl, rfl⟩ := h
    refine ⟨?_, hw⟩
    cases hr : runL nd p ⟨b.rem, c⟩ with
    | ok a' s2 =>
      rw [hr] at he
      simp only [Out.mapSt, Out.ok.injEq] at he
      obtain ⟨rfl, _⟩ := he
      exact hp _ _ _ _ hr
    | null s2 => rw [hr] at he; cases he
    | bad e => rw [hr] at he; cases he
  | null s1 =>
    simp only [Res.val.injEq, Prod.mk.injEq] at h
    obtain ⟨_, rfl, rfl⟩ := h
    exact ⟨hσ, hw⟩
  | bad e => cases h

theorem runStore_safe {α : Type} {nd : Bool} {σ : Store} {p : Prog (α × Store)} {s : St} (hb : s.buf.WF) (hp : Safe p) (e : Bad) :
    runStore nd σ p s ≠ .bad e := by
  obtain ⟨b, c⟩ := s
  unfold runStore
  have := hp.run nd hb c
  generalize run nd p ⟨b, c⟩ = r at *
  cases r with
  | ok a s1 => simp
  | null s1 => simp
  | bad e' => exact absurd rfl (this e')

/-! ### Each RTP parser -/

theorem safe_payloadRT {σ : Store} (hσ : σ.Valid) (a b : Nat) : Safe (parsePayloadRT σ a b) := safe_payload hσ _

theorem safe_rtpSingle {σ : Store} (hσ : σ.Valid) : Safe (parseRtpSingle σ) := by
  unfold parseRtpSingle
  refine Safe.bind safe_nalHeader (fun h => Safe.bind (safe_payload hσ h) (fun x => ?_))
  exact Safe.pure _

theorem rtpSingle_valid {nd : Bool} {σ σ' : Store} (hσ : σ.Valid) {l l' : LSt} {x : RtpSingle}
    (h : runL nd (parseRtpSingle σ) l = .ok (x, σ') l') : σ'.Valid := by
  unfold parseRtpSingle at h
  simp only [runL_bind_ok] at h
  obtain ⟨hd, s1, _, ⟨p, τ⟩, s2, h2, h3⟩ := h
  simp only [Prog.pure_eq, runL_ret, Out.ok.injEq, Prod.mk.injEq] at h3
  rw [← h3.1.2]
  exact payload_valid nd hσ hd h2

theorem safe_rtpFuA {σ : Store} (hσ : σ.Valid) (ref : Nat) : Safe (parseRtpFuA σ ref) := by
  unfold parseRtpFuA
  refine Safe.bind safe_nalHeader (fun h => Safe.bind (Safe.u _) (fun sb => Safe.bind (Safe.u _) (fun eb =>
    Safe.bind (Safe.u _) (fun rb => Safe.bind (Safe.u _) (fun ty => ?_)))))
  refine Safe.ite (fun _ => Safe.pure _) (fun _ => Safe.bind (safe_payloadRT hσ _ _) (fun x => ?_))
  exact Safe.pure _

theorem rtpFuA_valid {nd : Bool} {σ σ' : Store} (hσ : σ.Valid) {ref : Nat} {l l' : LSt} {x : RtpFuA}
    (h : runL nd (parseRtpFuA σ ref) l = .ok (x, σ') l') : σ'.Valid := by
  unfold parseRtpFuA at h
  simp only [runL_bind_ok] at h
  obtain ⟨hd, s1, _, sb, s2, _, eb, s3, _, rb, s4, _, ty, s5, _, h⟩ := h
  split at h
  · simp only [Prog.pure_eq, runL_ret, Out.ok.injEq, Prod.mk.injEq] at h
    rw [← h.1.2]; exact hσ
  · simp only [runL_bind_ok] at h
    obtain ⟨⟨p, τ⟩, s6, h6, h⟩ := h
    simp only [Prog.pure_eq, runL_ret, Out.ok.injEq, Prod.mk.injEq] at h
    rw [← h.1.2]
    exact payload_valid nd hσ _ h6

theorem safe_stapAUnit {σ : Store} (hσ : σ.Valid) : Safe (parseStapAUnit σ) := by
  unfold parseStapAUnit
  refine Safe.bind (Safe.u _) (fun n => Safe.bind Safe.remaining (fun r => Safe.bind (Safe.guard _) (fun _ =>
    Safe.bind safe_nalHeader (fun h => Safe.bind (safe_payload hσ h) (fun x => ?_)))))
  exact Safe.pure _

theorem stapAUnit_valid {nd : Bool} {σ σ' : Store} (hσ : σ.Valid) {l l' : LSt} {x : Nat × NalHeader × Payload}
    (h : runL nd (parseStapAUnit σ) l = .ok (x, σ') l') : σ'.Valid := by
  unfold parseStapAUnit at h
  simp only [runL_bind_ok] at h
  obtain ⟨n, s1, _, r, s2, _, _, s3, _, hd, s4, _, ⟨p, τ⟩, s5, h5, h⟩ := h
  simp only [Prog.pure_eq, runL_ret, Out.ok.injEq, Prod.mk.injEq] at h
  rw [← h.1.2]
  exact payload_valid nd hσ hd h5

/-- A program that starts with a read of `n` bits consumes them. -/
theorem u_bind_reads {α : Type} {nd : Bool} {n : Nat} {f : Nat → Prog α} {l l' : LSt} {x : α}
    (h : runL nd (u n >>= f) l = .ok x l') : l'.rem.length + n ≤ l.rem.length := by
  rw [runL_bind_ok] at h
  obtain ⟨v, s1, h1, h⟩ := h
  rw [runL_u] at h1
  split at h1
  · cases h1
  · simp only [Out.ok.injEq] at h1
    obtain ⟨_, rfl⟩ := h1
    have hd := runL_drop nd (f v) { l with rem := l.rem.drop n }
    rw [h] at hd
    obtain ⟨⟨m, h1, h2⟩, _⟩ := hd
    rw [h2]
    simp only [List.length_drop] at h1 ⊢
    omega

/-- A STAP-A unit that parses has read at least its 16-bit size. -/
theorem stapAUnit_reads {nd : Bool} {σ : Store} {l l' : LSt} {x : (Nat × NalHeader × Payload) × Store}
    (h : runL nd (parseStapAUnit σ) l = .ok x l') : l'.rem.length + 16 ≤ l.rem.length := by
  unfold parseStapAUnit at h
  exact u_bind_reads h

theorem runStore_reads {α : Type} {nd : Bool} {σ τ : Store} {p : Prog (α × Store)} {k : Nat} {s s' : St} {x : α} (hb : s.buf.WF)
    (hp : ∀ l x l', runL nd p l = .ok x l' → l'.rem.length + k ≤ l.rem.length)
    (h : runStore nd σ p s = .val (some x, τ, s')) : s'.buf.rem.length + k ≤ s.buf.rem.length := by
  obtain ⟨b, c⟩ := s
  unfold runStore at h
  rw [run_eq nd p hb c] at h
  have hd := runL_drop nd p ⟨b.rem, c⟩
  have hq := hp ⟨b.rem, c⟩
  generalize runL nd p ⟨b.rem, c⟩ = r at *
  cases r with
  | ok a s1 =>
    obtain ⟨a, τ'⟩ := a
    simp only [Out.mapSt, Res.val.injEq, Prod.mk.injEq] at h
    obtain ⟨_, _, rfl⟩ := h
    have := hq _ _ rfl
    obtain ⟨⟨n, h1, h2⟩, _⟩ := hd
    dsimp only at this h1
    simp only [toSt, Buf.rem_adv, List.length_drop]
    omega
  | null s1 => simp [Out.mapSt] at h
  | bad e => simp [Out.mapSt] at h

theorem stapALoop_good (nd : Bool) : ∀ (f : Nat) (σ : Store) (s : St), σ.Valid → s.buf.WF → s.buf.rem.length < f →
    ∃ x σ' s', stapALoop nd f σ s = .val (x, σ', s') ∧ σ'.Valid ∧ s'.buf.WF := by
  intro f
  induction f with
  | zero => intro σ s _ _ h; omega
  | succ f ih =>
    intro σ s hσ hb hf
    unfold stapALoop
    by_cases h : s.buf.remaining > 0
    · rw [if_pos h]
      cases hr : runStore nd σ (parseStapAUnit σ) s with
      | bad e => exact absurd hr (runStore_safe hb (safe_stapAUnit hσ) e)
      | val y =>
        obtain ⟨x, τ, s1⟩ := y
        obtain ⟨v1, v2, v3, v4⟩ := runStore_valid hb hσ (fun l a τ l' => stapAUnit_valid hσ) hr
        rw [Res.val_bind]
        cases x with
        | none => exact ⟨none, τ, s1, rfl, v1, v2⟩
        | some x =>
          have := runStore_reads (k := 16) hb (fun l x l' => stapAUnit_reads) hr
          obtain ⟨y, τ', s2, h1, h2, h3⟩ := ih τ s1 v1 v2 (by omega)
          dsimp only
          rw [h1, Res.val_bind]
          cases y with
          | none => exact ⟨none, τ', s2, rfl, h2, h3⟩
          | some ys => exact ⟨some (x :: ys), τ', s2, rfl, h2, h3⟩
    · rw [if_neg h]
      exact ⟨_, _, _, rfl, hσ, hb⟩

/-- A call of a parser that has no undefined behaviour, seen from its caller. -/
theorem safe_good (nd : Bool) {α : Type} {p : Prog α} (hs : Safe p) {s : St} (hb : s.buf.WF) :
    ∃ h s', (run nd p s).res = .val (h, s') ∧ s'.buf.WF := by
  obtain ⟨b, c⟩ := s
  have hw := run_wf nd p hb c
  have hs := hs.run nd hb c
  generalize run nd p ⟨b, c⟩ = r at *
  cases r with
  | bad e => exact absurd rfl (hs e)
  | null s => exact ⟨none, s, rfl, hw.1⟩
  | ok h s => exact ⟨some h, s, rfl, hw.1⟩

theorem parseRtpStapA_good (nd : Bool) {σ : Store} {s : St} (hσ : σ.Valid) (hb : s.buf.WF) :
    ∃ x σ' s', parseRtpStapA nd σ s = .val (x, σ', s') ∧ σ'.Valid ∧ s'.buf.WF := by
  obtain ⟨h, s1, h0, hw⟩ := safe_good nd safe_nalHeader hb
  unfold parseRtpStapA
  rw [h0, Res.val_bind]
  cases h with
  | none => exact ⟨none, σ, s1, by dsimp only; rw [Res.pure_eq], hσ, hw⟩
  | some h =>
    obtain ⟨x, σ', s', h1, h2, h3⟩ := stapALoop_good nd (s1.buf.remaining + 1) σ s1 hσ hw
      (by rw [Buf.remaining_eq hw]; omega)
    dsimp only
    rw [h1, Res.val_bind]
    cases x with
    | none => exact ⟨none, σ', s', by dsimp only; rw [Res.pure_eq], h2, h3⟩
    | some x => exact ⟨some { header := h, nal_units := x }, σ', s', by dsimp only; rw [Res.pure_eq], h2, h3⟩

theorem seek0_wf {b : Buf} (hb : b.WF) : (b.seek 0 0).2.WF := by
  have h : (b.seek 0 0).2 = ⟨b.bytes, 0, 0⟩ := by
    unfold Buf.seek
    rw [if_neg (by omega)]
  rw [h]
  exact Buf.start_wf hb.size

theorem runStore_good {α : Type} {nd : Bool} {σ : Store} {p : Prog (α × Store)} {s : St} (hb : s.buf.WF) (hσ : σ.Valid)
    (hs : Safe p) (hp : ∀ l a τ l', runL nd p l = .ok (a, τ) l' → τ.Valid) :
    ∃ x σ' s', runStore nd σ p s = .val (x, σ', s') ∧ σ'.Valid ∧ s'.buf.WF := by
  cases hr : runStore nd σ p s with
  | bad e => exact absurd hr (runStore_safe hb hs e)
  | val y =>
    obtain ⟨x, τ, s1⟩ := y
    have := runStore_valid hb hσ hp hr
    exact ⟨x, τ, s1, rfl, this.1, this.2.1⟩

theorem parseRtp_good (nd : Bool) {σ : Store} {s : St} (hσ : σ.Valid) (hb : s.buf.WF) :
    ∃ x σ' s', parseRtp nd σ s = .val (x, σ', s') ∧ σ'.Valid ∧ s'.buf.WF := by
  obtain ⟨h, s1, h0, hw⟩ := safe_good nd safe_nalHeader hb
  unfold parseRtp
  rw [h0, Res.val_bind]
  cases h with
  | none => exact ⟨none, σ, s1, by dsimp only; rw [Res.pure_eq], hσ, hw⟩
  | some h =>
    have hw0 : ({ s1 with buf := (s1.buf.seek 0 0).2 } : St).buf.WF := seek0_wf hw
    dsimp only
    dsimp only at hw0
    generalize (s1.buf.seek 0 0).2 = b0 at *
    by_cases h1 : h.nal_unit_type ≤ 23
    · obtain ⟨x, σ', s', g1, g2, g3⟩ := runStore_good (nd := nd) (s := ⟨b0, s1.cnt⟩) hw0 hσ (safe_rtpSingle hσ)
        (fun l a τ l' => rtpSingle_valid hσ)
      rw [if_pos h1, g1, Res.val_bind]; dsimp only; rw [Res.pure_eq]
      exact ⟨_, _, _, rfl, g2, g3⟩
    · rw [if_neg h1]
      by_cases h2 : h.nal_unit_type = 24
      · obtain ⟨x, σ', s', g1, g2, g3⟩ := parseRtpStapA_good nd (s := ⟨b0, s1.cnt⟩) hσ hw0
        rw [if_pos h2, g1, Res.val_bind]; dsimp only; rw [Res.pure_eq]
        exact ⟨_, _, _, rfl, g2, g3⟩
      · rw [if_neg h2]
        by_cases h3 : h.nal_unit_type = 28
        · obtain ⟨x, σ', s', g1, g2, g3⟩ := runStore_good (nd := nd) (s := ⟨b0, s1.cnt⟩) hw0 hσ (safe_rtpFuA hσ h.nal_ref_idc)
            (fun l a τ l' => rtpFuA_valid hσ)
          rw [if_pos h3, g1, Res.val_bind]; dsimp only; rw [Res.pure_eq]
          exact ⟨_, _, _, rfl, g2, g3⟩
        · rw [if_neg h3, Res.pure_eq]
          exact ⟨_, _, _, rfl, hσ, hw0⟩

theorem onData_good {α : Type} {nd : Bool} {f : St → Res (α × Store × St)} {data : List UInt8} {off len : Nat}
    (h : off + len ≤ data.length) (hl : data.length < 2 ^ 61) (hfit : Fits nd len)
    (hf : ∀ s : St, s.buf.WF → ∃ x σ' s', f s = .val (x, σ', s') ∧ σ'.Valid ∧ s'.buf.WF) (cnt : Nat) :
    ∃ x σ' cnt', onData nd f data off len cnt = .val (x, σ', cnt') ∧ σ'.Valid := by
  have hm : 2 ^ 61 ≤ maxVector := by decide
  unfold onData
  rw [unescapeRbsp_eq h (by omega), Res.val_bind]
  have hfit' : Fits nd (strip ((data.drop off).take len)).length :=
    hfit.le (Nat.le_trans (strip_length _) (by rw [List.length_take]; omega))
  rw [Buf.new_eq hfit', Res.val_bind]
  obtain ⟨x, σ', s', h1, h2, _⟩ := hf ⟨Buf.start (strip ((data.drop off).take len)), cnt⟩ (Buf.start_wf hfit'.lt)
  rw [h1, Res.val_bind]
  dsimp only
  rw [Res.pure_eq]
  exact ⟨_, _, _, rfl, h2⟩

end H264

import Verif.ThreadLemmas

/-
What a parser returns does not depend on the value of the counter.
-/

namespace H264
open Prog H264.Props

theorem op_run_shift (nd : Bool) {o : Op} (ho : o ≠ .unimpl) {b : Buf} {c : Nat} {r : o.Resp} {s : St} (h : o.run nd ⟨b, c⟩ = .val (r, s)) :
    s.cnt = c ∧ ∀ d, o.run nd ⟨b, d⟩ = .val (r, ⟨s.buf, d⟩) := by
  cases o with
  | unimpl => exact absurd rfl ho
  | bits n =>
    obtain ⟨x, hx, h⟩ := val_of_bind h
    cases h
    refine ⟨rfl, fun d => ?_⟩
    show (Buf.readBits 32 n b >>= _) = _
    rw [hx]
    rfl
  | peek n =>
    obtain ⟨x, hx, h⟩ := val_of_bind h
    cases h
    refine ⟨rfl, fun d => ?_⟩
    show (Buf.peekBits 32 n b >>= _) = _
    rw [hx]
    rfl
  | ue =>
    obtain ⟨x, hx, h⟩ := val_of_bind h
    cases h
    refine ⟨rfl, fun d => ?_⟩
    show (Buf.readUE nd b >>= _) = _
    rw [hx]
    rfl
  | se =>
    obtain ⟨x, hx, h⟩ := val_of_bind h
    cases h
    refine ⟨rfl, fun d => ?_⟩
    show (Buf.readSE nd b >>= _) = _
    rw [hx]
    rfl
  | remaining => cases h; exact ⟨rfl, fun d => rfl⟩
  | aligned => cases h; exact ⟨rfl, fun d => rfl⟩

theorem run_shift {α : Type} (nd : Bool) : ∀ (p : Prog α) (b : Buf) (c : Nat) {x : Option α} {s : St},
    (run nd p ⟨b, c⟩).res = .val (x, s) → ∃ n, s.cnt = c + n ∧ ∀ d, (run nd p ⟨b, d⟩).res = .val (x, ⟨s.buf, d + n⟩) := by
  intro p
  induction p with
  | ret a => intro b c x s h; cases h; exact ⟨0, rfl, fun d => rfl⟩
  | null => intro b c x s h; cases h; exact ⟨0, rfl, fun d => rfl⟩
  | bad e => intro b c x s h; cases h
  | op o k ih =>
    intro b c x s h
    by_cases ho : o = .unimpl
    · subst ho
      obtain ⟨n, h1, h2⟩ := ih () b (c + 1) h
      refine ⟨n + 1, by omega, fun d => ?_⟩
      have := h2 (d + 1)
      rw [show d + 1 + n = d + (n + 1) by omega] at this
      exact this
    · rw [run] at h
      cases hr : o.run nd ⟨b, c⟩ with
      | bad e => rw [hr] at h; cases h
      | val y =>
        obtain ⟨r, s1⟩ := y
        rw [hr] at h
        obtain ⟨h1, h2⟩ := op_run_shift nd ho hr
        obtain ⟨n, h3, h4⟩ := ih r s1.buf s1.cnt h
        refine ⟨n, by omega, fun d => ?_⟩
        rw [run, h2 d]
        exact h4 d

theorem runStore_shift {α : Type} {nd : Bool} {σ σ' : Store} {p : Prog (α × Store)} {b : Buf} {c : Nat} {x : Option α} {s : St}
    (h : runStore nd σ p ⟨b, c⟩ = .val (x, σ', s)) : ∃ n, s.cnt = c + n ∧ ∀ d, runStore nd σ p ⟨b, d⟩ = .val (x, σ', ⟨s.buf, d + n⟩) := by
  unfold runStore at h ⊢
  cases hr : run nd p ⟨b, c⟩ with
  | bad e => rw [hr] at h; cases h
  | ok y s' =>
    obtain ⟨n, h1, h2⟩ := run_shift nd p b c (x := some y) (s := s') (by rw [hr]; rfl)
    rw [hr] at h
    cases h
    refine ⟨n, h1, fun d => ?_⟩
    have := h2 d
    cases hd : run nd p ⟨b, d⟩ with
    | bad e => rw [hd] at this; cases this
    | ok z s2 => rw [hd] at this; cases this; rfl
    | null s2 => rw [hd] at this; cases this
  | null s' =>
    obtain ⟨n, h1, h2⟩ := run_shift nd p b c (x := none) (s := s') (by rw [hr]; rfl)
    rw [hr] at h
    cases h
    refine ⟨n, h1, fun d => ?_⟩
    have := h2 d
    cases hd : run nd p ⟨b, d⟩ with
    | bad e => rw [hd] at this; cases this
    | ok z s2 => rw [hd] at this; cases this
    | null s2 => rw [hd] at this; cases this; rfl

theorem stapALoop_shift (nd : Bool) : ∀ (f : Nat) {σ σ' : Store} {b : Buf} {c : Nat} {s : St} {xs : Option (List (Nat × NalHeader × Payload))},
    stapALoop nd f σ ⟨b, c⟩ = .val (xs, σ', s) → ∃ n, s.cnt = c + n ∧ ∀ d, stapALoop nd f σ ⟨b, d⟩ = .val (xs, σ', ⟨s.buf, d + n⟩) := by
  intro f
  induction f with
  | zero => intro σ σ' b c s xs h; cases h
  | succ f ih =>
    intro σ σ' b c s xs h
    unfold stapALoop at h ⊢
    by_cases hr : b.remaining > 0
    · rw [if_pos hr] at h
      obtain ⟨⟨x, σ1, s1⟩, h1, h⟩ := val_of_bind h
      obtain ⟨n, e1, h2⟩ := runStore_shift h1
      dsimp only at h
      cases x with
      | none =>
        dsimp only at h
        cases h
        refine ⟨n, e1, fun d => ?_⟩
        rw [if_pos hr, h2 d]
        rfl
      | some x =>
        dsimp only at h
        obtain ⟨⟨ys, σ2, s2⟩, h3, h⟩ := val_of_bind h
        obtain ⟨m, e2, h4⟩ := ih h3
        dsimp only at h
        cases ys with
        | none =>
          dsimp only at h
          cases h
          refine ⟨n + m, by omega, fun d => ?_⟩
          rw [if_pos hr, h2 d, Res.val_bind]
          dsimp only
          rw [h4 (d + n), Nat.add_assoc]
          rfl
        | some ys =>
          dsimp only at h
          cases h
          refine ⟨n + m, by omega, fun d => ?_⟩
          rw [if_pos hr, h2 d, Res.val_bind]
          dsimp only
          rw [h4 (d + n), Nat.add_assoc]
          rfl
    · rw [if_neg hr] at h
      cases h
      refine ⟨0, rfl, fun d => ?_⟩
      rw [if_neg hr]
      rfl

theorem parseRtpStapA_shift {nd : Bool} {σ σ' : Store} {b : Buf} {c : Nat} {s : St} {x : Option RtpStapA}
    (h : parseRtpStapA nd σ ⟨b, c⟩ = .val (x, σ', s)) : ∃ n, s.cnt = c + n ∧ ∀ d, parseRtpStapA nd σ ⟨b, d⟩ = .val (x, σ', ⟨s.buf, d + n⟩) := by
  unfold parseRtpStapA at h ⊢
  obtain ⟨⟨hd, s1⟩, h1, h⟩ := val_of_bind h
  obtain ⟨n, e1, h2⟩ := run_shift nd _ b c h1
  dsimp only at h
  cases hd with
  | none =>
    dsimp only at h
    cases h
    refine ⟨n, e1, fun d => ?_⟩
    rw [h2 d]
    rfl
  | some hd =>
    dsimp only at h
    obtain ⟨⟨ys, σ2, s2⟩, h3, h⟩ := val_of_bind h
    obtain ⟨m, e2, h4⟩ := stapALoop_shift nd _ h3
    dsimp only at h
    cases ys with
    | none =>
      dsimp only at h
      cases h
      refine ⟨n + m, by omega, fun d => ?_⟩
      rw [h2 d, Res.val_bind]
      dsimp only
      rw [h4 (d + n), Nat.add_assoc]
      rfl
    | some ys =>
      dsimp only at h
      cases h
      refine ⟨n + m, by omega, fun d => ?_⟩
      rw [h2 d, Res.val_bind]
      dsimp only
      rw [h4 (d + n), Nat.add_assoc]
      rfl

theorem parseRtp_shift {nd : Bool} {σ σ' : Store} {b : Buf} {c : Nat} {s : St} {x : Option Rtp}
    (h : parseRtp nd σ ⟨b, c⟩ = .val (x, σ', s)) : ∃ n, s.cnt = c + n ∧ ∀ d, parseRtp nd σ ⟨b, d⟩ = .val (x, σ', ⟨s.buf, d + n⟩) := by
  unfold parseRtp at h ⊢
  obtain ⟨⟨hd, s1⟩, h1, h⟩ := val_of_bind h
  obtain ⟨n, e1, h2⟩ := run_shift nd _ b c h1
  dsimp only at h
  cases hd with
  | none =>
    dsimp only at h
    cases h
    refine ⟨n, e1, fun d => ?_⟩
    rw [h2 d]
    rfl
  | some hd =>
    dsimp only at h
    have key : ∀ d, ∀ {β : Type} (f : Option NalHeader × St → Res β), ((run nd parseNalHeader ⟨b, d⟩).res >>= f) = f (some hd, ⟨s1.buf, d + n⟩) := by
      intro d β f
      rw [h2 d]
      rfl
    by_cases t1 : hd.nal_unit_type ≤ 23
    · rw [if_pos t1] at h
      obtain ⟨⟨y, σ2, s2⟩, h3, h⟩ := val_of_bind h
      obtain ⟨m, e2, h4⟩ := runStore_shift h3
      dsimp only at h
      cases h
      refine ⟨n + m, by omega, fun d => ?_⟩
      rw [key]
      dsimp only
      rw [if_pos t1, h4 (d + n), Nat.add_assoc]
      rfl
    rw [if_neg t1] at h
    by_cases t2 : hd.nal_unit_type = 24
    · rw [if_pos t2] at h
      obtain ⟨⟨y, σ2, s2⟩, h3, h⟩ := val_of_bind h
      obtain ⟨m, e2, h4⟩ := parseRtpStapA_shift h3
      dsimp only at h
      cases h
      refine ⟨n + m, by omega, fun d => ?_⟩
      rw [key]
      dsimp only
      rw [if_neg t1, if_pos t2, h4 (d + n), Nat.add_assoc]
      rfl
    rw [if_neg t2] at h
    by_cases t3 : hd.nal_unit_type = 28
    · rw [if_pos t3] at h
      obtain ⟨⟨y, σ2, s2⟩, h3, h⟩ := val_of_bind h
      obtain ⟨m, e2, h4⟩ := runStore_shift h3
      dsimp only at h
      cases h
      refine ⟨n + m, by omega, fun d => ?_⟩
      rw [key]
      dsimp only
      rw [if_neg t1, if_neg t2, if_pos t3, h4 (d + n), Nat.add_assoc]
      rfl
    rw [if_neg t3] at h
    cases h
    refine ⟨n, e1, fun d => ?_⟩
    rw [key]
    dsimp only
    rw [if_neg t1, if_neg t2, if_neg t3]
    rfl

theorem onData_shift {α : Type} {nd : Bool} {f : St → Res (α × Store × St)}
    (hf : ∀ b c x σ' s, f ⟨b, c⟩ = .val (x, σ', s) → ∃ n, s.cnt = c + n ∧ ∀ d, f ⟨b, d⟩ = .val (x, σ', ⟨s.buf, d + n⟩))
    {data : List UInt8} {off len c c' : Nat} {x : α} {σ' : Store} (h : onData nd f data off len c = .val (x, σ', c')) :
    ∃ n, c' = c + n ∧ ∀ d, onData nd f data off len d = .val (x, σ', d + n) := by
  unfold onData at h ⊢
  obtain ⟨bytes, h1, h⟩ := val_of_bind h
  obtain ⟨b, h2, h⟩ := val_of_bind h
  obtain ⟨⟨y, σ1, s⟩, h3, h⟩ := val_of_bind h
  cases h
  obtain ⟨n, e, h4⟩ := hf _ _ _ _ _ h3
  refine ⟨n, e, fun d => ?_⟩
  rw [h1, Res.val_bind, h2, Res.val_bind, h4 d]
  rfl

theorem parseRtpData_shift {nd : Bool} {data : List UInt8} {off len c c' : Nat} {x : Option Rtp} {σ σ' : Store}
    (h : parseRtpData nd data off len σ c = .val (x, σ', c')) : ∃ n, c' = c + n ∧ ∀ d, parseRtpData nd data off len σ d = .val (x, σ', d + n) :=
  onData_shift (fun _ _ _ _ _ => parseRtp_shift) h

theorem parseNalUnitBuf_shift {nd : Bool} {opts : ParsingOptions} {σ σ' : Store} {b : Buf} {c : Nat} {s : St} {x : Option NalUnit}
    (h : parseNalUnitBuf nd opts σ ⟨b, c⟩ = .val (x, σ', s)) :
    ∃ n, s.cnt = c + n ∧ ∀ d, parseNalUnitBuf nd opts σ ⟨b, d⟩ = .val (x, σ', ⟨s.buf, d + n⟩) := by
  unfold parseNalUnitBuf at h ⊢
  obtain ⟨⟨ck, b1⟩, h0, h⟩ := val_of_bind h
  obtain ⟨⟨hd, s1⟩, h1, h⟩ := val_of_bind h
  obtain ⟨n, e1, h2⟩ := run_shift nd _ b1 c h1
  dsimp only at h h0
  cases hd with
  | none =>
    dsimp only at h
    cases h
    refine ⟨n, e1, fun d => ?_⟩
    dsimp only
    rw [h0, Res.val_bind]
    dsimp only
    rw [h2 d]
    rfl
  | some hd =>
    dsimp only at h
    obtain ⟨⟨y, s2⟩, h3, h⟩ := val_of_bind h
    obtain ⟨m, e2, h4⟩ := run_shift nd _ s1.buf s1.cnt h3
    refine ⟨n + m, ?_, fun d => ?_⟩
    · dsimp only at h
      cases y <;> cases h <;> omega
    dsimp only
    rw [h0, Res.val_bind]
    dsimp only
    rw [h2 d, Res.val_bind]
    dsimp only
    rw [h4 (d + n), Nat.add_assoc]
    dsimp only at h
    cases y <;> cases h <;> rfl

theorem parseNalUnit_shift {nd : Bool} {opts : ParsingOptions} {data : List UInt8} {off len c c' : Nat} {x : Option NalUnit} {σ σ' : Store}
    (h : parseNalUnit nd opts data off len σ c = .val (x, σ', c')) :
    ∃ n, c' = c + n ∧ ∀ d, parseNalUnit nd opts data off len σ d = .val (x, σ', d + n) := by
  unfold parseNalUnit parseNalUnitUnescaped at h ⊢
  obtain ⟨bytes, h1, h⟩ := val_of_bind h
  obtain ⟨b, h2, h⟩ := val_of_bind h
  obtain ⟨⟨y, σ1, s⟩, h3, h⟩ := val_of_bind h
  cases h
  obtain ⟨n, e, h4⟩ := parseNalUnitBuf_shift h3
  refine ⟨n, e, fun d => ?_⟩
  rw [h1, Res.val_bind, h2, Res.val_bind, h4 d]
  rfl

end H264

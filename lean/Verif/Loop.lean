import Verif.Auto
import Verif.Codecs.Basic

/-
`do { ... } while (...)` loops whose number of iterations is decided by the data.
-/

namespace H264

/-- Run `p` until it yields `none`, at most `n` times.  Running out of `n` is the distinct outcome `Bad.fuel`. -/
def Prog.loopN {α : Type} (p : Prog (Option α)) : Nat → Prog (List α)
  | 0 => .bad .fuel
  | n + 1 => do
    let o ← p
    match o with
    | none => pure []
    | some a => do
      let xs ← Prog.loopN p n
      pure (a :: xs)

/-- Run `p` until it yields `none`.  Every iteration reads at least one bit, so more iterations than there are bits
left are never needed. -/
def Prog.loop {α : Type} (p : Prog (Option α)) : Prog (List α) := do
  let n ← Prog.remaining
  Prog.loopN p (n + 1)

theorem codecLoopN {α : Type} {p : Prog (Option α)} {e : Option α → List Bool} {V : Option α → Prop}
    (h : Codec p e V) (hne : ∀ o, V o → e o ≠ []) (nd : Bool) : ∀ (n : Nat) (l : List Bool) (c : Nat) (xs : List α)
    (s' : LSt), l.length < n →
    (runL nd (p.loopN n) ⟨l, c⟩ = .ok xs s' ↔ ((∀ a ∈ xs, V (some a)) ∧ V none) ∧
      ∃ r, l = (xs.flatMap (fun a => e (some a)) ++ e none) ++ r ∧ s' = ⟨r, c⟩) := by
  intro n
  induction n with
  | zero => intro l c xs s' hl; omega
  | succ n ih =>
    intro l c xs s' hl
    simp only [Prog.loopN, runL_bind_ok]
    constructor
    · rintro ⟨o, s1, h1, h2⟩
      obtain ⟨hv, r, rfl, rfl⟩ := (h _ _ _ _ _).mp h1
      cases o with
      | none =>
        simp only [Prog.pure_eq, runL_ret, Out.ok.injEq] at h2
        obtain ⟨rfl, rfl⟩ := h2
        exact ⟨⟨by simp, hv⟩, r, by simp, rfl⟩
      | some a =>
        simp only [runL_bind_ok] at h2
        obtain ⟨xs', s2, h3, h4⟩ := h2
        have hpos : 0 < (e (some a)).length := List.length_pos_iff.mpr (hne _ hv)
        rw [List.length_append] at hl
        obtain ⟨⟨hall, hnone⟩, r', rfl, rfl⟩ := (ih r c xs' s2 (by omega)).mp h3
        simp only [Prog.pure_eq, runL_ret, Out.ok.injEq] at h4
        obtain ⟨rfl, rfl⟩ := h4
        exact ⟨⟨by simpa using ⟨hv, hall⟩, hnone⟩, r', by simp, rfl⟩
    · rintro ⟨⟨hall, hnone⟩, r, rfl, rfl⟩
      cases xs with
      | nil => exact ⟨none, ⟨r, c⟩, (h _ _ _ _ _).mpr ⟨hnone, r, by simp, rfl⟩, rfl⟩
      | cons a xs =>
        simp only [List.mem_cons, forall_eq_or_imp] at hall
        have hpos : 0 < (e (some a)).length := List.length_pos_iff.mpr (hne _ hall.1)
        simp only [List.flatMap_cons, List.append_assoc, List.length_append] at hl
        refine ⟨some a, ⟨xs.flatMap (fun a => e (some a)) ++ e none ++ r, c⟩,
          (h _ _ _ _ _).mpr ⟨hall.1, _, by simp, rfl⟩, ?_⟩
        simp only [runL_bind_ok]
        refine ⟨xs, ⟨r, c⟩, (ih _ c xs _ ?_).mpr ⟨⟨hall.2, hnone⟩, r, rfl, rfl⟩, rfl⟩
        simp only [List.length_append]; omega

theorem codecLoop {α : Type} {p : Prog (Option α)} {e : Option α → List Bool} {V : Option α → Prop}
    (h : Codec p e V) (hne : ∀ o, V o → e o ≠ []) :
    Codec p.loop (fun xs => xs.flatMap (fun a => e (some a)) ++ e none) (fun xs => (∀ a ∈ xs, V (some a)) ∧ V none) := by
  intro nd l c xs s'
  unfold Prog.loop
  rw [runL_bind, runL_remaining]
  simp only [Out.bind]
  exact codecLoopN h hne nd _ l c xs s' (by omega)

theorem Safe.loop {α : Type} {p : Prog (Option α)} {e : Option α → List Bool} {V : Option α → Prop}
    (hs : Safe p) (h : Codec p e V) (hne : ∀ o, V o → e o ≠ []) : Safe p.loop := by
  have key : ∀ (n : Nat) (nd : Bool) (s : LSt) (x : Bad), s.rem.length < n → runL nd (p.loopN n) s ≠ .bad x := by
    intro n
    induction n with
    | zero => intro nd s x hl; omega
    | succ n ih =>
      intro nd s x hl hb
      simp only [Prog.loopN] at hb
      rcases runL_bind_bad.mp hb with hb | ⟨o, s1, h1, hb⟩
      · exact hs _ _ _ hb
      · obtain ⟨hv, r, e1, rfl⟩ := (h nd s.rem s.cnt o s1).mp h1
        cases o with
        | none => simp at hb
        | some a =>
          rcases runL_bind_bad.mp hb with hb | ⟨xs, s2, _, hb⟩
          · refine ih nd ⟨r, s.cnt⟩ x ?_ hb
            have hpos : 0 < (e (some a)).length := List.length_pos_iff.mpr (hne _ hv)
            rw [e1, List.length_append] at hl
            show r.length < n
            omega
          · simp at hb
  intro nd s x hb
  unfold Prog.loop at hb
  rw [runL_bind, runL_remaining] at hb
  simp only [Out.bind] at hb
  exact key _ nd s x (by omega) hb

theorem ModeIndep.loopN {α : Type} {p : Prog (Option α)} (h : ModeIndep p) (n : Nat) : ModeIndep (p.loopN n) := by
  induction n with
  | zero => exact ModeIndep.bad _
  | succ n ih =>
    refine ModeIndep.bind h (fun o => ?_)
    cases o with
    | none => exact ModeIndep.pure _
    | some a => exact ModeIndep.bind ih (fun _ => ModeIndep.pure _)

theorem ModeIndep.loop {α : Type} {p : Prog (Option α)} (h : ModeIndep p) : ModeIndep p.loop :=
  ModeIndep.bind ModeIndep.remaining (fun _ => ModeIndep.loopN h _)

macro_rules | `(tactic| mode_step) => `(tactic| with_reducible refine ModeIndep.loop ?_)

end H264

import Verif.Model.Work
import Verif.NalLemmas

/-
How much work the parsers do, as a function of the number of bits they are given and of the number they consume.
-/

namespace H264
open Prog

/-! ### On lists of bits -/

/-- `Op.work` on the list of unread bits. -/
def Op.workL (s : LSt) : Op → Nat
  | .bits _ => 1
  | .peek _ => 1
  | .ue => lz s.rem + 3
  | .se => lz s.rem + 3
  | .remaining => 0
  | .aligned => 0
  | .unimpl => 0

/-- `work` on the list of unread bits. -/
def workL {α : Type} (nd : Bool) : Prog α → LSt → Nat
  | .ret _, _ => 0
  | .null, _ => 0
  | .bad _, _ => 0
  | .op o k, s => o.workL s + workL nd (k (o.runL nd s).1) (o.runL nd s).2

theorem Buf.ueZerosWork_eq (f : Nat) {b : Buf} (h : b.WF) (hf : b.rem.length < f) : ueZerosWork f b = lz b.rem + 1 := by
  induction f generalizing b with
  | zero => omega
  | succ f ih =>
    rw [ueZerosWork, Buf.peek1 h]
    cases hr : b.rem with
    | nil => rfl
    | cons x l =>
      cases x
      · have h1 : 1 ≤ b.rem.length := by rw [hr]; simp
        have e : (b.adv 1).rem = l := by rw [rem_adv, hr]; simp
        have hp : ((Res.val (Option.map (fun x : Bool => x.toNat) (false :: l).head?)).passes fun x => x == some 0) = true := rfl
        rw [if_pos hp, consumeBits_eq h, if_pos h1]
        dsimp only
        rw [ih (h.adv h1) (by rw [e]; rw [hr] at hf; simp at hf; omega), e, lz_false]
      · rfl

theorem Op.work_eq {b : Buf} (h : b.WF) (c : Nat) (o : Op) : o.work ⟨b, c⟩ = o.workL ⟨b.rem, c⟩ := by
  have e : b.ueWork = lz b.rem + 3 := by
    unfold Buf.ueWork
    rw [Buf.remaining_eq h, Buf.ueZerosWork_eq _ h (by omega)]
  cases o <;> simp only [Op.work, Op.workL] <;> exact e

theorem work_eq {α : Type} (nd : Bool) (p : Prog α) {b : Buf} (h : b.WF) (c : Nat) : work nd p ⟨b, c⟩ = workL nd p ⟨b.rem, c⟩ := by
  induction p generalizing b c with
  | ret a => rfl
  | null => rfl
  | bad e => rfl
  | op o k ih =>
    simp only [work, workL]
    rw [Op.run_eq nd h c o, Op.work_eq h]
    simp only
    obtain ⟨n, h1, h2, h3⟩ := o.runL_drop nd ⟨b.rem, c⟩
    simp only at h1 h2
    generalize ho : o.runL nd ⟨b.rem, c⟩ = q at *
    have e : toSt b q.2 = ⟨b.adv n, q.2.cnt⟩ := by
      simp only [toSt]; rw [h2]; congr 2; simp; omega
    have hrem : (b.adv n).rem = q.2.rem := by rw [Buf.rem_adv, h2]
    rw [e, ih q.1 (h.adv h1) q.2.cnt, hrem]

theorem workL_bind {α β : Type} (nd : Bool) (p : Prog α) (f : α → Prog β) (s : LSt) :
    workL nd (p >>= f) s = workL nd p s + match runL nd p s with
      | .ok a s' => workL nd (f a) s'
      | _ => 0 := by
  induction p generalizing s with
  | ret a => simp [workL, runL]
  | null => rfl
  | bad e => rfl
  | op o k ih =>
    show workL nd (Prog.op o (fun r => (k r) >>= f)) s = _
    simp only [workL, runL]
    rw [ih, Nat.add_assoc]

theorem workL_attempt {α : Type} (nd : Bool) (p : Prog α) (s : LSt) : workL nd p.attempt s = workL nd p s := by
  induction p generalizing s with
  | ret a => rfl
  | null => rfl
  | bad e => rfl
  | op o k ih =>
    simp only [Prog.attempt, workL]
    rw [ih]

theorem runL_le {α : Type} {nd : Bool} {p : Prog α} {s t : LSt} {a : α} (h : runL nd p s = .ok a t) : t.rem.length ≤ s.rem.length := by
  have := runL_drop nd p s
  rw [h] at this
  obtain ⟨⟨n, h1, h2⟩, _⟩ := this
  rw [h2, List.length_drop]; omega

theorem ueDec_length {l r : List Bool} {v : Nat} (h : ueDec l = some (v, r)) : l.length = r.length + (2 * lz l + 1) := by
  obtain ⟨_, h2⟩ := (ueDec_iff _ _ _).mp h
  rw [h2, lz_encUE, List.length_append, length_encUE]; omega

/-! ### Judgements -/

/-- The work of a parser is paid for by the bits it consumes, up to the constant `a`; when it gives up, it may have looked at a run
of zeros that is still there. -/
def Lin {α : Type} (a : Nat) (p : Prog α) : Prop := ∀ nd s, match runL nd p s with
  | .ok _ t => workL nd p s + 4 * t.rem.length ≤ a + 4 * s.rem.length
  | .null t => workL nd p s + 4 * t.rem.length ≤ a + 3 + 2 * lz t.rem + 4 * s.rem.length
  | .bad _ => workL nd p s ≤ a + 3 + 6 * s.rem.length

namespace Lin
variable {α β : Type} {a b : Nat}

theorem mono {p : Prog α} (h : Lin a p) (hab : a ≤ b) : Lin b p := by
  intro nd s
  have := h nd s
  revert this
  cases runL nd p s <;> dsimp only <;> intro <;> omega

theorem ret (x : α) : Lin 0 (Prog.ret x) := by intro nd s; simp [workL]
theorem pure (x : α) : Lin 0 (Pure.pure x : Prog α) := ret x
theorem null : Lin 0 (Prog.null : Prog α) := by intro nd s; simp only [runL_null, workL]; omega
theorem bad (e : Bad) : Lin 0 (Prog.bad e : Prog α) := by intro nd s; simp [workL]

theorem workL_u (nd : Bool) (n : Nat) (s : LSt) : workL nd (Prog.u n) s = 1 := by
  unfold Prog.u workL
  generalize (Op.runL nd s (.bits n)) = q
  obtain ⟨r, t⟩ := q
  cases r <;> rfl
theorem u (n : Nat) : Lin 0 (Prog.u n) := by
  intro nd s
  rw [runL_u, workL_u]
  by_cases h : n = 0 ∨ n > 32 ∨ n > s.rem.length
  · rw [if_pos h]; dsimp only; omega
  · rw [if_neg h]; dsimp only; rw [List.length_drop]; omega
theorem workL_ue (nd : Bool) (s : LSt) : workL nd Prog.ue s = lz s.rem + 3 := by
  unfold Prog.ue workL
  generalize (Op.runL nd s .ue) = q
  obtain ⟨r, t⟩ := q
  cases r <;> rfl
theorem workL_se (nd : Bool) (s : LSt) : workL nd Prog.se s = lz s.rem + 3 := by
  unfold Prog.se workL
  generalize (Op.runL nd s .se) = q
  obtain ⟨r, t⟩ := q
  cases r <;> rfl

end Lin

/-- As `Lin`, with a run of zeros that is at the beginning paid for as well. -/
def LinZ {α : Type} (a : Nat) (p : Prog α) : Prop := ∀ nd s, match runL nd p s with
  | .ok _ t => workL nd p s + lz s.rem + 4 * t.rem.length ≤ a + 4 * s.rem.length
  | .null t => workL nd p s + lz s.rem + 4 * t.rem.length ≤ a + 3 + 2 * lz t.rem + 4 * s.rem.length
  | .bad _ => workL nd p s + lz s.rem ≤ a + 3 + 6 * s.rem.length

/-- As `Lin`, but a run of zeros that was looked at may still be there. -/
def SLin {α : Type} (a : Nat) (p : Prog α) : Prop := ∀ nd s, match runL nd p s with
  | .ok _ t => workL nd p s + 4 * t.rem.length ≤ a + lz t.rem + 4 * s.rem.length
  | .null t => workL nd p s + 4 * t.rem.length ≤ a + 3 + 2 * lz t.rem + 4 * s.rem.length
  | .bad _ => workL nd p s ≤ a + 3 + 6 * s.rem.length

/-- As `Lin`, for a parser that goes on after another one gave up. -/
def LinA {α : Type} (a : Nat) (p : Prog α) : Prop := ∀ nd s, match runL nd p s with
  | .ok _ t => workL nd p s + 4 * t.rem.length ≤ a + 2 * lz t.rem + 4 * s.rem.length
  | .null t => workL nd p s + 4 * t.rem.length ≤ a + 2 * lz t.rem + 4 * s.rem.length
  | .bad _ => workL nd p s ≤ a + 6 * s.rem.length

theorem ueFail_false (l : List Bool) : ueFail false l = l := rfl
theorem ueFail_true (l : List Bool) : ueFail true l = l.drop (lz l) := rfl

theorem LinZ.ue : LinZ 0 Prog.ue := by
  intro nd s
  rw [runL_ue, Lin.workL_ue]
  cases h : ueDec s.rem with
  | none =>
    dsimp only
    have := lz_le s.rem
    cases nd
    · rw [ueFail_false]; omega
    · rw [ueFail_true, List.length_drop]; omega
  | some x =>
    obtain ⟨v, r⟩ := x
    have := ueDec_length h
    dsimp only
    omega
theorem LinZ.se : LinZ 0 Prog.se := by
  intro nd s
  rw [runL_se, Lin.workL_se]
  cases h : ueDec s.rem with
  | none =>
    dsimp only
    have := lz_le s.rem
    cases nd
    · rw [ueFail_false]; omega
    · rw [ueFail_true, List.length_drop]; omega
  | some x =>
    obtain ⟨v, r⟩ := x
    have := ueDec_length h
    dsimp only
    omega
theorem LinZ.lin {α : Type} {a : Nat} {p : Prog α} (h : LinZ a p) : Lin a p := by
  intro nd s
  have := h nd s
  revert this
  cases runL nd p s <;> dsimp only <;> intro <;> omega

namespace Lin
variable {α β : Type} {a b : Nat}

theorem ue : Lin 0 Prog.ue := LinZ.ue.lin
theorem se : Lin 0 Prog.se := LinZ.se.lin
theorem workL_peek (nd : Bool) (n : Nat) (s : LSt) : workL nd (Prog.peek n) s = 1 := by
  unfold Prog.peek workL
  generalize (Op.runL nd s (.peek n)) = q
  obtain ⟨r, t⟩ := q
  cases r <;> rfl
theorem remaining : Lin 0 Prog.remaining := by
  intro nd s; rw [runL_remaining]; simp [Prog.remaining, workL, Op.workL]
theorem aligned : Lin 0 Prog.aligned := by
  intro nd s; rw [runL_aligned]; simp [Prog.aligned, workL, Op.workL]
theorem unimpl : Lin 0 Prog.unimpl := by
  intro nd s; rw [runL_unimpl]; simp [Prog.unimpl, workL, Op.workL]
theorem lift (r : Res α) : Lin 0 (Prog.lift r) := by
  cases r with
  | val x => exact ret x
  | bad e => exact bad e
theorem guard (c : Prop) [Decidable c] : Lin 0 (Prog.guard c) := by
  unfold Prog.guard
  by_cases h : c
  · rw [if_pos h]; exact ret _
  · rw [if_neg h]; exact null
theorem ite {c : Prop} [Decidable c] {p q : Prog α} (hp : c → Lin a p) (hq : ¬ c → Lin a q) : Lin a (if c then p else q) := by
  by_cases h : c
  · rw [if_pos h]; exact hp h
  · rw [if_neg h]; exact hq h
theorem opt {c : Prop} [Decidable c] {d : α} {p : Prog α} (hp : c → Lin a p) : Lin a (Prog.opt c d p) :=
  ite hp (fun _ => (pure _).mono (Nat.zero_le _))

theorem bind {p : Prog α} {f : α → Prog β} (hp : Lin a p) (hf : ∀ x, Lin b (f x)) : Lin (a + b) (p >>= f) := by
  intro nd s
  rw [runL_bind, workL_bind]
  have h := hp nd s
  revert h
  cases hr : runL nd p s with
  | ok x t =>
    intro h
    have hle := runL_le hr
    have h2 := hf x nd t
    simp only [Out.bind]
    revert h2
    dsimp only at h ⊢
    cases runL nd (f x) t <;> dsimp only <;> intro <;> omega
  | null t => simp only [Out.bind]; intro; omega
  | bad e => simp only [Out.bind]; intro; omega
theorem bind0 {p : Prog α} {f : α → Prog β} (hp : Lin 0 p) (hf : ∀ x, Lin b (f x)) : Lin b (p >>= f) :=
  (bind hp hf).mono (by omega)
theorem ueIn {lo hi : Nat} : Lin 0 (Prog.ueIn lo hi) := bind0 ue (fun _ => bind0 (guard _) (fun _ => pure _))
theorem rep {p : Prog α} (hp : Lin 0 p) (n : Nat) : Lin 0 (p.rep n) := by
  induction n with
  | zero => exact pure _
  | succ n ih => exact bind0 hp (fun _ => bind0 ih (fun _ => pure _))
theorem loopN {p : Prog (Option α)} (hp : Lin 0 p) (n : Nat) : Lin 0 (p.loopN n) := by
  induction n with
  | zero => exact bad _
  | succ n ih =>
    refine bind0 hp (fun o => ?_)
    cases o with
    | none => exact pure _
    | some x => exact bind0 ih (fun _ => pure _)
theorem loop {p : Prog (Option α)} (hp : Lin 0 p) : Lin 0 p.loop := bind0 remaining (fun _ => loopN hp _)

end Lin

theorem LinZ.bind {α β : Type} {a b : Nat} {p : Prog α} {f : α → Prog β} (hp : LinZ a p) (hf : ∀ x, Lin b (f x)) :
    LinZ (a + b) (p >>= f) := by
  intro nd s
  rw [runL_bind, workL_bind]
  have h := hp nd s
  revert h
  cases hr : runL nd p s with
  | ok x t =>
    intro h
    have hle := runL_le hr
    have h2 := hf x nd t
    simp only [Out.bind]
    revert h2
    dsimp only at h ⊢
    cases runL nd (f x) t <;> dsimp only <;> intro <;> omega
  | null t => simp only [Out.bind]; intro; omega
  | bad e => simp only [Out.bind]; intro; omega

theorem SLin.bind {α β : Type} {a b : Nat} {p : Prog α} {f : α → Prog β} (hp : SLin a p) (hf : ∀ x, LinZ b (f x)) :
    Lin (a + b) (p >>= f) := by
  intro nd s
  rw [runL_bind, workL_bind]
  have h := hp nd s
  revert h
  cases hr : runL nd p s with
  | ok x t =>
    intro h
    have hle := runL_le hr
    have h2 := hf x nd t
    simp only [Out.bind]
    revert h2
    dsimp only at h ⊢
    cases runL nd (f x) t <;> dsimp only <;> intro <;> omega
  | null t => simp only [Out.bind]; intro; omega
  | bad e => simp only [Out.bind]; intro; omega

theorem Lin.slin {α : Type} {a : Nat} {p : Prog α} (h : Lin a p) : SLin a p := by
  intro nd s
  have := h nd s
  revert this
  cases runL nd p s <;> dsimp only <;> intro <;> omega

namespace LinA
variable {α β : Type} {a b : Nat}

theorem of {p : Prog α} (h : Lin a p) : LinA (a + 3) p := by
  intro nd s
  have := h nd s
  revert this
  cases runL nd p s <;> dsimp only <;> intro <;> omega
theorem mono {p : Prog α} (h : LinA a p) (hab : a ≤ b) : LinA b p := by
  intro nd s
  have := h nd s
  revert this
  cases runL nd p s <;> dsimp only <;> intro <;> omega
theorem attempt {p : Prog α} (h : LinA a p) : LinA a p.attempt := by
  intro nd s
  have := h nd s
  rw [runL_attempt, workL_attempt]
  revert this
  cases runL nd p s <;> exact id
theorem map {p : Prog α} (h : LinA a p) (g : α → β) : LinA a (do let x ← p; Pure.pure (g x)) := by
  intro nd s
  have := h nd s
  rw [runL_bind, workL_bind]
  revert this
  cases runL nd p s <;> simp [Out.bind, workL, Prog.pure_eq]
/-- A parser before which everything succeeded. -/
theorem bind {p : Prog α} {f : α → Prog β} (hp : Lin a p) (hf : ∀ x, LinA (b + 3) (f x)) : LinA (a + b + 3) (p >>= f) := by
  intro nd s
  rw [runL_bind, workL_bind]
  have h := hp nd s
  revert h
  cases hr : runL nd p s with
  | ok x t =>
    intro h
    have hle := runL_le hr
    have h2 := hf x nd t
    simp only [Out.bind]
    revert h2
    dsimp only at h ⊢
    cases runL nd (f x) t <;> dsimp only <;> intro <;> omega
  | null t => simp only [Out.bind]; intro; omega
  | bad e => simp only [Out.bind]; intro; omega
theorem ite {c : Prop} [Decidable c] {p q : Prog α} (hp : c → LinA a p) (hq : ¬ c → LinA a q) : LinA a (if c then p else q) := by
  by_cases h : c
  · rw [if_pos h]; exact hp h
  · rw [if_neg h]; exact hq h

end LinA

/-- One step of `linear`. -/
syntax "lin_step" : tactic
macro_rules | `(tactic| lin_step) => `(tactic| with_reducible refine Lin.bind0 ?_ (fun _ => ?_))
macro_rules | `(tactic| lin_step) => `(tactic| with_reducible refine Lin.ite (fun _ => ?_) (fun _ => ?_))
macro_rules | `(tactic| lin_step) => `(tactic| with_reducible refine Lin.opt (fun _ => ?_))
macro_rules | `(tactic| lin_step) => `(tactic| with_reducible refine Lin.rep ?_ _)
macro_rules | `(tactic| lin_step) => `(tactic| with_reducible refine Lin.loop ?_)
macro_rules | `(tactic| lin_step) => `(tactic| with_reducible exact Lin.pure _)
macro_rules | `(tactic| lin_step) => `(tactic| with_reducible exact Lin.ret _)
macro_rules | `(tactic| lin_step) => `(tactic| with_reducible exact Lin.null)
macro_rules | `(tactic| lin_step) => `(tactic| with_reducible exact Lin.u _)
macro_rules | `(tactic| lin_step) => `(tactic| with_reducible exact Lin.ue)
macro_rules | `(tactic| lin_step) => `(tactic| with_reducible exact Lin.se)
macro_rules | `(tactic| lin_step) => `(tactic| with_reducible exact Lin.ueIn)
macro_rules | `(tactic| lin_step) => `(tactic| with_reducible exact Lin.lift _)
macro_rules | `(tactic| lin_step) => `(tactic| with_reducible exact Lin.guard _)
macro_rules | `(tactic| lin_step) => `(tactic| with_reducible exact Lin.unimpl)
macro_rules | `(tactic| lin_step) => `(tactic| with_reducible exact Lin.remaining)
macro_rules | `(tactic| lin_step) => `(tactic| with_reducible assumption)
/-- Prove `Lin 0 p` by structure. -/
macro "linear" : tactic => `(tactic| repeat' lin_step)

/-! ### Trailing bits and extension data -/

/-- As `Lin 0`, for a parser that reads no Golomb code. -/
def LinB {α : Type} (p : Prog α) : Prop := ∀ nd s, match runL nd p s with
  | .ok _ t => workL nd p s + 4 * t.rem.length ≤ 4 * s.rem.length
  | .null t => workL nd p s + 4 * t.rem.length ≤ 1 + 4 * s.rem.length
  | .bad _ => workL nd p s ≤ 1 + 4 * s.rem.length

namespace LinB
variable {α β : Type}

theorem pure (x : α) : LinB (Pure.pure x : Prog α) := by intro nd s; simp [workL]
theorem u (n : Nat) : LinB (Prog.u n) := by
  intro nd s
  have h := Lin.workL_u nd n s
  rw [runL_u, h]
  by_cases h : n = 0 ∨ n > 32 ∨ n > s.rem.length
  · rw [if_pos h]; dsimp only; omega
  · rw [if_neg h]; dsimp only; rw [List.length_drop]; omega
theorem guard (c : Prop) [Decidable c] : LinB (Prog.guard c) := by
  unfold Prog.guard
  intro nd s
  by_cases h : c
  · rw [if_pos h]; simp [workL]
  · rw [if_neg h]; simp only [workL, runL_null]; omega
theorem bind {p : Prog α} {f : α → Prog β} (hp : LinB p) (hf : ∀ x, LinB (f x)) : LinB (p >>= f) := by
  intro nd s
  rw [runL_bind, workL_bind]
  have h := hp nd s
  revert h
  cases hr : runL nd p s with
  | ok x t =>
    intro h
    have h2 := hf x nd t
    simp only [Out.bind]
    revert h2
    dsimp only at h ⊢
    cases runL nd (f x) t <;> dsimp only <;> intro <;> omega
  | null t => simp only [Out.bind]; intro; omega
  | bad e => simp only [Out.bind]; intro; omega
theorem attempt {p : Prog α} (h : LinB p) : Lin 1 p.attempt := by
  intro nd s
  have := h nd s
  rw [runL_attempt, workL_attempt]
  revert this
  cases runL nd p s <;> dsimp only <;> intro <;> omega

end LinB

theorem linb_trailingLoop (n : Nat) : LinB (trailingLoop n) := by
  induction n with
  | zero => intro nd s; simp [trailingLoop, workL]
  | succ n ih =>
    refine LinB.bind (fun nd s => ?_) (fun al => ?_)
    · rw [runL_aligned]; simp [Prog.aligned, workL, Op.workL]
    · split
      · exact LinB.pure _
      · exact LinB.bind (LinB.u _) (fun b => LinB.bind (LinB.guard _) (fun _ => ih))

theorem lin_trailing : Lin 1 rbspTrailingBits.attempt := by
  refine LinB.attempt (LinB.bind (LinB.u _) (fun _ => LinB.bind (LinB.guard _) (fun _ => LinB.bind (fun nd s => ?_)
    (fun _ => linb_trailingLoop _))))
  rw [runL_remaining]; simp [Prog.remaining, workL, Op.workL]

theorem workL_more (nd : Bool) (s : LSt) : workL nd moreRbspData s ≤ 1 := by
  unfold moreRbspData
  rw [workL_bind, runL_remaining]
  have : workL nd Prog.remaining s = 0 := by simp [Prog.remaining, workL, Op.workL]
  rw [this]
  dsimp only
  by_cases h0 : s.rem.length = 0
  · rw [if_pos h0]; simp [workL, Prog.pure_eq]
  rw [if_neg h0]
  by_cases h8 : s.rem.length > 8
  · rw [if_pos h8]; simp [workL, Prog.pure_eq]
  rw [if_neg h8, workL_bind, workL_attempt, Lin.workL_peek]
  cases runL nd (Prog.peek s.rem.length).attempt s with
  | ok a t => cases a <;> simp [workL, Prog.pure_eq]
  | null t => simp
  | bad e => simp
theorem lin_more : Lin 1 moreRbspData := by
  intro nd s
  have := workL_more nd s
  rw [runL_more]
  dsimp only
  omega

theorem lin_ext2Step (nd : Bool) (s : LSt) : match runL nd parseExt2Step s with
    | .ok (some _) t => workL nd parseExt2Step s + 4 * t.rem.length ≤ 4 * s.rem.length
    | .ok none t => workL nd parseExt2Step s + 4 * t.rem.length ≤ 1 + 4 * s.rem.length
    | .null t => workL nd parseExt2Step s + 4 * t.rem.length ≤ 4 + 4 * s.rem.length
    | .bad _ => workL nd parseExt2Step s ≤ 4 + 6 * s.rem.length := by
  unfold parseExt2Step
  rw [runL_bind, workL_bind, runL_more]
  have := workL_more nd s
  simp only [Out.bind]
  generalize moreData s.rem = m
  cases m with
  | false =>
    rw [if_neg (by simp)]
    simp only [Prog.pure_eq, runL_ret, workL]
    omega
  | true =>
    rw [if_pos rfl, runL_bind, workL_bind, Lin.workL_u, runL_u]
    by_cases h : 1 = 0 ∨ 1 > 32 ∨ 1 > s.rem.length
    · rw [if_pos h]; simp only [Out.bind]; omega
    · rw [if_neg h]; simp only [Out.bind, Prog.pure_eq, runL_ret, workL, List.length_drop]; omega

theorem lin_ext2LoopN (n : Nat) : Lin 1 (parseExt2Step.loopN n) := by
  induction n with
  | zero => exact (Lin.bad _).mono (by omega)
  | succ n ih =>
    intro nd s
    unfold Prog.loopN
    rw [runL_bind, workL_bind]
    have h := lin_ext2Step nd s
    revert h
    cases hr : runL nd parseExt2Step s with
    | ok x t =>
      have hle := runL_le hr
      cases x with
      | none => dsimp only; intro h; simp only [Out.bind, Prog.pure_eq, runL_ret, workL]; omega
      | some x =>
        dsimp only
        intro h
        have h2 := Lin.bind (b := 0) ih (f := fun xs => (pure (x :: xs) : Prog (List Nat))) (fun _ => Lin.pure _) nd t
        simp only [Out.bind]
        revert h2
        generalize (parseExt2Step.loopN n >>= fun xs => (pure (x :: xs) : Prog (List Nat))) = q
        cases runL nd q t <;> dsimp only <;> intro <;> omega
    | null t => simp only [Out.bind]; intro; omega
    | bad e => simp only [Out.bind]; intro; omega
theorem lin_ext2Loop : Lin 1 parseExt2Step.loop := Lin.bind0 Lin.remaining (fun _ => lin_ext2LoopN _)

/-! ### Scaling lists -/

theorem lift_val {α : Type} (x : α) : Prog.lift (.val x) = .ret x := rfl
theorem lift_bad {α : Type} (e : Bad) : Prog.lift (.bad e : Res α) = .bad e := rfl

theorem lin_scalingLoop (nd : Bool) (i : Nat) : ∀ (n j last next : Nat) (x : SLSt) (s : LSt),
    match runL nd (scalingLoop i n j last next x) s with
    | .ok _ t => workL nd (scalingLoop i n j last next x) s + 4 * t.rem.length ≤ 34 + 4 * s.rem.length ∨
        (32 ≤ lz t.rem ∧ workL nd (scalingLoop i n j last next x) s + 4 * t.rem.length ≤ 3 + lz t.rem + 4 * s.rem.length)
    | .null _ => False
    | .bad _ => workL nd (scalingLoop i n j last next x) s ≤ 3 + 6 * s.rem.length
  | 0, _, _, _, _, s => by simp [scalingLoop, workL, Prog.pure_eq]
  | n + 1, j, last, next, x, s => by
    unfold scalingLoop
    by_cases hn : next = 0
    · rw [if_neg (by simp [hn])]; exact lin_scalingLoop nd i n _ _ _ _ s
    rw [if_pos hn, runL_bind, workL_bind, workL_attempt, Lin.workL_se, runL_attempt, runL_se]
    cases hd : ueDec s.rem with
    | none =>
      simp only [Out.bind, Prog.pure_eq, runL_ret, workL]
      have := lz_le s.rem
      cases nd
      · rw [ueFail_false]; omega
      · rw [ueFail_true, List.length_drop]; omega
    | some v =>
      obtain ⟨v, r⟩ := v
      have hl := ueDec_length hd
      simp only [Out.bind]
      generalize seVal v = d
      by_cases hb : d < -128 ∨ d > 127
      · rw [if_pos hb]; simp only [Prog.pure_eq, runL_ret, workL]; omega
      rw [if_neg hb]
      generalize sint (toI32 last + d) = y
      cases y with
      | bad e =>
        rw [lift_bad, runL_bind, workL_bind, runL_bad]
        simp only [Out.bind, workL]; omega
      | val y =>
        rw [lift_val, Prog.ret_bind]
        generalize sint (y + 256) = z
        cases z with
        | bad e =>
          rw [lift_bad, runL_bind, workL_bind, runL_bad]
          simp only [Out.bind, workL]; omega
        | val z =>
          rw [lift_val, Prog.ret_bind]
          generalize toU32 z % 256 = w
          have ih := lin_scalingLoop nd i n (j + 1) (if w = 0 then last else w) w
            { list := setGrow x.list j (if w = 0 then last else w),
              useDef := setGrow x.useDef i (if j = 0 ∧ w = 0 then 1 else 0), delta := d } ⟨r, s.cnt⟩
          revert ih
          generalize scalingLoop i n (j + 1) (if w = 0 then last else w) w
            { list := setGrow x.list j (if w = 0 then last else w),
              useDef := setGrow x.useDef i (if j = 0 ∧ w = 0 then 1 else 0), delta := d } = q
          cases runL nd q ⟨r, s.cnt⟩ with
          | ok a t => dsimp only; intro ih; omega
          | null t => exact id
          | bad e => dsimp only; intro; omega

theorem lin_scalingCall (nd : Bool) (i : Nat) (x : Scal) (s : LSt) : match runL nd (scalingCall i x) s with
    | .ok _ t => workL nd (scalingCall i x) s + 4 * t.rem.length ≤ 34 + 4 * s.rem.length ∨
        (32 ≤ lz t.rem ∧ workL nd (scalingCall i x) s + 4 * t.rem.length ≤ 3 + lz t.rem + 4 * s.rem.length)
    | .null _ => False
    | .bad _ => workL nd (scalingCall i x) s ≤ 3 + 6 * s.rem.length := by
  unfold scalingCall scalingList
  by_cases h : i < 6
  · rw [if_pos h, runL_bind, workL_bind]
    have := lin_scalingLoop nd i 16 0 8 8 ⟨x.ScalingList4x4, x.UseDefaultScalingMatrix4x4Flag, x.delta_scale⟩ s
    revert this
    generalize scalingLoop i 16 0 8 8 ⟨x.ScalingList4x4, x.UseDefaultScalingMatrix4x4Flag, x.delta_scale⟩ = q
    cases runL nd q s <;> simp [Out.bind, workL, Prog.pure_eq]
  · rw [if_neg h, runL_bind, workL_bind]
    have := lin_scalingLoop nd (i - 6) 64 0 8 8 ⟨x.ScalingList8x8, x.UseDefaultScalingMatrix4x4Flag, x.delta_scale⟩ s
    revert this
    generalize scalingLoop (i - 6) 64 0 8 8 ⟨x.ScalingList8x8, x.UseDefaultScalingMatrix4x4Flag, x.delta_scale⟩ = q
    cases runL nd q s <;> simp [Out.bind, workL, Prog.pure_eq]

theorem lz_drop (l : List Bool) (n : Nat) (h : n ≤ lz l) : lz (l.drop n) = lz l - n := by
  induction n generalizing l with
  | zero => simp
  | succ n ih =>
    cases l with
    | nil => simp at h
    | cons b l =>
      cases b
      · simp at h ⊢; rw [ih l (by omega)]
      · simp at h

/-- In a run of zeros no scaling list is present. -/
theorem scalingLists_zeros (nd : Bool) : ∀ (n i : Nat) (x : Scal) (s : LSt), n ≤ lz s.rem →
    workL nd (scalingLists n i x) s = n ∧ ∃ y, runL nd (scalingLists n i x) s = .ok y ⟨s.rem.drop n, s.cnt⟩
  | 0, i, x, s, _ => by simp [scalingLists, workL, Prog.pure_eq]
  | n + 1, i, x, s, h => by
    obtain ⟨r, c⟩ := s
    cases r with
    | nil => simp at h
    | cons b l =>
      cases b
      case true => simp at h
      have ih := scalingLists_zeros nd n (i + 1) { x with scaling_list_present_flag := x.scaling_list_present_flag ++ [0] } ⟨l, c⟩
        (by simpa using h)
      unfold scalingLists
      have e : runL nd (Prog.u 1) ⟨false :: l, c⟩ = .ok 0 ⟨l, c⟩ := by rw [runL_u, if_neg (by simp)]; simp [bitsVal]
      rw [runL_bind, workL_bind, Lin.workL_u, e]
      simp only [Out.bind, Prog.opt, ne_eq, not_true_eq_false, if_false, Prog.pure_eq, Prog.ret_bind, List.drop_succ_cons]
      obtain ⟨h1, y, h2⟩ := ih
      exact ⟨by rw [h1]; omega, y, by rw [h2]⟩

theorem slin_scalingLists : ∀ (n i : Nat) (x : Scal), n ≤ 32 → SLin (34 * n) (scalingLists n i x)
  | 0, _, _, _ => (Lin.pure _).slin
  | n + 1, i, x, hn => by
    intro nd s
    unfold scalingLists
    have h := LinB.u 1 nd s
    rw [runL_bind, workL_bind]
    revert h
    cases hr : runL nd (Prog.u 1) s with
    | null t => simp only [Out.bind]; intro; omega
    | bad e => simp only [Out.bind]; intro; omega
    | ok f t =>
      have hle := runL_le hr
      simp only [Out.bind]
      intro h
      generalize hx : { x with scaling_list_present_flag := x.scaling_list_present_flag ++ [f] } = x1
      by_cases hf : f = 0
      · simp only [Prog.opt]
        rw [if_neg (by simp [hf])]
        simp only [Prog.pure_eq, Prog.ret_bind]
        have ih := slin_scalingLists n (i + 1) x1 (by omega) nd t
        revert ih
        generalize scalingLists n (i + 1) x1 = q
        cases runL nd q t <;> dsimp only <;> intro <;> omega
      simp only [Prog.opt]
      rw [if_pos hf, runL_bind, workL_bind]
      have hc := lin_scalingCall nd i x1 t
      revert hc
      cases hr2 : runL nd (scalingCall i x1) t with
      | null t => exact False.elim
      | bad e => simp only [Out.bind]; intro; omega
      | ok y r =>
        have hle2 := runL_le hr2
        simp only [Out.bind]
        rintro (hc | ⟨h32, hc⟩)
        · have ih := slin_scalingLists n (i + 1) y (by omega) nd r
          revert ih
          generalize scalingLists n (i + 1) y = q
          cases runL nd q r <;> dsimp only <;> intro <;> omega
        · obtain ⟨h1, z, h2⟩ := scalingLists_zeros nd n (i + 1) y r (by omega)
          rw [h1, h2]
          dsimp only
          rw [lz_drop _ _ (by omega), List.length_drop]
          have := lz_le r.rem
          omega

end H264

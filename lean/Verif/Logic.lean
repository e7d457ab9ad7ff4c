import Verif.Prog

/-
Reasoning about parser programs: sequencing lemmas, codecs, safety, independence of the build mode.
-/

namespace H264
open Prog

section basic
variable {α β : Type}

@[simp] theorem Prog.pure_eq (a : α) : (pure a : Prog α) = .ret a := rfl
@[simp] theorem Prog.ret_bind (a : α) (f : α → Prog β) : (Prog.ret a >>= f) = f a := rfl
@[simp] theorem Prog.null_bind (f : α → Prog β) : ((Prog.null : Prog α) >>= f) = .null := rfl
@[simp] theorem Prog.bad_bind (e : Bad) (f : α → Prog β) : ((Prog.bad e : Prog α) >>= f) = .bad e := rfl
@[simp] theorem Prog.op_bind (o : Op) (k : o.Resp → Prog α) (f : α → Prog β) :
    (Prog.op o k >>= f) = .op o (fun r => k r >>= f) := rfl

instance : LawfulMonad Prog := LawfulMonad.mk'
  (id_map := by
    intro α x
    induction x with
    | ret => rfl
    | null => rfl
    | bad => rfl
    | op o k ih => show Prog.op o _ = Prog.op o k; congr 1; funext r; exact ih r)
  (pure_bind := by intros; rfl)
  (bind_assoc := by
    intro α β γ x f g
    induction x with
    | ret => rfl
    | null => rfl
    | bad => rfl
    | op o k ih => show Prog.op o _ = Prog.op o _; congr 1; funext r; exact ih r)

@[simp] theorem runL_ret (nd) (a : α) (s) : runL nd (.ret a) s = .ok a s := rfl
@[simp] theorem runL_null (nd) (s) : runL nd (.null : Prog α) s = .null s := rfl
@[simp] theorem runL_bad (nd) (e) (s) : runL nd (.bad e : Prog α) s = .bad e := rfl
theorem runL_op (nd) (o : Op) (k : o.Resp → Prog α) (s) :
    runL nd (.op o k) s = runL nd (k (o.runL nd s).1) (o.runL nd s).2 := rfl

/-- Sequencing of outcomes. -/
def Out.bind {σ : Type} (x : Out σ α) (f : α → σ → Out σ β) : Out σ β :=
  match x with
  | .ok a s => f a s
  | .null s => .null s
  | .bad e => .bad e

theorem runL_bind (nd) (p : Prog α) (f : α → Prog β) (s) :
    runL nd (p >>= f) s = (runL nd p s).bind (fun a s' => runL nd (f a) s') := by
  induction p generalizing s with
  | ret => rfl
  | null => rfl
  | bad => rfl
  | op o k ih => exact ih _ _

theorem runL_bind_ok {nd} {p : Prog α} {f : α → Prog β} {s s' b} :
    runL nd (p >>= f) s = .ok b s' ↔ ∃ a s1, runL nd p s = .ok a s1 ∧ runL nd (f a) s1 = .ok b s' := by
  rw [runL_bind]
  cases h : runL nd p s with
  | ok a s1 =>
    simp only [Out.bind, Out.ok.injEq]
    constructor
    · intro h; exact ⟨a, s1, ⟨rfl, rfl⟩, h⟩
    · rintro ⟨_, _, ⟨rfl, rfl⟩, h⟩; exact h
  | null s1 => simp [Out.bind]
  | bad e => simp [Out.bind]

theorem runL_bind_bad {nd} {p : Prog α} {f : α → Prog β} {s e} :
    runL nd (p >>= f) s = .bad e ↔
      runL nd p s = .bad e ∨ ∃ a s1, runL nd p s = .ok a s1 ∧ runL nd (f a) s1 = .bad e := by
  rw [runL_bind]
  cases h : runL nd p s with
  | ok a s1 =>
    simp only [Out.bind, Out.ok.injEq, reduceCtorEq, false_or]
    constructor
    · intro h; exact ⟨a, s1, ⟨rfl, rfl⟩, h⟩
    · rintro ⟨_, _, ⟨rfl, rfl⟩, h⟩; exact h
  | null s1 => simp [Out.bind]
  | bad e' => simp [Out.bind]

theorem runL_attempt (nd) (p : Prog α) (s) :
    runL nd p.attempt s = match runL nd p s with
      | .ok a s' => .ok (some a) s'
      | .null s' => .ok none s'
      | .bad e => .bad e := by
  induction p generalizing s with
  | ret => rfl
  | null => rfl
  | bad => rfl
  | op o k ih => exact ih _ _

theorem runL_guard (nd) (c : Prop) [Decidable c] (s) :
    runL nd (Prog.guard c) s = if c then .ok () s else .null s := by
  unfold Prog.guard; split <;> rfl

theorem runL_u (nd) (n : Nat) (s : LSt) :
    runL nd (u n) s = if n = 0 ∨ n > 32 ∨ n > s.rem.length then .null s
      else .ok (bitsVal (s.rem.take n)) { s with rem := s.rem.drop n } := by
  simp only [u, runL_op, Op.runL]
  by_cases h : n = 0 ∨ n > 32 ∨ n > s.rem.length
  · simp only [if_pos h]; rfl
  · simp only [if_neg h]; rfl

theorem runL_peek (nd) (n : Nat) (s : LSt) :
    runL nd (Prog.peek n) s = if n = 0 ∨ n > 32 ∨ n > s.rem.length then .null s
      else .ok (bitsVal (s.rem.take n)) s := by
  simp only [Prog.peek, runL_op, Op.runL]
  by_cases h : n = 0 ∨ n > 32 ∨ n > s.rem.length
  · simp only [if_pos h]; rfl
  · simp only [if_neg h]; rfl

theorem runL_ue (nd) (s : LSt) :
    runL nd ue s = match ueDec s.rem with
      | some (v, r) => .ok v { s with rem := r }
      | none => .null { s with rem := ueFail nd s.rem } := by
  simp only [ue, runL_op, Op.runL]
  cases ueDec s.rem <;> rfl

theorem runL_se (nd) (s : LSt) :
    runL nd se s = match ueDec s.rem with
      | some (v, r) => .ok (seVal v) { s with rem := r }
      | none => .null { s with rem := ueFail nd s.rem } := by
  simp only [se, runL_op, Op.runL]
  cases ueDec s.rem <;> rfl

theorem runL_remaining (nd) (s : LSt) : runL nd Prog.remaining s = .ok s.rem.length s := rfl
theorem runL_aligned (nd) (s : LSt) : runL nd Prog.aligned s = .ok (decide (s.rem.length % 8 = 0)) s := rfl
theorem runL_unimpl (nd) (s : LSt) : runL nd Prog.unimpl s = .ok () { s with cnt := s.cnt + 1 } := rfl

end basic

/-! ### Codecs -/

/-- `p` is an exact decoder for the encoder `e` on the values satisfying `V`: it returns `a` iff `a` is valid and the
unread bits start with the encoding of `a`; it then consumes exactly that encoding. -/
def Codec {α : Type} (p : Prog α) (e : α → List Bool) (V : α → Prop) : Prop :=
  ∀ nd l c a s', runL nd p ⟨l, c⟩ = .ok a s' ↔ V a ∧ ∃ r, l = e a ++ r ∧ s' = ⟨r, c⟩

namespace Codec
variable {α β γ : Type}

theorem u {n : Nat} (h1 : 1 ≤ n) (h2 : n ≤ 32) : Codec (Prog.u n) (encU n) (fun v => v < 2 ^ n) := by
  intro nd l c a s'
  rw [runL_u]
  constructor
  · intro h
    split at h
    · simp at h
    · rename_i hc
      simp only at hc
      simp only [Out.ok.injEq] at h
      obtain ⟨rfl, rfl⟩ := h
      have hl : (l.take n).length = n := by simp; omega
      have := bitsVal_lt (l.take n)
      rw [hl] at this
      refine ⟨this, l.drop n, ?_, rfl⟩
      have e := encU_bitsVal (l.take n)
      rw [hl] at e
      rw [e, List.take_append_drop]
  · rintro ⟨hv, r, rfl, rfl⟩
    rw [if_neg (by simp; omega)]
    simp only
    rw [List.take_append_of_le_length (by simp), List.take_of_length_le (by simp), bitsVal_encU hv]
    simp

theorem ue : Codec Prog.ue encUE (fun v => v < 2 ^ 32 - 1) := by
  intro nd l c a s'
  rw [runL_ue]
  constructor
  · intro h
    simp only at h
    cases hu : ueDec l with
    | none => simp [hu] at h
    | some p =>
      simp only [hu, Out.ok.injEq] at h
      obtain ⟨rfl, rfl⟩ := h
      obtain ⟨h1, h2⟩ := (ueDec_iff _ _ _).mp hu
      exact ⟨h1, p.2, h2, rfl⟩
  · rintro ⟨hv, r, rfl, rfl⟩
    have := (ueDec_iff (encUE a ++ r) a r).mpr ⟨hv, rfl⟩
    simp only [this]

theorem se : Codec Prog.se encSE (fun v => -(2 ^ 31) < v ∧ v < 2 ^ 31) := by
  intro nd l c a s'
  rw [runL_se]
  unfold encSE
  constructor
  · intro h
    simp only at h
    cases hu : ueDec l with
    | none => simp [hu] at h
    | some p =>
      simp only [hu, Out.ok.injEq] at h
      obtain ⟨hv, rfl⟩ := h
      obtain ⟨h1, h2⟩ := (ueDec_iff _ _ _).mp hu
      rw [seVal_iff] at hv
      refine ⟨?_, p.2, by rw [← hv]; exact h2, rfl⟩
      unfold seCode at hv; split at hv <;> omega
  · rintro ⟨hv, r, rfl, rfl⟩
    have := (ueDec_iff (encUE (seCode a) ++ r) (seCode a) r).mpr
      ⟨by unfold seCode; split <;> omega, rfl⟩
    simp only [this, seVal_seCode]

theorem ret (x : α) : Codec (Prog.ret x) (fun _ => []) (fun a => a = x) := by
  intro nd l c a s'
  simp only [runL_ret, Out.ok.injEq, List.nil_append]
  constructor
  · rintro ⟨rfl, rfl⟩; exact ⟨rfl, l, rfl, rfl⟩
  · rintro ⟨rfl, r, rfl, rfl⟩; exact ⟨rfl, rfl⟩

theorem null (e : α → List Bool) : Codec (Prog.null : Prog α) e (fun _ => False) := by
  intro nd l c a s'; simp

/-- Sequencing: the value read by `p` is recovered from the final value by `π`. -/
theorem bind {p : Prog α} {e : α → List Bool} {V : α → Prop} {f : α → Prog β}
    {E : α → β → List Bool} {W : α → β → Prop} (π : β → α)
    (hp : Codec p e V) (hf : ∀ a, V a → Codec (f a) (E a) (W a)) (hπ : ∀ a b, W a b → π b = a) :
    Codec (p >>= f) (fun b => e (π b) ++ E (π b) b) (fun b => V (π b) ∧ W (π b) b) := by
  intro nd l c b s'
  rw [runL_bind_ok]
  constructor
  · rintro ⟨a, s1, h1, h2⟩
    obtain ⟨hv, r, rfl, rfl⟩ := (hp nd l c a s1).mp h1
    obtain ⟨hw, r', rfl, rfl⟩ := (hf a hv nd r c b s').mp h2
    have := hπ a b hw
    subst this
    exact ⟨⟨hv, hw⟩, r', by simp, rfl⟩
  · rintro ⟨⟨hv, hw⟩, r, rfl, rfl⟩
    refine ⟨π b, ⟨E (π b) b ++ r, c⟩, (hp _ _ _ _ _).mpr ⟨hv, _, by simp, rfl⟩, ?_⟩
    exact (hf _ hv _ _ _ _ _).mpr ⟨hw, r, rfl, rfl⟩

theorem guard {q : Prop} [Decidable q] {p : Prog α} {e : α → List Bool} {V : α → Prop}
    (hp : q → Codec p e V) : Codec (Prog.guard q >>= fun _ => p) e (fun a => q ∧ V a) := by
  intro nd l c a s'
  rw [runL_bind, runL_guard]
  by_cases hq : q
  · rw [if_pos hq]; simp only [Out.bind, hq, true_and]; exact hp hq nd l c a s'
  · rw [if_neg hq]; simp [Out.bind, hq]

theorem ite {q : Prop} [Decidable q] {p1 p2 : Prog α} {e1 e2 : α → List Bool} {V1 V2 : α → Prop}
    (h1 : q → Codec p1 e1 V1) (h2 : ¬ q → Codec p2 e2 V2) :
    Codec (if q then p1 else p2) (fun a => if q then e1 a else e2 a) (fun a => if q then V1 a else V2 a) := by
  by_cases hq : q
  · simp only [if_pos hq]; exact h1 hq
  · simp only [if_neg hq]; exact h2 hq

theorem congr {p : Prog α} {e e' : α → List Bool} {V V' : α → Prop} (h : Codec p e V)
    (hV : ∀ a, V a ↔ V' a) (he : ∀ a, V' a → e a = e' a) : Codec p e' V' := by
  intro nd l c a s'
  rw [h nd l c a s', hV]
  constructor
  · rintro ⟨hv, r, h1, h2⟩; exact ⟨hv, r, by rw [← he a hv]; exact h1, h2⟩
  · rintro ⟨hv, r, h1, h2⟩; exact ⟨hv, r, by rw [he a hv]; exact h1, h2⟩

/-- Post-processing with an injection. -/
theorem map {p : Prog α} {e : α → List Bool} {V : α → Prop} (f : α → β) (g : β → α)
    (h : Codec p e V) : (∀ a, V a → g (f a) = a) →
    Codec (p >>= fun a => Prog.ret (f a)) (fun b => e (g b)) (fun b => V (g b) ∧ b = f (g b)) := by
  intro hg
  have := bind (f := fun a => Prog.ret (f a)) (E := fun _ _ => []) (W := fun a b => V a ∧ b = f a) g h
    (fun a ha => congr (ret (f a)) (fun b => by simp [ha]) (fun _ _ => rfl)) (fun a b hb => by
      rw [hb.2]; exact hg a hb.1)
  exact congr this (fun b => by simp) (fun b _ => by simp)

/-- A codec never looks at the build mode on success, nor beyond its own encoding. -/
theorem parse_append {p : Prog α} {e : α → List Bool} {V : α → Prop} (h : Codec p e V) (nd : Bool) {a : α} (ha : V a)
    (r : List Bool) (c : Nat) : runL nd p ⟨e a ++ r, c⟩ = .ok a ⟨r, c⟩ :=
  (h nd _ c a _).mpr ⟨ha, r, rfl, rfl⟩

/-- Transport to the machine-level reader. -/
theorem run {p : Prog α} {e : α → List Bool} {V : α → Prop} (h : Codec p e V) (nd : Bool) {b : Buf} (hb : b.WF)
    (c : Nat) (a : α) (s' : St) :
    run nd p ⟨b, c⟩ = .ok a s' ↔ V a ∧ (∃ r, b.rem = e a ++ r) ∧ s' = ⟨b.adv (e a).length, c⟩ := by
  rw [run_eq nd p hb c]
  constructor
  · intro hr
    cases hx : runL nd p ⟨b.rem, c⟩ with
    | ok a' s1 =>
      rw [hx] at hr
      simp only [Out.mapSt, Out.ok.injEq] at hr
      obtain ⟨rfl, rfl⟩ := hr
      obtain ⟨hv, r, h1, rfl⟩ := (h nd _ _ _ _).mp hx
      refine ⟨hv, ⟨r, h1⟩, ?_⟩
      simp only [toSt]
      rw [h1]; simp
    | null s1 => rw [hx] at hr; simp [Out.mapSt] at hr
    | bad e' => rw [hx] at hr; simp [Out.mapSt] at hr
  · rintro ⟨hv, ⟨r, h1⟩, rfl⟩
    rw [h1, h.parse_append nd hv r c]
    simp [Out.mapSt, toSt, h1]

end Codec

/-- Success on the machine-level reader, in terms of the list of unread bits. -/
theorem run_ok_iff {α : Type} (nd : Bool) (p : Prog α) {b : Buf} (hb : b.WF) (c : Nat) (a : α) (s' : St) :
    run nd p ⟨b, c⟩ = .ok a s' ↔ ∃ s1, runL nd p ⟨b.rem, c⟩ = .ok a s1 ∧ s' = toSt b s1 := by
  rw [run_eq nd p hb c]
  cases runL nd p ⟨b.rem, c⟩ with
  | ok a' s1 =>
    simp only [Out.mapSt, Out.ok.injEq]
    constructor
    · rintro ⟨rfl, rfl⟩; exact ⟨s1, ⟨rfl, rfl⟩, rfl⟩
    · rintro ⟨s2, ⟨rfl, rfl⟩, rfl⟩; exact ⟨rfl, rfl⟩
  | null s1 => simp [Out.mapSt]
  | bad e => simp [Out.mapSt]

/-- A run that stops after `e` has advanced the cursor by the length of `e`. -/
theorem toSt_append {b : Buf} {e r : List Bool} (h : b.rem = e ++ r) (c : Nat) : toSt b ⟨r, c⟩ = ⟨b.adv e.length, c⟩ := by
  simp only [toSt]; rw [h]; simp

/-! ### Repetition -/

/-- Run `p` exactly `n` times. -/
def Prog.rep {α : Type} (p : Prog α) : Nat → Prog (List α)
  | 0 => pure []
  | n + 1 => do
    let a ← p
    let as ← Prog.rep p n
    pure (a :: as)

theorem Codec.rep {α : Type} {p : Prog α} {e : α → List Bool} {V : α → Prop} (h : Codec p e V) (n : Nat) :
    Codec (p.rep n) (fun as => as.flatMap e) (fun as => as.length = n ∧ ∀ a ∈ as, V a) := by
  induction n with
  | zero =>
    exact Codec.congr (Codec.ret []) (fun a => by
      constructor
      · rintro rfl; simp
      · rintro ⟨h, _⟩; simpa using h) (fun a ha => by
        have : a = [] := by simpa using ha.1
        simp [this])
  | succ n ih =>
    intro nd l c as s'
    simp only [Prog.rep, runL_bind_ok]
    constructor
    · rintro ⟨a, s1, h1, as', s2, h2, h3⟩
      obtain ⟨hv, r, rfl, rfl⟩ := (h _ _ _ _ _).mp h1
      obtain ⟨⟨hl, hall⟩, r', rfl, rfl⟩ := (ih _ _ _ _ _).mp h2
      simp only [Prog.pure_eq, runL_ret, Out.ok.injEq] at h3
      obtain ⟨rfl, rfl⟩ := h3
      exact ⟨⟨by simp [hl], by simpa using ⟨hv, hall⟩⟩, r', by simp, rfl⟩
    · rintro ⟨⟨hl, hall⟩, r, rfl, rfl⟩
      cases as with
      | nil => simp at hl
      | cons a as =>
        simp at hl hall
        refine ⟨a, ⟨as.flatMap e ++ r, c⟩, (h _ _ _ _ _).mpr ⟨hall.1, _, by simp, rfl⟩, as, ⟨r, c⟩,
          (ih _ _ _ _ _).mpr ⟨⟨hl, hall.2⟩, r, rfl, rfl⟩, rfl⟩

/-! ### Safety -/

/-- The program never runs into undefined behaviour, whatever the unread bits. -/
def Safe {α : Type} (p : Prog α) : Prop := ∀ nd s e, runL nd p s ≠ .bad e

/-- The program never runs into undefined behaviour from this state. -/
def SafeAt {α : Type} (nd : Bool) (p : Prog α) (s : LSt) : Prop := ∀ e, runL nd p s ≠ .bad e

namespace Safe
variable {α β : Type}

theorem ret (a : α) : Safe (Prog.ret a) := by intro nd s e; simp
theorem pure (a : α) : Safe (Pure.pure a : Prog α) := ret a
theorem null : Safe (Prog.null : Prog α) := by intro nd s e; simp
theorem u (n) : Safe (Prog.u n) := by intro nd s e; rw [runL_u]; split <;> simp
theorem peek (n) : Safe (Prog.peek n) := by intro nd s e; rw [runL_peek]; split <;> simp
theorem ue : Safe Prog.ue := by intro nd s e; rw [runL_ue]; split <;> simp
theorem se : Safe Prog.se := by intro nd s e; rw [runL_se]; split <;> simp
theorem remaining : Safe Prog.remaining := by intro nd s e; simp [runL_remaining]
theorem aligned : Safe Prog.aligned := by intro nd s e; simp [runL_aligned]
theorem unimpl : Safe Prog.unimpl := by intro nd s e; simp [runL_unimpl]
theorem guard (c : Prop) [Decidable c] : Safe (Prog.guard c) := by
  intro nd s e; rw [runL_guard]; split <;> simp
theorem ite {c : Prop} [Decidable c] {p q : Prog α} (hp : c → Safe p) (hq : ¬ c → Safe q) :
    Safe (if c then p else q) := by
  by_cases h : c
  · rw [if_pos h]; exact hp h
  · rw [if_neg h]; exact hq h
theorem bind {p : Prog α} {f : α → Prog β} (hp : Safe p) (hf : ∀ a, Safe (f a)) : Safe (p >>= f) := by
  intro nd s e h
  rcases runL_bind_bad.mp h with h | ⟨a, s1, _, h⟩
  · exact hp _ _ _ h
  · exact hf _ _ _ _ h
/-- Sequencing, when safety of the continuation needs what is known about the value read. -/
theorem bind' {p : Prog α} {f : α → Prog β} (hp : Safe p)
    (hf : ∀ nd s a s', runL nd p s = .ok a s' → ∀ e, runL nd (f a) s' ≠ .bad e) : Safe (p >>= f) := by
  intro nd s e h
  rcases runL_bind_bad.mp h with h | ⟨a, s1, h1, h⟩
  · exact hp _ _ _ h
  · exact hf _ _ _ _ h1 _ h
/-- Same, with the validity predicate of a codec. -/
theorem bindV {p : Prog α} {f : α → Prog β} {e : α → List Bool} {V : α → Prop} (hc : Codec p e V) (hp : Safe p)
    (hf : ∀ a, V a → Safe (f a)) : Safe (p >>= f) := by
  apply bind' hp
  intro nd s a s' h
  exact hf a ((hc nd s.rem s.cnt a s').mp h).1 nd s'
theorem guardBind {c : Prop} [Decidable c] {f : Unit → Prog β} (hf : c → Safe (f ())) :
    Safe (Prog.guard c >>= f) := by
  intro nd s e h
  rw [runL_bind, runL_guard] at h
  by_cases hc : c
  · rw [if_pos hc] at h; exact hf hc _ _ _ h
  · rw [if_neg hc] at h; simp [Out.bind] at h
theorem attempt {p : Prog α} (hp : Safe p) : Safe p.attempt := by
  intro nd s e
  rw [runL_attempt]
  have := hp nd s e
  split <;> simp_all
theorem rep {p : Prog α} (hp : Safe p) (n : Nat) : Safe (p.rep n) := by
  induction n with
  | zero => exact pure _
  | succ n ih => exact bind hp (fun _ => bind ih (fun _ => pure _))

theorem run {p : Prog α} (hp : Safe p) (nd : Bool) {b : Buf} (hb : b.WF) (c : Nat) (e : Bad) :
    H264.run nd p ⟨b, c⟩ ≠ .bad e := by
  rw [run_eq nd p hb c]
  have := hp nd ⟨b.rem, c⟩ e
  cases h : runL nd p ⟨b.rem, c⟩ <;> simp_all [Out.mapSt]

end Safe

/-! ### Independence of the build mode -/

/-- Same verdict, same value and same count of unimplemented syntax; after a success also the same position. -/
def Out.same {α : Type} : Out LSt α → Out LSt α → Prop
  | .ok a s, .ok b t => a = b ∧ s = t
  | .null s, .null t => s.cnt = t.cnt
  | .bad e, .bad f => e = f
  | _, _ => False

/-- The program gives the same answer with and without `NDEBUG`. -/
def ModeIndep {α : Type} (p : Prog α) : Prop := ∀ s, (runL true p s).same (runL false p s)

namespace ModeIndep
variable {α β : Type}

theorem same_refl (x : Out LSt α) : x.same x := by cases x <;> simp [Out.same]

theorem ret (a : α) : ModeIndep (Prog.ret a) := fun _ => same_refl _
theorem pure (a : α) : ModeIndep (Pure.pure a : Prog α) := ret a
theorem null : ModeIndep (Prog.null : Prog α) := fun _ => same_refl _
theorem u (n) : ModeIndep (Prog.u n) := by intro s; rw [runL_u, runL_u]; exact same_refl _
theorem peek (n) : ModeIndep (Prog.peek n) := by intro s; rw [runL_peek, runL_peek]; exact same_refl _
theorem ue : ModeIndep Prog.ue := by
  intro s; rw [runL_ue, runL_ue]; cases ueDec s.rem <;> simp [Out.same]
theorem se : ModeIndep Prog.se := by
  intro s; rw [runL_se, runL_se]; cases ueDec s.rem <;> simp [Out.same]
theorem remaining : ModeIndep Prog.remaining := fun _ => same_refl _
theorem aligned : ModeIndep Prog.aligned := fun _ => same_refl _
theorem unimpl : ModeIndep Prog.unimpl := fun _ => same_refl _
theorem bad (e : Bad) : ModeIndep (Prog.bad e : Prog α) := fun _ => same_refl _
theorem lift (r : Res α) : ModeIndep (Prog.lift r) := by cases r <;> exact fun _ => same_refl _
theorem guard (c : Prop) [Decidable c] : ModeIndep (Prog.guard c) := by
  intro s; rw [runL_guard, runL_guard]; exact same_refl _
theorem ite {c : Prop} [Decidable c] {p q : Prog α} (hp : c → ModeIndep p) (hq : ¬ c → ModeIndep q) :
    ModeIndep (if c then p else q) := by
  by_cases h : c
  · rw [if_pos h]; exact hp h
  · rw [if_neg h]; exact hq h
theorem bind {p : Prog α} {f : α → Prog β} (hp : ModeIndep p) (hf : ∀ a, ModeIndep (f a)) :
    ModeIndep (p >>= f) := by
  intro s
  rw [runL_bind, runL_bind]
  have := hp s
  revert this
  cases runL true p s <;> cases runL false p s <;> simp [Out.same, Out.bind]
  rintro rfl rfl
  exact hf _ _
theorem rep {p : Prog α} (hp : ModeIndep p) (n : Nat) : ModeIndep (p.rep n) := by
  induction n with
  | zero => exact pure _
  | succ n ih => exact bind hp (fun _ => bind ih (fun _ => pure _))

end ModeIndep

end H264

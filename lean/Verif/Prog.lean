import Verif.Golomb

/-
Parser programs.

Every `Parse*` function of the library is a sequence of calls of the `BitBuffer` API, interleaved with checks.  It is
modelled as a value of type `Prog α`.  `run` executes a program on the machine-level reader (`Buf`), `runL` on a
list of unread bits; `run_eq` (below) shows that they agree on every program.
-/

namespace H264

/-- Calls a parser makes on its environment. -/
inductive Op where
  /-- `BitBuffer::ReadBits(n, uint32_t&)` (src/rtc_common.cc:193-199) -/
  | bits (n : Nat)
  /-- `BitBuffer::PeekBits(n, uint32_t&)` (src/rtc_common.cc:114-155) -/
  | peek (n : Nat)
  /-- `BitBuffer::ReadExponentialGolomb` (src/rtc_common.cc:239-266) -/
  | ue
  /-- `BitBuffer::ReadSignedExponentialGolomb` (src/rtc_common.cc:268-288) -/
  | se
  /-- `BitBuffer::RemainingBitCount` (src/rtc_common.cc:86-88) -/
  | remaining
  /-- `byte_aligned` (src/h264_common.cc:250-259) -/
  | aligned
  /-- `report_unimplemented` (src/h264_common.cc:375-384) -/
  | unimpl

/-- What each call returns (`none` = the call returned false). -/
def Op.Resp : Op → Type
  | .bits _ => Option Nat
  | .peek _ => Option Nat
  | .ue => Option Nat
  | .se => Option Int
  | .remaining => Nat
  | .aligned => Bool
  | .unimpl => Unit

/-- A parser: return a value, return `nullptr`/false, run into undefined behaviour, or make a call and go on. -/
inductive Prog (α : Type) where
  | ret (a : α)
  | null
  | bad (e : Bad)
  | op (o : Op) (k : o.Resp → Prog α)

/-- Outcome of running a parser. -/
inductive Out (σ α : Type) where
  | ok (a : α) (s : σ)
  | null (s : σ)
  | bad (e : Bad)
  deriving DecidableEq, Repr

namespace Out
/-- Apply a function to the final state. -/
def mapSt {σ τ α : Type} (f : σ → τ) : Out σ α → Out τ α
  | .ok a s => .ok a (f s)
  | .null s => .null (f s)
  | .bad e => .bad e
end Out

namespace Prog

/-- Sequencing: `nullptr` and undefined behaviour end the parser. -/
def bind {α β : Type} : Prog α → (α → Prog β) → Prog β
  | .ret a, f => f a
  | .null, _ => .null
  | .bad e, _ => .bad e
  | .op o k, f => .op o (fun r => bind (k r) f)

instance : Monad Prog where
  pure := Prog.ret
  bind := Prog.bind

/-- Call a parser and go on whether or not it fails: the C++ code ignores or tests its result. -/
def attempt {α : Type} : Prog α → Prog (Option α)
  | .ret a => .ret (some a)
  | .null => .ret none
  | .bad e => .bad e
  | .op o k => .op o (fun r => attempt (k r))

/-- Read `n` bits; return null when that fails. -/
def u (n : Nat) : Prog Nat := .op (.bits n) fun r => match r with | some v => .ret v | none => .null
/-- Read ue(v); return null when that fails. -/
def ue : Prog Nat := .op .ue fun r => match r with | some v => .ret v | none => .null
/-- Read se(v); return null when that fails. -/
def se : Prog Int := .op .se fun r => match r with | some v => .ret v | none => .null
/-- Peek `n` bits; return null when that fails. -/
def peek (n : Nat) : Prog Nat := .op (.peek n) fun r => match r with | some v => .ret v | none => .null
/-- `RemainingBitCount()`. -/
def remaining : Prog Nat := .op .remaining .ret
/-- `byte_aligned()`. -/
def aligned : Prog Bool := .op .aligned .ret
/-- `report_unimplemented()`. -/
def unimpl : Prog Unit := .op .unimpl .ret
/-- `if (!c) return nullptr;` -/
def guard (c : Prop) [Decidable c] : Prog Unit := if c then .ret () else .null
/-- Use of a `Res` computation (arithmetic with undefined cases). -/
def lift {α : Type} : Res α → Prog α
  | .val a => .ret a
  | .bad e => .bad e

end Prog

/-- State of the environment: the reader, and the process-wide `unimplemented_count`
(src/h264_common.cc:371-373; its 32-bit wrap-around is not modelled). -/
structure St where
  buf : Buf
  cnt : Nat
  deriving DecidableEq, Repr

/-- Same with the reader seen as its list of unread bits. -/
structure LSt where
  rem : List Bool
  cnt : Nat
  deriving DecidableEq, Repr

/-- One call on the machine-level reader. -/
def Op.run (nd : Bool) (s : St) : (o : Op) → Res (o.Resp × St)
  | .bits n => do let (r, b) ← s.buf.readBits 32 n; pure (r, { s with buf := b })
  | .peek n => do let r ← s.buf.peekBits 32 n; pure (r, s)
  | .ue => do let (r, b) ← s.buf.readUE nd; pure (r, { s with buf := b })
  | .se => do let (r, b) ← s.buf.readSE nd; pure (r, { s with buf := b })
  | .remaining => pure (s.buf.remaining, s)
  | .aligned => pure (decide (s.buf.bitOff = 0), s)
  | .unimpl => pure ((), { s with cnt := s.cnt + 1 })

/-- Run a program on the machine-level reader.  `nd` = built with `NDEBUG`. -/
def run {α : Type} (nd : Bool) : Prog α → St → Out St α
  | .ret a, s => .ok a s
  | .null, s => .null s
  | .bad e, _ => .bad e
  | .op o k, s =>
    match o.run nd s with
    | .val (r, s') => run nd (k r) s'
    | .bad e => .bad e

/-- Where a failed Golomb read leaves the list of unread bits. -/
def ueFail (nd : Bool) (l : List Bool) : List Bool := if nd then l.drop (lz l) else l

/-- One call on the list of unread bits. -/
def Op.runL (nd : Bool) (s : LSt) : (o : Op) → o.Resp × LSt
  | .bits n =>
    if n = 0 ∨ n > 32 ∨ n > s.rem.length then (none, s)
    else (some (bitsVal (s.rem.take n)), { s with rem := s.rem.drop n })
  | .peek n =>
    if n = 0 ∨ n > 32 ∨ n > s.rem.length then (none, s) else (some (bitsVal (s.rem.take n)), s)
  | .ue =>
    match ueDec s.rem with
    | some (v, r) => (some v, { s with rem := r })
    | none => (none, { s with rem := ueFail nd s.rem })
  | .se =>
    match ueDec s.rem with
    | some (v, r) => (some (seVal v), { s with rem := r })
    | none => (none, { s with rem := ueFail nd s.rem })
  | .remaining => (s.rem.length, s)
  | .aligned => (decide (s.rem.length % 8 = 0), s)
  | .unimpl => ((), { s with cnt := s.cnt + 1 })

/-- Run a program on a list of unread bits. -/
def runL {α : Type} (nd : Bool) : Prog α → LSt → Out LSt α
  | .ret a, s => .ok a s
  | .null, s => .null s
  | .bad e, _ => .bad e
  | .op o k, s => runL nd (k (o.runL nd s).1) (o.runL nd s).2

/-! ### Agreement of the two interpreters -/

/-- The machine state after a list state was reached from `b`. -/
def toSt (b : Buf) (s : LSt) : St := ⟨b.adv (b.rem.length - s.rem.length), s.cnt⟩

/-- The list step only drops bits, and the counter only grows. -/
theorem Op.runL_drop (nd : Bool) (s : LSt) (o : Op) :
    ∃ n, n ≤ s.rem.length ∧ (o.runL nd s).2.rem = s.rem.drop n ∧ s.cnt ≤ (o.runL nd s).2.cnt := by
  have ueCase : ∀ {v r}, ueDec s.rem = some (v, r) → ∃ n, n ≤ s.rem.length ∧ r = s.rem.drop n := by
    intro v r h
    obtain ⟨_, h2⟩ := (ueDec_iff _ _ _).mp h
    refine ⟨(encUE v).length, by rw [h2]; simp, by rw [h2]; simp⟩
  have failCase : ∃ n, n ≤ s.rem.length ∧ ueFail nd s.rem = s.rem.drop n := by
    unfold ueFail
    cases nd
    · exact ⟨0, by omega, rfl⟩
    · exact ⟨lz s.rem, lz_le _, rfl⟩
  cases o with
  | bits n =>
    simp only [Op.runL]
    split
    · exact ⟨0, by omega, rfl, Nat.le_refl _⟩
    · exact ⟨n, by omega, rfl, Nat.le_refl _⟩
  | peek n =>
    simp only [Op.runL]
    split <;> exact ⟨0, by omega, rfl, Nat.le_refl _⟩
  | ue =>
    simp only [Op.runL]
    cases h : ueDec s.rem with
    | none => obtain ⟨n, h1, h2⟩ := failCase; exact ⟨n, h1, h2, Nat.le_refl _⟩
    | some p => obtain ⟨n, h1, h2⟩ := ueCase (v := p.1) (r := p.2) h; exact ⟨n, h1, h2, Nat.le_refl _⟩
  | se =>
    simp only [Op.runL]
    cases h : ueDec s.rem with
    | none => obtain ⟨n, h1, h2⟩ := failCase; exact ⟨n, h1, h2, Nat.le_refl _⟩
    | some p => obtain ⟨n, h1, h2⟩ := ueCase (v := p.1) (r := p.2) h; exact ⟨n, h1, h2, Nat.le_refl _⟩
  | remaining => exact ⟨0, by omega, rfl, Nat.le_refl _⟩
  | aligned => exact ⟨0, by omega, rfl, Nat.le_refl _⟩
  | unimpl => exact ⟨0, by omega, rfl, Nat.le_succ _⟩

theorem rem_mod8 {b : Buf} (h : b.WF) : (b.rem.length % 8 = 0) ↔ b.bitOff = 0 := by
  have h1 := h.bit; have h2 := h.inside
  rw [Buf.length_rem]
  unfold Buf.pos at *
  omega

theorem Op.run_eq (nd : Bool) {b : Buf} (h : b.WF) (c : Nat) (o : Op) :
    o.run nd ⟨b, c⟩ = .val ((o.runL nd ⟨b.rem, c⟩).1, toSt b (o.runL nd ⟨b.rem, c⟩).2) := by
  have z : ∀ c, toSt b ⟨b.rem, c⟩ = ⟨b, c⟩ := by intro c; simp [toSt, h]
  have dr : ∀ n c, n ≤ b.rem.length → toSt b ⟨b.rem.drop n, c⟩ = ⟨b.adv n, c⟩ := by
    intro n c hn; simp only [toSt, List.length_drop]; congr 2; omega
  have gol : ∀ {v r}, ueDec b.rem = some (v, r) → toSt b ⟨r, c⟩ = ⟨b.adv (lz b.rem + (lz b.rem + 1)), c⟩ := by
    intro v r hu
    obtain ⟨_, h2⟩ := (ueDec_iff _ _ _).mp hu
    simp only [toSt]
    congr 2
    rw [h2, lz_encUE, List.length_append, length_encUE]; omega
  have gf : toSt b ⟨ueFail nd b.rem, c⟩ = ⟨if nd then b.adv (lz b.rem) else b, c⟩ := by
    unfold ueFail
    cases nd
    · exact z c
    · exact dr _ _ (lz_le _)
  cases o with
  | bits n =>
    simp only [Op.run, Op.runL]
    rw [Buf.readBits_eq h]
    by_cases hc : n = 0 ∨ n > 32 ∨ n > b.rem.length
    · rw [if_pos hc, if_pos hc]; simp only; rw [z]; rfl
    · rw [if_neg hc, if_neg hc]; simp only; rw [dr n c (by omega)]; rfl
  | peek n =>
    simp only [Op.run, Op.runL]
    rw [Buf.peekBits_eq h]
    by_cases hc : n = 0 ∨ n > 32 ∨ n > b.rem.length
    · rw [if_pos hc, if_pos hc]; simp only; rw [z]; rfl
    · rw [if_neg hc, if_neg hc]; simp only; rw [z]; rfl
  | ue =>
    simp only [Op.run, Op.runL]
    rw [Buf.readUE_eq nd h]
    cases hu : ueDec b.rem with
    | none => simp only; rw [gf]; rfl
    | some p => simp only; rw [gol hu]; rfl
  | se =>
    simp only [Op.run, Op.runL]
    rw [Buf.readSE_eq nd h]
    cases hu : ueDec b.rem with
    | none => simp only; rw [gf]; rfl
    | some p => simp only; rw [gol hu]; rfl
  | remaining => simp only [Op.run, Op.runL]; rw [z, Buf.remaining_eq h]; rfl
  | aligned =>
    simp only [Op.run, Op.runL]; rw [z]
    simp only [Res.pure_eq, rem_mod8 h]
  | unimpl => simp only [Op.run, Op.runL]; rw [z]; rfl

/-- Every program only consumes bits; the counter never decreases. -/
theorem runL_drop {α : Type} (nd : Bool) (p : Prog α) (s : LSt) :
    match runL nd p s with
    | .ok _ s' => (∃ n, n ≤ s.rem.length ∧ s'.rem = s.rem.drop n) ∧ s.cnt ≤ s'.cnt
    | .null s' => (∃ n, n ≤ s.rem.length ∧ s'.rem = s.rem.drop n) ∧ s.cnt ≤ s'.cnt
    | .bad _ => True := by
  induction p generalizing s with
  | ret a => exact ⟨⟨0, by omega, rfl⟩, Nat.le_refl _⟩
  | null => exact ⟨⟨0, by omega, rfl⟩, Nat.le_refl _⟩
  | bad e => trivial
  | op o k ih =>
    simp only [runL]
    obtain ⟨n, h1, h2, h3⟩ := o.runL_drop nd s
    have := ih (o.runL nd s).1 (o.runL nd s).2
    generalize runL nd (k (o.runL nd s).1) (o.runL nd s).2 = r at *
    cases r with
    | ok a s' =>
      obtain ⟨⟨m, h4, h5⟩, h6⟩ := this
      rw [h2] at h4 h5
      simp at h4
      exact ⟨⟨n + m, by omega, by rw [h5, List.drop_drop]⟩, by omega⟩
    | null s' =>
      obtain ⟨⟨m, h4, h5⟩, h6⟩ := this
      rw [h2] at h4 h5
      simp at h4
      exact ⟨⟨n + m, by omega, by rw [h5, List.drop_drop]⟩, by omega⟩
    | bad e => trivial

/-- The machine-level execution of any program is its list-level execution: same outcome, same value, and the
cursor is advanced by the number of bits dropped. -/
theorem run_eq {α : Type} (nd : Bool) (p : Prog α) {b : Buf} (h : b.WF) (c : Nat) :
    run nd p ⟨b, c⟩ = (runL nd p ⟨b.rem, c⟩).mapSt (toSt b) := by
  induction p generalizing b c with
  | ret a => simp [run, runL, Out.mapSt, toSt, h]
  | null => simp [run, runL, Out.mapSt, toSt, h]
  | bad e => rfl
  | op o k ih =>
    simp only [run, runL]
    rw [Op.run_eq nd h c o]
    simp only
    obtain ⟨n, h1, h2, h3⟩ := o.runL_drop nd ⟨b.rem, c⟩
    simp only at h1 h2
    generalize ho : o.runL nd ⟨b.rem, c⟩ = q at *
    have e : toSt b q.2 = ⟨b.adv n, q.2.cnt⟩ := by
      simp only [toSt]; rw [h2]; congr 2; simp; omega
    have hrem : (b.adv n).rem = q.2.rem := by rw [Buf.rem_adv, h2]
    rw [e, ih q.1 (h.adv h1) q.2.cnt, hrem]
    have hd := runL_drop nd (k q.1) q.2
    have : (⟨q.2.rem, q.2.cnt⟩ : LSt) = q.2 := rfl
    rw [this]
    generalize runL nd (k q.1) q.2 = r at *
    have key : ∀ (s' : LSt), (∃ m, m ≤ q.2.rem.length ∧ s'.rem = q.2.rem.drop m) →
        toSt (b.adv n) s' = toSt b s' := by
      rintro s' ⟨m, hm1, hm2⟩
      simp only [toSt]
      rw [hrem, hm2, h2, Buf.adv_adv]
      congr 2
      simp
      rw [h2] at hm1
      simp at hm1
      omega
    cases r with
    | ok a s' => simp only [Out.mapSt]; rw [key s' hd.1]
    | null s' => simp only [Out.mapSt]; rw [key s' hd.1]
    | bad e => rfl

end H264

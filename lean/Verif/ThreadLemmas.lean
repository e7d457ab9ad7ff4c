import Verif.Spec.Threads
import Verif.Props.Reach

/-
Lemmas about threads (C66).
-/

namespace H264
open H264.Spec Prog

namespace Task

/-- The task makes steps of its own and counts `n` times, then ends with `r`. -/
def Ends {α : Type} : Task α → Nat → Res α → Prop
  | .done r', n, r => n = 0 ∧ r' = r
  | .tick t, n, r => Ends t n r
  | .report t, n, r => ∃ m, n = m + 1 ∧ Ends t m r
  | .look _, _, _ => False
  | .clear _, _, _ => False

theorem ends_bind {α β : Type} {f : α → Task β} {r : Res β} {m : Nat} {a : α} (hf : Ends (f a) m r) :
    ∀ {t : Task α} {n : Nat}, Ends t n (.val a) → Ends (t >>= f) (n + m) r
  | .done r', n, h => by
    obtain ⟨rfl, rfl⟩ := h
    rw [Nat.zero_add]
    exact hf
  | .tick t, n, h => ends_bind (t := t) hf h
  | .report t, n, h => by
    obtain ⟨k, rfl, h⟩ := h
    exact ⟨k + m, by omega, ends_bind (t := t) hf h⟩

theorem ends_own {α : Type} {x : Res α} {a : α} (h : x = .val a) : Ends (own x) 0 (.val a) := ⟨rfl, h⟩

theorem ends_pure {α : Type} (a : α) : Ends (pure a : Task α) 0 (.val a) := ⟨rfl, rfl⟩

theorem ends_then {α β : Type} {t : Task α} {f : α → Task β} {a : α} {n m k : Nat} {r : Res β} (h : Ends t n (.val a)) (e : k = n + m)
    (hf : Ends (f a) m r) : Ends (t >>= f) k r := e ▸ ends_bind hf h

/-- Own computation first. -/
theorem ends_own_bind {α β : Type} {x : Res α} {a : α} (h : x = .val a) {f : α → Task β} {m : Nat} {r : Res β} (hf : Ends (f a) m r) :
    Ends (own x >>= f) m r := by
  have := ends_bind hf (ends_own h)
  rw [Nat.zero_add] at this
  exact this

end Task
open H264.Task H264.Props

theorem val_of_bind {α β : Type} {x : Res α} {f : α → Res β} {b : β} (h : (x >>= f) = .val b) : ∃ a, x = .val a ∧ f a = .val b := by
  cases x with
  | bad e => cases h
  | val a => exact ⟨a, rfl, h⟩

theorem op_run_cnt (nd : Bool) {o : Op} (ho : o ≠ .unimpl) {b : Buf} {c : Nat} {r : o.Resp} {s : St} (h : o.run nd ⟨b, c⟩ = .val (r, s)) :
    s.cnt = c ∧ o.run nd ⟨b, 0⟩ = .val (r, ⟨s.buf, 0⟩) := by
  cases o with
  | unimpl => exact absurd rfl ho
  | bits n =>
    obtain ⟨x, hx, h⟩ := val_of_bind h
    cases h
    refine ⟨rfl, ?_⟩
    show (Buf.readBits 32 n b >>= _) = _
    rw [hx]
    rfl
  | peek n =>
    obtain ⟨x, hx, h⟩ := val_of_bind h
    cases h
    refine ⟨rfl, ?_⟩
    show (Buf.peekBits 32 n b >>= _) = _
    rw [hx]
    rfl
  | ue =>
    obtain ⟨x, hx, h⟩ := val_of_bind h
    cases h
    refine ⟨rfl, ?_⟩
    show (Buf.readUE nd b >>= _) = _
    rw [hx]
    rfl
  | se =>
    obtain ⟨x, hx, h⟩ := val_of_bind h
    cases h
    refine ⟨rfl, ?_⟩
    show (Buf.readSE nd b >>= _) = _
    rw [hx]
    rfl
  | remaining => cases h; exact ⟨rfl, rfl⟩
  | aligned => cases h; exact ⟨rfl, rfl⟩

/-- A parser program in a thread does what it does alone. -/
theorem runT_ends {α : Type} (nd : Bool) : ∀ (p : Prog α) (b : Buf) (c : Nat) {x : Option α} {s : St},
    (run nd p ⟨b, c⟩).res = .val (x, s) → ∃ n, s.cnt = c + n ∧ Ends (runT nd p b) n (.val (x, s.buf)) := by
  intro p
  induction p with
  | ret a => intro b c x s h; cases h; exact ⟨0, rfl, rfl, rfl⟩
  | null => intro b c x s h; cases h; exact ⟨0, rfl, rfl, rfl⟩
  | bad e => intro b c x s h; cases h
  | op o k ih =>
    intro b c x s h
    by_cases ho : o = .unimpl
    · subst ho
      obtain ⟨n, h1, h2⟩ := ih () b (c + 1) h
      exact ⟨n + 1, by omega, n, rfl, h2⟩
    · rw [run] at h
      cases hr : o.run nd ⟨b, c⟩ with
      | bad e => rw [hr] at h; cases h
      | val y =>
        obtain ⟨r, s1⟩ := y
        rw [hr] at h
        obtain ⟨h1, h2⟩ := op_run_cnt nd ho hr
        obtain ⟨n, h3, h4⟩ := ih r s1.buf s1.cnt h
        refine ⟨n, by omega, ?_⟩
        have e : runT nd (.op o k) b = (own (o.run nd ⟨b, 0⟩) >>= fun x => runT nd (k x.1) x.2.buf) := by
          cases o <;> first | rfl | exact absurd rfl ho
        rw [e]
        exact ends_own_bind h2 h4

theorem runStoreT_ends {α : Type} {nd : Bool} {σ σ' : Store} {p : Prog (α × Store)} {b : Buf} {c : Nat} {x : Option α} {s : St}
    (h : runStore nd σ p ⟨b, c⟩ = .val (x, σ', s)) : ∃ n, s.cnt = c + n ∧ Ends (runStoreT nd σ p b) n (.val (x, σ', s.buf)) := by
  unfold runStore at h
  unfold runStoreT
  cases hr : run nd p ⟨b, c⟩ with
  | bad e => rw [hr] at h; cases h
  | ok y s' =>
    obtain ⟨n, h1, h2⟩ := runT_ends nd p b c (x := some y) (s := s') (by rw [hr]; rfl)
    rw [hr] at h
    cases h
    exact ⟨n, h1, ends_then h2 rfl (ends_pure _)⟩
  | null s' =>
    obtain ⟨n, h1, h2⟩ := runT_ends nd p b c (x := none) (s := s') (by rw [hr]; rfl)
    rw [hr] at h
    cases h
    exact ⟨n, h1, ends_then h2 rfl (ends_pure _)⟩

theorem nalUnitBufT_ends {nd : Bool} {opts : ParsingOptions} {σ σ' : Store} {b : Buf} {c : Nat} {x : Option NalUnit} {s : St}
    (h : parseNalUnitBuf nd opts σ ⟨b, c⟩ = .val (x, σ', s)) : ∃ n, s.cnt = c + n ∧ Ends (nalUnitBufT nd opts σ b) n (.val (x, σ')) := by
  obtain ⟨⟨ck, b1⟩, h1, h⟩ := val_of_bind h
  obtain ⟨⟨hd, s2⟩, h2, h⟩ := val_of_bind h
  obtain ⟨n, e1, h3⟩ := runT_ends nd _ b1 c h2
  unfold nalUnitBufT
  cases hd with
  | none =>
    cases h
    refine ⟨n, e1, ends_own_bind h1 ?_⟩
    exact ends_then h3 rfl (ends_pure _)
  | some hd =>
    obtain ⟨⟨p, s3⟩, h4, h⟩ := val_of_bind h
    obtain ⟨m, e2, h5⟩ := runT_ends nd _ s2.buf s2.cnt h4
    cases p with
    | none =>
      cases h
      refine ⟨n + m, by omega, ends_own_bind h1 ?_⟩
      refine ends_then h3 rfl ?_
      exact ends_then h5 rfl (ends_pure _)
    | some p =>
      obtain ⟨p, σ1⟩ := p
      cases h
      refine ⟨n + m, by omega, ends_own_bind h1 ?_⟩
      refine ends_then h3 rfl ?_
      exact ends_then h5 rfl (ends_pure _)

theorem nalUnitT_ends {nd : Bool} {opts : ParsingOptions} {data : List UInt8} {off len : Nat} {σ σ' : Store} {c c' : Nat}
    {x : Option NalUnit} (h : parseNalUnit nd opts data off len σ c = .val (x, σ', c')) :
    ∃ n, c' = c + n ∧ Ends (nalUnitT nd opts data off len σ) n (.val (x, σ')) := by
  obtain ⟨bytes, h1, h⟩ := val_of_bind h
  obtain ⟨b, h2, h⟩ := val_of_bind h
  obtain ⟨⟨y, σ1, s⟩, h3, h⟩ := val_of_bind h
  cases h
  obtain ⟨n, e1, h4⟩ := nalUnitBufT_ends h3
  exact ⟨n, e1, ends_own_bind h1 (ends_own_bind h2 h4)⟩

theorem unitsT_ends {nd : Bool} {opts : ParsingOptions} {data : List UInt8} : ∀ (ixs : List NaluIndex) {σ σ' : Store} {c c' : Nat}
    {ns : List NalUnit}, parseUnits nd opts data ixs σ c = .val (ns, σ', c') →
    ∃ n, c' = c + n ∧ Ends (unitsT nd opts data ixs σ) n (.val (ns, σ'))
  | [], σ, σ', c, c', ns, h => by cases h; exact ⟨0, rfl, rfl, rfl⟩
  | ix :: ixs, σ, σ', c, c', ns, h => by
    obtain ⟨⟨x, σ1, c1⟩, h1, h⟩ := val_of_bind h
    obtain ⟨⟨ns1, σ2, c2⟩, h2, h⟩ := val_of_bind h
    obtain ⟨n, e1, h3⟩ := nalUnitT_ends h1
    obtain ⟨m, e2, h4⟩ := unitsT_ends ixs h2
    unfold unitsT
    cases x with
    | none =>
      cases h
      exact ⟨n + m, by omega, ends_then h3 rfl (ends_then h4 rfl (ends_pure _))⟩
    | some x =>
      cases h
      exact ⟨n + m, by omega, ends_then h3 rfl (ends_then h4 rfl (ends_pure _))⟩

theorem bitstreamT_ends {nd : Bool} {opts : ParsingOptions} {data : List UInt8} {σ σ' : Store} {c c' : Nat} {bs : Bitstream}
    (h : parseBitstream nd opts data σ c = .val (bs, σ', c')) : ∃ n, c' = c + n ∧ Ends (bitstreamT nd opts data σ) n (.val (bs, σ')) := by
  obtain ⟨ixs, h1, h⟩ := val_of_bind h
  obtain ⟨⟨ns, σ1, c1⟩, h2, h⟩ := val_of_bind h
  cases h
  obtain ⟨n, e, h3⟩ := unitsT_ends ixs h2
  exact ⟨n, e, ends_own_bind h1 (ends_then h3 rfl (ends_pure _))⟩

theorem lengthLoopT_ends {nd : Bool} {opts : ParsingOptions} {data : List UInt8} {k : Nat} : ∀ (f i : Nat) {σ σ' : Store} {c c' : Nat}
    {ns : List NalUnit}, parseLengthLoop nd opts data k f i σ c = .val (ns, σ', c') →
    ∃ n, c' = c + n ∧ Ends (lengthLoopT nd opts data k f i σ) n (.val (ns, σ'))
  | 0, i, σ, σ', c, c', ns, h => by
    unfold parseLengthLoop at h
    unfold lengthLoopT
    split at h
    · cases h
    · rename_i hi
      cases h
      rw [if_neg hi]
      exact ⟨0, rfl, rfl, rfl⟩
  | f + 1, i, σ, σ', c, c', ns, h => by
    unfold parseLengthLoop at h
    unfold lengthLoopT
    by_cases hi : i < data.length
    · rw [if_pos hi] at h
      rw [if_pos hi]
      obtain ⟨nx, h1, h⟩ := val_of_bind h
      cases nx with
      | none =>
        cases h
        exact ⟨0, rfl, ends_own_bind h1 (ends_pure _)⟩
      | some nx =>
        obtain ⟨j, l⟩ := nx
        obtain ⟨⟨x, σ1, c1⟩, h2, h⟩ := val_of_bind h
        obtain ⟨⟨ns1, σ2, c2⟩, h3, h⟩ := val_of_bind h
        obtain ⟨n, e1, h4⟩ := nalUnitT_ends h2
        obtain ⟨m, e2, h5⟩ := lengthLoopT_ends f _ h3
        cases x with
        | none =>
          cases h
          exact ⟨n + m, by omega, ends_own_bind h1 (ends_then h4 rfl (ends_then h5 rfl (ends_pure _)))⟩
        | some x =>
          cases h
          exact ⟨n + m, by omega, ends_own_bind h1 (ends_then h4 rfl (ends_then h5 rfl (ends_pure _)))⟩
    · rw [if_neg hi] at h
      rw [if_neg hi]
      cases h
      exact ⟨0, rfl, rfl, rfl⟩

theorem lengthT_ends {nd : Bool} {opts : ParsingOptions} {data : List UInt8} {k : Nat} {σ σ' : Store} {c c' : Nat} {bs : Bitstream}
    (h : parseBitstreamNALULength nd opts data k σ c = .val (bs, σ', c')) :
    ∃ n, c' = c + n ∧ Ends (lengthT nd opts data k σ) n (.val (bs, σ')) := by
  obtain ⟨⟨ns, σ1, c1⟩, h2, h⟩ := val_of_bind h
  cases h
  obtain ⟨n, e, h3⟩ := lengthLoopT_ends _ _ h2
  exact ⟨n, e, ends_then h3 rfl (ends_pure _)⟩

theorem stapALoopT_ends {nd : Bool} : ∀ (f : Nat) {σ σ' : Store} {b : Buf} {c : Nat} {x : Option (List (Nat × NalHeader × Payload))} {s : St},
    stapALoop nd f σ ⟨b, c⟩ = .val (x, σ', s) → ∃ n, s.cnt = c + n ∧ Ends (stapALoopT nd f σ b) n (.val (x, σ', s.buf))
  | 0, σ, σ', b, c, x, s, h => by cases h
  | f + 1, σ, σ', b, c, x, s, h => by
    unfold stapALoop at h
    unfold stapALoopT
    dsimp only at h
    by_cases hr : b.remaining > 0
    · rw [if_pos hr] at h
      rw [if_pos hr]
      obtain ⟨⟨y, σ1, s1⟩, h1, h⟩ := val_of_bind h
      obtain ⟨n, e1, h2⟩ := runStoreT_ends h1
      cases y with
      | none =>
        cases h
        exact ⟨n, e1, ends_then h2 rfl (ends_pure _)⟩
      | some y =>
        obtain ⟨⟨ys, σ2, s2⟩, h3, h⟩ := val_of_bind h
        obtain ⟨m, e2, h4⟩ := stapALoopT_ends f h3
        cases ys with
        | none =>
          cases h
          exact ⟨n + m, by dsimp only; omega, ends_then h2 rfl (ends_then h4 rfl (ends_pure _))⟩
        | some ys =>
          cases h
          exact ⟨n + m, by dsimp only; omega, ends_then h2 rfl (ends_then h4 rfl (ends_pure _))⟩
    · rw [if_neg hr] at h
      rw [if_neg hr]
      cases h
      exact ⟨0, rfl, rfl, rfl⟩

theorem stapAT_ends {nd : Bool} {σ σ' : Store} {b : Buf} {c : Nat} {x : Option RtpStapA} {s : St}
    (h : parseRtpStapA nd σ ⟨b, c⟩ = .val (x, σ', s)) : ∃ n, s.cnt = c + n ∧ Ends (stapAT nd σ b) n (.val (x, σ', s.buf)) := by
  obtain ⟨⟨hd, s1⟩, h1, h⟩ := val_of_bind h
  obtain ⟨n, e1, h2⟩ := runT_ends nd _ b c h1
  unfold stapAT
  cases hd with
  | none =>
    cases h
    exact ⟨n, e1, ends_then h2 rfl (ends_pure _)⟩
  | some hd =>
    obtain ⟨⟨xs, σ2, s2⟩, h3, h⟩ := val_of_bind h
    obtain ⟨m, e2, h4⟩ := stapALoopT_ends _ h3
    cases xs with
    | none =>
      cases h
      exact ⟨n + m, by omega, ends_then h2 rfl (ends_then h4 rfl (ends_pure _))⟩
    | some ys =>
      cases h
      exact ⟨n + m, by omega, ends_then h2 rfl (ends_then h4 rfl (ends_pure _))⟩

theorem rtpBufT_ends {nd : Bool} {σ σ' : Store} {b : Buf} {c : Nat} {x : Option Rtp} {s : St}
    (h : parseRtp nd σ ⟨b, c⟩ = .val (x, σ', s)) : ∃ n, s.cnt = c + n ∧ Ends (rtpBufT nd σ b) n (.val (x, σ', s.buf)) := by
  obtain ⟨⟨hd, s1⟩, h1, h⟩ := val_of_bind h
  obtain ⟨n, e1, h2⟩ := runT_ends nd _ b c h1
  unfold rtpBufT
  cases hd with
  | none =>
    cases h
    exact ⟨n, e1, ends_then h2 rfl (ends_pure _)⟩
  | some hd =>
    dsimp only at h
    by_cases t1 : hd.nal_unit_type ≤ 23
    · rw [if_pos t1] at h
      obtain ⟨⟨y, σ2, s2⟩, h3, h⟩ := val_of_bind h
      cases h
      obtain ⟨m, e2, h4⟩ := runStoreT_ends h3
      refine ⟨n + m, by dsimp only; omega, ends_then h2 rfl ?_⟩
      dsimp only
      rw [if_pos t1]
      exact ends_then h4 rfl (ends_pure _)
    · rw [if_neg t1] at h
      by_cases t2 : hd.nal_unit_type = 24
      · rw [if_pos t2] at h
        obtain ⟨⟨y, σ2, s2⟩, h3, h⟩ := val_of_bind h
        cases h
        obtain ⟨m, e2, h4⟩ := stapAT_ends h3
        refine ⟨n + m, by dsimp only; omega, ends_then h2 rfl ?_⟩
        dsimp only
        rw [if_neg t1, if_pos t2]
        exact ends_then h4 rfl (ends_pure _)
      · rw [if_neg t2] at h
        by_cases t3 : hd.nal_unit_type = 28
        · rw [if_pos t3] at h
          obtain ⟨⟨y, σ2, s2⟩, h3, h⟩ := val_of_bind h
          cases h
          obtain ⟨m, e2, h4⟩ := runStoreT_ends h3
          refine ⟨n + m, by dsimp only; omega, ends_then h2 rfl ?_⟩
          dsimp only
          rw [if_neg t1, if_neg t2, if_pos t3]
          exact ends_then h4 rfl (ends_pure _)
        · rw [if_neg t3] at h
          cases h
          refine ⟨n, e1, ends_then (m := 0) h2 rfl ?_⟩
          dsimp only
          rw [if_neg t1, if_neg t2, if_neg t3]
          exact ends_pure _

theorem rtpT_ends {nd : Bool} {data : List UInt8} {σ σ' : Store} {c c' : Nat} {x : Option Rtp}
    (h : parseRtpData nd data 0 data.length σ c = .val (x, σ', c')) : ∃ n, c' = c + n ∧ Ends (rtpT nd data σ) n (.val (x, σ')) := by
  obtain ⟨bytes, h1, h⟩ := val_of_bind h
  obtain ⟨b, h2, h⟩ := val_of_bind h
  obtain ⟨⟨y, σ1, s⟩, h3, h⟩ := val_of_bind h
  cases h
  obtain ⟨n, e1, h4⟩ := rtpBufT_ends h3
  exact ⟨n, e1, ends_own_bind h1 (ends_own_bind h2 (ends_then h4 rfl (ends_pure _)))⟩

/-! ### What a thread can get, whatever it reads in the counter -/

namespace Task

/-- `Yields rs P own seen left size t`: the task, which has counted `own` times and has read `seen`, counts `left` times more, takes `size`
steps, and ends with a result that satisfies `P`.  It resets the counter only if `rs`. -/
def Yields {α : Type} (rs : Prop) (P : Nat → List (Nat × Nat) → Res α → Prop) : Nat → List (Nat × Nat) → Nat → Nat → Task α → Prop
  | own, seen, left, size, .done r => left = 0 ∧ size = 0 ∧ P own seen r
  | own, seen, left, size, .tick t => ∃ s, size = s + 1 ∧ Yields rs P own seen left s t
  | own, seen, left, size, .report t => ∃ s l, size = s + 1 ∧ left = l + 1 ∧ Yields rs P (own + 1) seen l s t
  | own, seen, left, size, .look k => ∃ s, size = s + 1 ∧ ∀ v, Yields rs P own (seen ++ [(own, v)]) left s (k v)
  | own, seen, left, size, .clear t => rs ∧ ∃ s, size = s + 1 ∧ Yields rs P own seen left s t

/-- The number of steps of a task that does not look at the counter. -/
def len {α : Type} : Task α → Nat
  | .done _ => 0
  | .tick t => len t + 1
  | .report t => len t + 1
  | .look _ => 0
  | .clear _ => 0

theorem yields_bind {α β : Type} {rs : Prop} {P : Nat → List (Nat × Nat) → Res β → Prop} {f : α → Task β} {a : α} {seen : List (Nat × Nat)} :
    ∀ {t : Task α} {n own left size : Nat}, Ends t n (.val a) → Yields rs P (own + n) seen left size (f a) →
      Yields rs P own seen (n + left) (len t + size) (t >>= f)
  | .done r', n, own, left, size, h, hf => by
    obtain ⟨rfl, rfl⟩ := h
    show Yields rs P own seen (0 + left) (0 + size) (f a)
    rw [Nat.zero_add, Nat.zero_add]
    exact hf
  | .tick t, n, own, left, size, h, hf => ⟨len t + size, by show len t + 1 + size = _; omega, yields_bind (t := t) h hf⟩
  | .report t, n, own, left, size, h, hf => by
    obtain ⟨k, rfl, h⟩ := h
    exact ⟨len t + size, k + left, by show len t + 1 + size = _; omega, by omega, yields_bind (own := own + 1) (t := t) h
      (by rw [show own + 1 + k = own + (k + 1) by omega]; exact hf)⟩

theorem yields_map {α β : Type} {rs : Prop} {P : Nat → List (Nat × Nat) → Res α → Prop} {Q : Nat → List (Nat × Nat) → Res β → Prop} {f : α → β}
    (hv : ∀ own seen r, P own seen r → ∃ a, r = .val a ∧ Q own seen (.val (f a))) : ∀ {t : Task α} {own left size : Nat} {seen : List (Nat × Nat)},
      Yields rs P own seen left size t → Yields rs Q own seen left size (t >>= fun a => pure (f a))
  | .done r, own, left, size, seen, h => by
    obtain ⟨rfl, rfl, h⟩ := h
    obtain ⟨a, rfl, h'⟩ := hv _ _ _ h
    exact ⟨rfl, rfl, h'⟩
  | .tick t, own, left, size, seen, h => by
    obtain ⟨s, e, h⟩ := h
    exact ⟨s, e, yields_map hv (t := t) h⟩
  | .report t, own, left, size, seen, h => by
    obtain ⟨s, l, e, e', h⟩ := h
    exact ⟨s, l, e, e', yields_map hv (t := t) h⟩
  | .look k, own, left, size, seen, h => by
    obtain ⟨s, e, h⟩ := h
    exact ⟨s, e, fun v => yields_map hv (t := k v) (h v)⟩
  | .clear t, own, left, size, seen, h => by
    obtain ⟨hr, s, e, h⟩ := h
    exact ⟨hr, s, e, yields_map hv (t := t) h⟩

theorem yields_weaken {α : Type} {rs : Prop} {P Q : Nat → List (Nat × Nat) → Res α → Prop} (hv : ∀ own seen r, P own seen r → Q own seen r) :
    ∀ {t : Task α} {own left size : Nat} {seen : List (Nat × Nat)}, Yields rs P own seen left size t → Yields rs Q own seen left size t
  | .done r, own, left, size, seen, h => ⟨h.1, h.2.1, hv _ _ _ h.2.2⟩
  | .tick t, own, left, size, seen, h => by
    obtain ⟨s, e, h⟩ := h
    exact ⟨s, e, yields_weaken hv (t := t) h⟩
  | .report t, own, left, size, seen, h => by
    obtain ⟨s, l, e, e', h⟩ := h
    exact ⟨s, l, e, e', yields_weaken hv (t := t) h⟩
  | .look k, own, left, size, seen, h => by
    obtain ⟨s, e, h⟩ := h
    exact ⟨s, e, fun v => yields_weaken hv (t := k v) (h v)⟩
  | .clear t, own, left, size, seen, h => by
    obtain ⟨hr, s, e, h⟩ := h
    exact ⟨hr, s, e, yields_weaken hv (t := t) h⟩

/-- `Gives P c t`: the task, alone and with `c` in the counter, ends with a result and a counter that satisfy `P`. -/
def Gives {α : Type} (P : Nat → Res α → Prop) : Nat → Task α → Prop
  | c, .done r => P c r
  | c, .tick t => Gives P c t
  | c, .report t => Gives P (c + 1) t
  | c, .look k => Gives P c (k (c % 2 ^ 32))
  | _, .clear t => Gives P 0 t

theorem gives_bind {α β : Type} {P : Nat → Res β → Prop} {f : α → Task β} {a : α} :
    ∀ {t : Task α} {n c : Nat}, Ends t n (.val a) → Gives P (c + n) (f a) → Gives P c (t >>= f)
  | .done r', n, c, h, hf => by
    obtain ⟨rfl, rfl⟩ := h
    exact hf
  | .tick t, n, c, h, hf => gives_bind (t := t) h hf
  | .report t, n, c, h, hf => by
    obtain ⟨k, rfl, h⟩ := h
    exact gives_bind (c := c + 1) (t := t) h (by rw [show c + 1 + k = c + (k + 1) by omega]; exact hf)

theorem gives_map {α β : Type} {P : Nat → Res α → Prop} {Q : Nat → Res β → Prop} {f : α → β}
    (hv : ∀ c r, P c r → ∃ a, r = .val a ∧ Q c (.val (f a))) : ∀ {t : Task α} {c : Nat},
      Gives P c t → Gives Q c (t >>= fun a => pure (f a))
  | .done r, c, h => by
    obtain ⟨a, rfl, h'⟩ := hv _ _ h
    exact h'
  | .tick t, c, h => gives_map hv (t := t) h
  | .report t, c, h => gives_map hv (t := t) h
  | .look k, c, h => gives_map hv (t := k _) h
  | .clear t, c, h => gives_map hv (t := t) h

end Task

/-! ### The calls of a thread -/

theorem ends_unique {α : Type} : ∀ {t : Task α} {n n' : Nat} {r r' : Res α}, Ends t n r → Ends t n' r' → n = n' ∧ r = r'
  | .done r0, n, n', r, r', h, h' => ⟨h.1.trans h'.1.symm, h.2.symm.trans h'.2⟩
  | .tick t, n, n', r, r', h, h' => ends_unique (t := t) h h'
  | .report t, n, n', r, r', h, h' => by
    obtain ⟨m, rfl, h⟩ := h
    obtain ⟨m', rfl, h'⟩ := h'
    obtain ⟨rfl, rfl⟩ := ends_unique (t := t) h h'
    exact ⟨rfl, rfl⟩

/-- A function that returns whatever the counter, and that a task follows, does not depend on the counter. -/
theorem any_count {α : Type} {t : Task (α × Store)} {F : Nat → Res (α × Store × Nat)} (hr : ∀ c, ∃ r, F c = .val r)
    (he : ∀ c x σ' c', F c = .val (x, σ', c') → ∃ n, c' = c + n ∧ Ends t n (.val (x, σ'))) :
    ∃ x σ' n, Ends t n (.val (x, σ')) ∧ ∀ c, F c = .val (x, σ', c + n) := by
  obtain ⟨⟨x, σ', c'⟩, h0⟩ := hr 0
  obtain ⟨n, rfl, hn⟩ := he _ _ _ _ h0
  refine ⟨x, σ', n, hn, fun c => ?_⟩
  obtain ⟨⟨y, σ1, c1⟩, h1⟩ := hr c
  obtain ⟨m, rfl, hm⟩ := he _ _ _ _ h1
  obtain ⟨rfl, e⟩ := ends_unique hn hm
  cases e
  exact h1

/-- What a parser call does: it counts `n` times and is answered. -/
theorem callT_ends {nd : Bool} {σ : Store} (hσ : Reachable σ) {call : Call} (hs : Call.Small call) (hc : call ≠ .count) (hr : call ≠ .reset) :
    ∃ a σ' n, Reachable σ' ∧ Ends (callT nd σ call) n (.val (a, σ')) ∧
      (∀ m cs as' seen k, Answers nd (m + n) σ' cs as' seen k → Answers nd m σ (call :: cs) (a :: as') seen k) ∧
      (∀ c cs as' c'', Alone nd (c + n) σ' cs as' c'' → Alone nd c σ (call :: cs) (a :: as') c'') := by
  cases call with
  | count => exact absurd rfl hc
  | reset => exact absurd rfl hr
  | bitstream opts data =>
    have hl : data.length < 2 ^ 32 := hs
    obtain ⟨x, σ', n, h1, h2⟩ := any_count (fun c => C37_bitstream_partial hσ nd opts (data := data) (by omega) (fun _ e he => by
      have := (entries_inside data (starts data) (starts_sorted data) (fun p hp => mem_starts.mp hp) e he).2.2
      omega) c) (fun c x σ' c' h => bitstreamT_ends h)
    refine ⟨.bitstream x, σ', n, .bitstream hσ (by omega) (h2 0), ends_then h1 rfl (ends_pure _), fun m cs as' seen k h => ?_, fun c cs as' c'' h => ?_⟩
    · exact .bitstream (by rw [h2 0, Nat.zero_add]) h
    · exact .bitstream (h2 c) h
  | lengths opts data k =>
    obtain ⟨hl, hk⟩ : data.length < 2 ^ 32 ∧ k ≤ 7 := hs
    obtain ⟨x, σ', n, h1, h2⟩ := any_count (fun c => C37_bitstreamNALULength_partial hσ nd opts (data := data) (by omega) (fun _ => hl) hk c)
      (fun c x σ' c' h => lengthT_ends h)
    refine ⟨.bitstream x, σ', n, .bitstreamNALULength hσ (by omega) (h2 0), ends_then h1 rfl (ends_pure _), fun m cs as' seen k h => ?_,
      fun c cs as' c'' h => ?_⟩
    · exact .lengths (by rw [h2 0, Nat.zero_add]) h
    · exact .lengths (h2 c) h
  | nalUnit opts data =>
    have hl : data.length < 2 ^ 32 := hs
    obtain ⟨x, σ', n, h1, h2⟩ := any_count (fun c => C37_nal_unit_partial hσ nd opts (data := data) (off := 0) (len := data.length) (by omega)
      (by omega) (fun _ => hl) c) (fun c x σ' c' h => nalUnitT_ends h)
    refine ⟨.nalUnit x, σ', n, .nalUnit hσ (data := data) (by omega) (by omega) (h2 0), ends_then h1 rfl (ends_pure _),
      fun m cs as' seen k h => ?_, fun c cs as' c'' h => ?_⟩
    · exact .nalUnit (by rw [h2 0, Nat.zero_add]) h
    · exact .nalUnit (h2 c) h
  | rtp data =>
    have hl : data.length < 2 ^ 32 := hs
    obtain ⟨x, σ', n, h1, h2⟩ := any_count (fun c => (C37_packets_partial hσ nd {} 0 (data := data) (off := 0) (len := data.length) (by omega)
      (by omega) (fun _ => hl) c).2.1) (fun c x σ' c' h => rtpT_ends h)
    refine ⟨.rtp x, σ', n, .rtpData hσ (data := data) (by omega) (by omega) (h2 0), ends_then h1 rfl (ends_pure _),
      fun m cs as' seen k h => ?_, fun c cs as' c'' h => ?_⟩
    · exact .rtp (by rw [h2 0, Nat.zero_add]) h
    · exact .rtp (h2 c) h

/-- A thread, whatever it reads in the counter. -/
theorem threadT_yields {nd : Bool} {rs : Prop} : ∀ (calls : List Call) {σ : Store} (_ : Reachable σ) (_ : ∀ call ∈ calls, Call.Small call)
    (_ : .reset ∈ calls → rs) (n : Nat), ∃ left size, ∀ seen, Yields rs (fun own seen' r => ∃ as' more, r = .val as' ∧ seen' = seen ++ more ∧
      Answers nd n σ calls as' more own) n seen left size (threadT nd calls σ)
  | [], σ, _, _, _, n => ⟨0, 0, fun seen => ⟨rfl, rfl, [], [], rfl, (List.append_nil _).symm, .nil n σ⟩⟩
  | call :: calls, σ, hσ, hs, hrs, n => by
    have hs' : ∀ call ∈ calls, Call.Small call := fun x hx => hs x (List.mem_cons_of_mem _ hx)
    have hrs' : .reset ∈ calls → rs := fun hx => hrs (List.mem_cons_of_mem _ hx)
    by_cases hc : call = .count
    · subst hc
      obtain ⟨left, size, h⟩ := threadT_yields (nd := nd) calls hσ hs' hrs' n
      refine ⟨left, size + 1, fun seen => ⟨size, rfl, fun v => ?_⟩⟩
      show Yields rs _ n (seen ++ [(n, v)]) left size (threadT nd calls σ >>= fun as' => pure (.count v :: as'))
      refine yields_map (f := fun as' => .count v :: as') ?_ (h (seen ++ [(n, v)]))
      rintro own seen' r ⟨as', more, rfl, rfl, ha⟩
      exact ⟨as', rfl, .count v :: as', (n, v) :: more, rfl, by rw [List.append_assoc]; rfl, .count v ha⟩
    · by_cases hr : call = .reset
      · subst hr
        obtain ⟨left, size, h⟩ := threadT_yields (nd := nd) calls hσ hs' hrs' n
        refine ⟨left, size + 1, fun seen => ⟨hrs (by simp), size, rfl, ?_⟩⟩
        show Yields rs _ n seen left size (threadT nd calls σ >>= fun as' => pure (.reset :: as'))
        refine yields_map (f := fun as' => .reset :: as') ?_ (h seen)
        rintro own seen' r ⟨as', more, rfl, rfl, ha⟩
        exact ⟨as', rfl, .reset :: as', more, rfl, rfl, .reset ha⟩
      · obtain ⟨a, σ', k, hσ', h1, h2, _⟩ := callT_ends (nd := nd) hσ (hs call (by simp)) hc hr
        obtain ⟨left, size, h⟩ := threadT_yields (nd := nd) calls hσ' hs' hrs' (n + k)
        refine ⟨k + left, len (callT nd σ call) + size, fun seen => ?_⟩
        show Yields rs _ n seen (k + left) _ (callT nd σ call >>= fun x => threadT nd calls x.2 >>= fun as' => pure (x.1 :: as'))
        refine yields_bind h1 ?_
        refine yields_map (f := fun as' => a :: as') ?_ (h seen)
        rintro own seen' r ⟨as', more, rfl, rfl, ha⟩
        exact ⟨as', rfl, a :: as', more, rfl, rfl, h2 _ _ _ _ _ ha⟩

/-- A thread that is alone. -/
theorem threadT_gives {nd : Bool} : ∀ (calls : List Call) {σ : Store} (_ : Reachable σ) (_ : ∀ call ∈ calls, Call.Small call) (c : Nat),
    Gives (fun c' r => ∃ as', r = .val as' ∧ Alone nd c σ calls as' c') c (threadT nd calls σ)
  | [], σ, _, _, c => ⟨[], rfl, .nil c σ⟩
  | call :: calls, σ, hσ, hs, c => by
    have hs' : ∀ call ∈ calls, Call.Small call := fun x hx => hs x (List.mem_cons_of_mem _ hx)
    by_cases hc : call = .count
    · subst hc
      show Gives _ c (threadT nd calls σ >>= fun as' => pure (.count (c % 2 ^ 32) :: as'))
      refine gives_map (f := fun as' => .count (c % 2 ^ 32) :: as') ?_ (threadT_gives calls hσ hs' c)
      rintro c' r ⟨as', rfl, ha⟩
      exact ⟨as', rfl, _, rfl, .count ha⟩
    · by_cases hr : call = .reset
      · subst hr
        show Gives _ 0 (threadT nd calls σ >>= fun as' => pure (.reset :: as'))
        refine gives_map (f := fun as' => .reset :: as') ?_ (threadT_gives calls hσ hs' 0)
        rintro c' r ⟨as', rfl, ha⟩
        exact ⟨as', rfl, _, rfl, .reset ha⟩
      · obtain ⟨a, σ', k, hσ', h1, _, h2⟩ := callT_ends (nd := nd) hσ (hs call (by simp)) hc hr
        show Gives _ c (callT nd σ call >>= fun x => threadT nd calls x.2 >>= fun as' => pure (x.1 :: as'))
        refine gives_bind h1 ?_
        refine gives_map (f := fun as' => a :: as') ?_ (threadT_gives calls hσ' hs' (c + k))
        rintro c' r ⟨as', rfl, ha⟩
        exact ⟨as', rfl, _, rfl, h2 _ _ _ _ ha⟩

/-! ### The threads of a program -/

theorem each_append {α β : Type} {R : α → β → Prop} : ∀ {xs : List α} {l : List β} {t : β} {r : List β}, Each R xs (l ++ t :: r) →
    ∃ xl x xr, xs = xl ++ x :: xr ∧ Each R xl l ∧ R x t ∧ Each R xr r
  | [], l, t, r, h => by cases l <;> cases h
  | x :: xs, [], t, r, h => by
    cases h with
    | cons h1 h2 => exact ⟨[], x, xs, rfl, .nil, h1, h2⟩
  | x :: xs, y :: l, t, r, h => by
    cases h with
    | cons h1 h2 =>
      obtain ⟨xl, z, xr, rfl, h3, h4, h5⟩ := each_append (l := l) h2
      exact ⟨x :: xl, z, xr, rfl, .cons h1 h3, h4, h5⟩

theorem each_append_mk {α β : Type} {R : α → β → Prop} {x : α} {xr : List α} {t : β} {r : List β} (h : R x t) (hr : Each R xr r) :
    ∀ {xl : List α} {l : List β}, Each R xl l → Each R (xl ++ x :: xr) (l ++ t :: r)
  | [], [], .nil => .cons h hr
  | _ :: _, _ :: _, .cons h1 h2 => .cons h1 (each_append_mk h hr h2)

/-- A thread in the middle of its work: its script, how often it has counted, what it has read, how often it still counts, and how many
steps it has left. -/
structure Ghost where
  script : Store × List Call
  own : Nat
  seen : List (Nat × Nat)
  left : Nat
  size : Nat

/-- The thread does what its script says. -/
def Ghost.Follows (nd : Bool) (rs : Prop) (x : Ghost) (t : Task (List Answer)) : Prop :=
  Yields rs (fun own seen r => ∃ as', r = .val as' ∧ Answers nd 0 x.script.1 x.script.2 as' seen own) x.own x.seen x.left x.size t

/-- What holds of the threads of a program throughout. -/
structure Inv (nd : Bool) (rs : Prop) (c : Nat) (scripts : List (Store × List Call)) (g : Threads) (size : Nat) (gs : List Ghost) : Prop where
  scripts_eq : gs.map (·.script) = scripts
  follows : Each (Ghost.Follows nd rs) gs g.tasks
  size_eq : (gs.map (·.size)).sum = size
  cnt_eq : ¬rs → g.cnt = c + (gs.map (·.own)).sum
  reads : ¬rs → ∀ x ∈ gs, Reads c ((gs.map (·.own)).sum - x.own) x.seen

theorem reads_mono {c m m' : Nat} {seen : List (Nat × Nat)} (h : m ≤ m') (hr : Reads c m seen) : Reads c m' seen := by
  obtain ⟨os, h1, h2, h3⟩ := hr
  exact ⟨os, h1, h2, fun o ho => Nat.le_trans (h3 o ho) h⟩

theorem each_snoc {α β : Type} {R : α → β → Prop} {a : α} {b : β} (h : R a b) : ∀ {xs : List α} {ys : List β}, Each R xs ys →
    Each R (xs ++ [a]) (ys ++ [b])
  | [], [], .nil => .cons h .nil
  | _ :: _, _ :: _, .cons h1 h2 => .cons h1 (each_snoc h h2)

theorem reads_snoc {c m n : Nat} {seen : List (Nat × Nat)} (hr : Reads c m seen) : Reads c m (seen ++ [(n, (c + n + m) % 2 ^ 32)]) := by
  obtain ⟨os, h1, h2, h3⟩ := hr
  refine ⟨os ++ [m], each_snoc (R := fun (x : Nat × Nat) o => x.2 = (c + x.1 + o) % 2 ^ 32) rfl h1, ?_, ?_⟩
  · rw [List.pairwise_append]
    exact ⟨h2, List.pairwise_singleton _ _, fun a ha b hb => by rw [List.mem_singleton] at hb; rw [hb]; exact h3 a ha⟩
  · intro o ho
    rw [List.mem_append, List.mem_singleton] at ho
    rcases ho with ho | rfl
    · exact h3 o ho
    · exact Nat.le_refl _

theorem sum_mid (f : Ghost → Nat) (xl xr : List Ghost) (x : Ghost) :
    ((xl ++ x :: xr).map f).sum = (xl.map f).sum + f x + (xr.map f).sum := by
  rw [List.map_append, List.sum_append, List.map_cons, List.sum_cons]
  omega

theorem le_sum (f : Ghost → Nat) {x : Ghost} : ∀ {xs : List Ghost}, x ∈ xs → f x ≤ (xs.map f).sum
  | y :: ys, h => by
    rw [List.map_cons, List.sum_cons]
    rcases List.mem_cons.mp h with rfl | h
    · omega
    · have := le_sum f h
      omega

/-- One thread moves. -/
theorem inv_move {nd : Bool} {rs : Prop} {c c' : Nat} {scripts : List (Store × List Call)} {l r : List (Task (List Answer))}
    {t' : Task (List Answer)} {size : Nat} {xl xr : List Ghost} {x x' : Ghost} {k : Nat}
    (hs : (xl ++ x :: xr).map (·.script) = scripts) (hl : Each (Ghost.Follows nd rs) xl l) (hr : Each (Ghost.Follows nd rs) xr r)
    (hsz : ((xl ++ x :: xr).map (·.size)).sum = size + 1)
    (hx : x'.script = x.script) (hf : x'.Follows nd rs t') (hz : x.size = x'.size + 1) (ho : x'.own = x.own + k)
    (hcnt : ¬rs → c' = c + ((xl ++ x :: xr).map (·.own)).sum + k)
    (hreads : ¬rs → ∀ y ∈ xl ++ x :: xr, Reads c (((xl ++ x :: xr).map (·.own)).sum - y.own) y.seen)
    (hnew : ¬rs → Reads c (((xl ++ x :: xr).map (·.own)).sum - x.own) x'.seen) :
    Inv nd rs c scripts ⟨l ++ t' :: r, c'⟩ size (xl ++ x' :: xr) := by
  rw [sum_mid] at hsz
  refine ⟨?_, each_append_mk hf hr hl, ?_, ?_, ?_⟩
  · rw [← hs, List.map_append, List.map_append, List.map_cons, List.map_cons, hx]
  · rw [sum_mid]
    omega
  · intro h
    have := hcnt h
    rw [sum_mid] at this
    show c' = _
    rw [sum_mid]
    omega
  · intro h y hy
    have h1 : ((xl ++ x' :: xr).map (·.own)).sum = ((xl ++ x :: xr).map (·.own)).sum + k := by
      rw [sum_mid, sum_mid]
      omega
    rw [h1]
    rcases List.mem_append.mp hy with hy | hy
    · exact reads_mono (by omega) (hreads h y (List.mem_append_left _ hy))
    · rcases List.mem_cons.mp hy with rfl | hy
      · exact reads_mono (by omega) (hnew h)
      · exact reads_mono (by omega) (hreads h y (List.mem_append_right _ (List.mem_cons_of_mem _ hy)))

theorem inv_step {nd : Bool} {rs : Prop} {c : Nat} {scripts : List (Store × List Call)} {g g' : Threads} {size : Nat} {gs : List Ghost}
    (hi : Inv nd rs c scripts g size gs) (h : Threads.Step g g') : ∃ size' gs', size = size' + 1 ∧ Inv nd rs c scripts g' size' gs' := by
  obtain ⟨l, r, hstep⟩ := h
  rename_i t t' c0 c1
  obtain ⟨h1, h2, h3, h4, h5⟩ := hi
  obtain ⟨xl, x, xr, rfl, h6, h7, h8⟩ := each_append h2
  have hsz : ∀ s, x.size = s + 1 → ∃ z, size = z + 1 := by
    intro s hs
    rw [sum_mid] at h3
    exact ⟨size - 1, by omega⟩
  unfold Ghost.Follows at h7
  cases hstep with
  | tick =>
    obtain ⟨s, e, h7⟩ := h7
    obtain ⟨z, rfl⟩ := hsz s e
    refine ⟨z, _, rfl, inv_move (x' := { x with size := s }) (k := 0) h1 h6 h8 h3 rfl h7 e rfl h4 h5 (fun h => h5 h x (by simp))⟩
  | report =>
    obtain ⟨s, m, e, e', h7⟩ := h7
    obtain ⟨z, rfl⟩ := hsz s e
    exact ⟨z, _, rfl, inv_move (x' := { x with size := s, own := x.own + 1, left := m }) (k := 1) h1 h6 h8 h3 rfl h7 e rfl
      (fun h => by have := h4 h; dsimp only at this; omega) h5 (fun h => h5 h x (by simp))⟩
  | look k =>
    obtain ⟨s, e, h7⟩ := h7
    obtain ⟨z, rfl⟩ := hsz s e
    refine ⟨z, _, rfl, inv_move (x' := { x with size := s, seen := x.seen ++ [(x.own, c0 % 2 ^ 32)] }) (k := 0) h1 h6 h8 h3 rfl (h7 _) e rfl
      h4 h5 (fun h => ?_)⟩
    have h9 := reads_snoc (n := x.own) (h5 h x (by simp))
    have h10 := h4 h
    have h11 := le_sum (·.own) (x := x) (xs := xl ++ x :: xr) (by simp)
    dsimp only at h10 h11 ⊢
    rw [show c0 = c + x.own + (((xl ++ x :: xr).map (·.own)).sum - x.own) by omega]
    exact h9
  | clear =>
    obtain ⟨hr, s, e, h7⟩ := h7
    obtain ⟨z, rfl⟩ := hsz s e
    exact ⟨z, _, rfl, inv_move (x' := { x with size := s }) (k := 0) h1 h6 h8 h3 rfl h7 e rfl (fun h => absurd hr h) h5
      (fun h => h5 h x (by simp))⟩

theorem inv_steps {nd : Bool} {rs : Prop} {c : Nat} {scripts : List (Store × List Call)} {g g' : Threads} {n : Nat} (h : Threads.Steps n g g') :
    ∀ {size : Nat} {gs : List Ghost}, Inv nd rs c scripts g size gs → ∃ size' gs', size = n + size' ∧ Inv nd rs c scripts g' size' gs' := by
  induction h with
  | refl g => intro size gs hi; exact ⟨size, gs, by omega, hi⟩
  | step h _ ih =>
    intro size gs hi
    obtain ⟨s1, gs1, rfl, h1⟩ := inv_step hi h
    obtain ⟨s2, gs2, rfl, h2⟩ := ih h1
    exact ⟨s2, gs2, by omega, h2⟩

/-- The start. -/
theorem inv_start {nd : Bool} {rs : Prop} (c : Nat) : ∀ {scripts : List (Store × List Call)},
    (∀ x ∈ scripts, Reachable x.1 ∧ (∀ call ∈ x.2, Call.Small call) ∧ (.reset ∈ x.2 → rs)) →
    ∃ gs size, gs.map (·.script) = scripts ∧ Each (Ghost.Follows nd rs) gs (scripts.map fun x => threadT nd x.2 x.1) ∧
      (gs.map (·.size)).sum = size ∧ ∀ x ∈ gs, x.own = 0 ∧ x.seen = []
  | [], _ => ⟨[], 0, rfl, .nil, rfl, by simp⟩
  | x :: xs, h => by
    obtain ⟨gs, size, h1, h2, h3, h4⟩ := inv_start (nd := nd) c (scripts := xs) (fun y hy => h y (List.mem_cons_of_mem _ hy))
    obtain ⟨h5, h6, h7⟩ := h x (by simp)
    obtain ⟨left, s, h8⟩ := threadT_yields (nd := nd) x.2 h5 h6 h7 0
    refine ⟨⟨x, 0, [], left, s⟩ :: gs, s + size, by rw [List.map_cons, h1], .cons ?_ h2, by rw [List.map_cons, List.sum_cons, h3], ?_⟩
    · have := h8 []
      unfold Ghost.Follows
      refine yields_weaken ?_ this
      rintro own seen r ⟨as', more, rfl, rfl, ha⟩
      exact ⟨as', rfl, ha⟩
    · intro y hy
      rcases List.mem_cons.mp hy with rfl | hy
      · exact ⟨rfl, rfl⟩
      · exact h4 y hy

theorem inv_begin {nd : Bool} {rs : Prop} (c : Nat) {scripts : List (Store × List Call)}
    (h : ∀ x ∈ scripts, Reachable x.1 ∧ (∀ call ∈ x.2, Call.Small call) ∧ (.reset ∈ x.2 → rs)) :
    ∃ size gs, Inv nd rs c scripts ⟨scripts.map fun x => threadT nd x.2 x.1, c⟩ size gs := by
  obtain ⟨gs, size, h1, h2, h3, h4⟩ := inv_start (nd := nd) c h
  have h5 : ∀ {gs : List Ghost}, (∀ x ∈ gs, x.own = 0 ∧ x.seen = []) → (gs.map (·.own)).sum = 0 := by
    intro gs
    induction gs with
    | nil => intro _; rfl
    | cons y ys ih =>
      intro h
      rw [List.map_cons, List.sum_cons, ih (fun z hz => h z (List.mem_cons_of_mem _ hz)), (h y (by simp)).1]
  refine ⟨size, gs, h1, h2, h3, fun _ => ?_, fun _ x hx => ?_⟩
  · rw [h5 h4]
    rfl
  · rw [(h4 x hx).2]
    exact ⟨[], .nil, .nil, fun o ho => by cases ho⟩

/-- A thread that has finished. -/
theorem follows_done {nd : Bool} {rs : Prop} : ∀ {gs : List Ghost} {ts : List (Task (List Answer))}, Each (Ghost.Follows nd rs) gs ts →
    (∀ t ∈ ts, ∃ r, t = .done r) → ∃ outs : List Outcome, ts = outs.map (fun o => .done (.val o.answers)) ∧
      Each (fun x o => Answers nd 0 x.1 x.2 o.answers o.seen o.count) (gs.map (·.script)) outs ∧
      gs.map (·.own) = outs.map (·.count) ∧ gs.map (fun x => (x.own, x.seen)) = outs.map (fun o => (o.count, o.seen)) ∧
      (gs.map (·.size)).sum = 0
  | [], [], .nil, _ => ⟨[], rfl, .nil, rfl, rfl, rfl⟩
  | x :: gs, t :: ts, .cons h1 h2, h => by
    obtain ⟨outs, e1, e2, e3, e4, e5⟩ := follows_done h2 (fun y hy => h y (List.mem_cons_of_mem _ hy))
    obtain ⟨r, rfl⟩ := h t (by simp)
    obtain ⟨_, hz, as', rfl, ha⟩ := h1
    refine ⟨⟨as', x.seen, x.own⟩ :: outs, by rw [e1]; rfl, .cons ha e2, by rw [List.map_cons, List.map_cons, e3], by rw [List.map_cons, List.map_cons, e4],
      by rw [List.map_cons, List.sum_cons, e5, hz]⟩

/-- A thread that has not finished can make a step. -/
theorem task_step {α : Type} (t : Task α) (c : Nat) : (∃ r, t = .done r) ∨ ∃ t' c', t.Step c t' c' := by
  cases t with
  | done r => exact .inl ⟨r, rfl⟩
  | tick t => exact .inr ⟨_, _, .tick t c⟩
  | report t => exact .inr ⟨_, _, .report t c⟩
  | look k => exact .inr ⟨_, _, .look k c⟩
  | clear t => exact .inr ⟨_, _, .clear t c⟩

theorem threads_step (g : Threads) : g.Finished ∨ ∃ g', Threads.Step g g' := by
  obtain ⟨ts, c⟩ := g
  by_cases h : ∃ t ∈ ts, ∃ t' c', t.Step c t' c'
  · obtain ⟨t, ht, t', c', hs⟩ := h
    obtain ⟨l, r, rfl⟩ := List.append_of_mem ht
    exact .inr ⟨_, .mk l r hs⟩
  · refine .inl fun t ht => ?_
    rcases task_step t c with h' | ⟨t', c', h'⟩
    · exact h'
    · exact absurd ⟨t, ht, t', c', h'⟩ h

/-- No steps are left when all have finished, and only then. -/
theorem follows_zero {nd : Bool} {rs : Prop} : ∀ {gs : List Ghost} {ts : List (Task (List Answer))}, Each (Ghost.Follows nd rs) gs ts →
    (gs.map (·.size)).sum = 0 → ∀ t ∈ ts, ∃ r, t = .done r
  | [], [], .nil, _ => fun _ h => by cases h
  | x :: gs, t :: ts, .cons h1 h2, h => by
    rw [List.map_cons, List.sum_cons] at h
    intro y hy
    rcases List.mem_cons.mp hy with rfl | hy
    · unfold Ghost.Follows at h1
      have hz : x.size = 0 := by omega
      rw [hz] at h1
      cases y with
      | done r => exact ⟨r, rfl⟩
      | tick t => obtain ⟨s, e, _⟩ := h1; omega
      | report t => obtain ⟨s, l, e, _⟩ := h1; omega
      | look k => obtain ⟨s, e, _⟩ := h1; omega
      | clear t => obtain ⟨_, s, e, _⟩ := h1; omega
    · exact follows_zero h2 (by omega) y hy

theorem gives_step {α : Type} {P : Nat → Res α → Prop} {t t' : Task α} {c c' : Nat} (h : t.Step c t' c') (hg : Gives P c t) : Gives P c' t' := by
  cases h with
  | tick => exact hg
  | report => exact hg
  | look => exact hg
  | clear => exact hg

theorem steps_snoc {n : Nat} {g g' g'' : Threads} (h : Threads.Steps n g g') (hs : Threads.Step g' g'') : Threads.Steps (n + 1) g g'' := by
  induction h with
  | refl g => exact .step hs (.refl _)
  | step h1 _ ih => exact .step h1 (ih hs)

/-- The answers are determined, if the counter is not looked at. -/
theorem answers_unique {nd : Bool} {n m m' : Nat} {σ : Store} {calls : List Call} {as1 as2 : List Answer} {s1 s2 : List (Nat × Nat)}
    (hc : Call.count ∉ calls) (h : Answers nd n σ calls as1 s1 m) (h' : Answers nd n σ calls as2 s2 m') : as1 = as2 ∧ m = m' := by
  induction h generalizing as2 s2 with
  | nil => cases h'; exact ⟨rfl, rfl⟩
  | bitstream h1 _ ih =>
    cases h' with
    | bitstream h2 h3 =>
      cases h1.symm.trans h2
      obtain ⟨rfl, rfl⟩ := ih (fun h => hc (List.mem_cons_of_mem _ h)) h3
      exact ⟨rfl, rfl⟩
  | lengths h1 _ ih =>
    cases h' with
    | lengths h2 h3 =>
      cases h1.symm.trans h2
      obtain ⟨rfl, rfl⟩ := ih (fun h => hc (List.mem_cons_of_mem _ h)) h3
      exact ⟨rfl, rfl⟩
  | nalUnit h1 _ ih =>
    cases h' with
    | nalUnit h2 h3 =>
      cases h1.symm.trans h2
      obtain ⟨rfl, rfl⟩ := ih (fun h => hc (List.mem_cons_of_mem _ h)) h3
      exact ⟨rfl, rfl⟩
  | rtp h1 _ ih =>
    cases h' with
    | rtp h2 h3 =>
      cases h1.symm.trans h2
      obtain ⟨rfl, rfl⟩ := ih (fun h => hc (List.mem_cons_of_mem _ h)) h3
      exact ⟨rfl, rfl⟩
  | count v _ ih => exact absurd (List.mem_cons_self ..) hc
  | reset _ ih =>
    cases h' with
    | reset h3 =>
      obtain ⟨rfl, rfl⟩ := ih (fun h => hc (List.mem_cons_of_mem _ h)) h3
      exact ⟨rfl, rfl⟩

end H264

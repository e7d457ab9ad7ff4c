import Verif.Golomb
import Verif.BitWriterLemmas

/-
Properties C01-C06: the bit reader.
`b.pos` is the bit position, `allBits b.bytes` the bits of the buffer, `b.rem` the unread ones (Verif/Spec/Cursor.lean).
-/

namespace H264.Props
open H264

/-- A concrete reader used to show hypotheses are met: three bytes, two bits already read. -/
def exBuf : Buf := { bytes := [0xA5, 0x0F, 0x80], byteOff := 0, bitOff := 2 }

theorem exBuf_wf : exBuf.WF := ⟨by decide, by decide, by decide⟩

/-- C01: `PeekBits(n)` (32-bit overload `w = 32`, 64-bit overload `w = 64`) never leaves defined behaviour and
answers exactly the next `n` bits, most significant first, when `1 ≤ n ≤ w` and `n` bits remain; otherwise false. -/
theorem C01_peekBits_exact {b : Buf} (h : b.WF) (w n : Nat) :
    b.peekBits w n = .val (
      if 1 ≤ n ∧ n ≤ w ∧ b.pos + n ≤ 8 * b.bytes.length
      then some (bitsVal (((allBits b.bytes).drop b.pos).take n))
      else none) := by
  have hl := b.length_rem
  have hin := h.inside
  rw [Buf.peekBits_eq h]
  by_cases hc : 1 ≤ n ∧ n ≤ w ∧ b.pos + n ≤ 8 * b.bytes.length
  · rw [if_pos hc, if_neg (by omega)]; rfl
  · rw [if_neg hc, if_pos (by omega)]

/-- C01: `ReadBits(n)` answers like `PeekBits(n)`, and the new position is exactly `n` bits further. -/
theorem C01_readBits_exact {b : Buf} (h : b.WF) (w n : Nat) :
    b.readBits w n = .val (
      if 1 ≤ n ∧ n ≤ w ∧ b.pos + n ≤ 8 * b.bytes.length
      then (some (bitsVal (((allBits b.bytes).drop b.pos).take n)),
            { bytes := b.bytes, byteOff := (b.pos + n) / 8, bitOff := (b.pos + n) % 8 })
      else (none, b)) := by
  have hl := b.length_rem
  have hin := h.inside
  rw [Buf.readBits_eq h]
  by_cases hc : 1 ≤ n ∧ n ≤ w ∧ b.pos + n ≤ 8 * b.bytes.length
  · rw [if_pos hc, if_neg (by omega)]; rfl
  · rw [if_neg hc, if_pos (by omega)]

/-- C01: `ReadUInt8/16/32` are the cases `n = 8, 16, 32` of `ReadBits`; their range assertions never fail. -/
theorem C01_readUInt_exact {b : Buf} (h : b.WF) :
    b.readUInt8 = b.readBits 32 8 ∧ b.readUInt16 = b.readBits 32 16 ∧ b.readUInt32 = b.readBits 32 32 := by
  refine ⟨?_, ?_, rfl⟩
  · unfold Buf.readUInt8
    rw [Buf.readBits_eq h]
    split
    · rfl
    · rename_i hc
      have hlt := bitsVal_lt (b.rem.take 8)
      have : (b.rem.take 8).length = 8 := by simp; omega
      rw [this] at hlt
      simp only [Res.val_bind]
      rw [show decide (bitsVal (b.rem.take 8) ≤ 255) = true by simp; omega, Res.check_true, Res.val_bind,
        Nat.mod_eq_of_lt hlt]
      rfl
  · unfold Buf.readUInt16
    rw [Buf.readBits_eq h]
    split
    · rfl
    · rename_i hc
      have hlt := bitsVal_lt (b.rem.take 16)
      have : (b.rem.take 16).length = 16 := by simp; omega
      rw [this] at hlt
      simp only [Res.val_bind]
      rw [show decide (bitsVal (b.rem.take 16) ≤ 65535) = true by simp; omega, Res.check_true, Res.val_bind,
        Nat.mod_eq_of_lt hlt]
      rfl

example : exBuf.readBits 32 10 = .val (some 0x250 , { exBuf with byteOff := 1, bitOff := 4 }) := by
  rw [C01_readBits_exact exBuf_wf]; decide
example : exBuf.readBits 32 23 = .val (none, exBuf) := by
  rw [C01_readBits_exact exBuf_wf]; decide

/-- C02: a fixed-width operation that returns false leaves the reader exactly as it was. -/
theorem C02_failure_keeps_position {b b' : Buf} (h : b.WF) (w n : Nat) :
    (b.readBits w n = .val (none, b') → b' = b) ∧
    (b.readUInt8 = .val (none, b') → b' = b) ∧
    (b.readUInt16 = .val (none, b') → b' = b) ∧
    (b.readUInt32 = .val (none, b') → b' = b) ∧
    (b.consumeBits n = (false, b') → b' = b) ∧
    (b.consumeBytes n = (false, b') → b' = b) ∧
    (∀ i j, b.seek i j = (false, b') → b' = b) := by
  have key : ∀ w n, b.readBits w n = .val (none, b') → b' = b := by
    intro w n hr
    rw [C01_readBits_exact h] at hr
    split at hr
    · simp at hr
    · simp at hr; exact hr.symm
  have hcons : ∀ n, b.consumeBits n = (false, b') → b' = b := by
    intro n hr
    rw [Buf.consumeBits_eq h] at hr
    split at hr
    · simp at hr
    · simp at hr; exact hr.symm
  obtain ⟨e1, e2, e3⟩ := C01_readUInt_exact h
  refine ⟨key w n, ?_, ?_, ?_, hcons n, ?_, ?_⟩
  · rw [e1]; exact key _ _
  · rw [e2]; exact key _ _
  · rw [e3]; exact key _ _
  · unfold Buf.consumeBytes
    split
    · intro hr; simp at hr; exact hr.symm
    · exact hcons _
  · intro i j hr
    unfold Buf.seek at hr
    split at hr
    · simp at hr; exact hr.symm
    · simp at hr

example : exBuf.seek 3 1 = (false, exBuf) := by decide

/-- Every call a user can make on a `BitBuffer`, with arbitrary arguments. -/
inductive RCall where
  | peek (w n : Nat) | read (w n : Nat) | read8 | read16 | read32
  | consumeBits (n : Nat) | consumeBytes (n : Nat) | seek (i j : Nat)
  | ue | se | nonSym (n : Nat)

/-- Effect of a call on the reader. -/
def RCall.run (nd : Bool) (b : Buf) : RCall → Res Buf
  | .peek w n => (fun _ => b) <$> b.peekBits w n
  | .read w n => Prod.snd <$> b.readBits w n
  | .read8 => Prod.snd <$> b.readUInt8
  | .read16 => Prod.snd <$> b.readUInt16
  | .read32 => Prod.snd <$> b.readUInt32
  | .consumeBits n => .val (b.consumeBits n).2
  | .consumeBytes n => .val (b.consumeBytes n).2
  | .seek i j => .val (b.seek i j).2
  | .ue => Prod.snd <$> b.readUE nd
  | .se => Prod.snd <$> b.readSE nd
  | .nonSym n => Prod.snd <$> b.readNonSymmetric n

/-- The only call whose documented precondition can be violated: `ReadNonSymmetric` outside `1 ≤ n < 2^31`. -/
def RCall.legal : RCall → Prop
  | .nonSym n => 0 < n ∧ n < 2 ^ 31
  | _ => True

theorem RCall.run_wf (nd : Bool) {b : Buf} (h : b.WF) (c : RCall) (hc : c.legal) :
    ∃ b', c.run nd b = .val b' ∧ b'.WF ∧ b'.bytes = b.bytes := by
  have rd : ∀ w n, ∃ b', Prod.snd <$> b.readBits w n = .val b' ∧ b'.WF ∧ b'.bytes = b.bytes := by
    intro w n
    rw [Buf.readBits_eq h]
    split
    · exact ⟨b, rfl, h, rfl⟩
    · exact ⟨_, rfl, h.adv (by omega), rfl⟩
  have cb : ∀ n, ∃ b', Res.val (b.consumeBits n).2 = .val b' ∧ b'.WF ∧ b'.bytes = b.bytes := by
    intro n
    rw [Buf.consumeBits_eq h]
    split
    · exact ⟨_, rfl, h.adv (by omega), rfl⟩
    · exact ⟨b, rfl, h, rfl⟩
  have gol : ∀ {v r}, ueDec b.rem = some (v, r) → lz b.rem + (lz b.rem + 1) ≤ b.rem.length := by
    intro v r hu
    unfold ueDec at hu
    split at hu
    · omega
    · simp at hu
  obtain ⟨e1, e2, e3⟩ := C01_readUInt_exact h
  cases c with
  | peek w n => exact ⟨b, by simp only [RCall.run]; rw [Buf.peekBits_eq h]; rfl, h, rfl⟩
  | read w n => exact rd w n
  | read8 => simp only [RCall.run]; rw [e1]; exact rd _ _
  | read16 => simp only [RCall.run]; rw [e2]; exact rd _ _
  | read32 => simp only [RCall.run]; rw [e3]; exact rd _ _
  | consumeBits n => exact cb n
  | consumeBytes n =>
    simp only [RCall.run]
    unfold Buf.consumeBytes
    split
    · exact ⟨b, rfl, h, rfl⟩
    · exact cb _
  | seek i j =>
    simp only [RCall.run]
    unfold Buf.seek
    split
    · exact ⟨b, rfl, h, rfl⟩
    · rename_i hc
      exact ⟨_, rfl, ⟨h.size, by simp only; omega, by simp only [Buf.pos]; omega⟩, rfl⟩
  | ue =>
    simp only [RCall.run]
    rw [Buf.readUE_eq nd h]
    cases hu : ueDec b.rem with
    | none => cases nd
              · exact ⟨b, rfl, h, rfl⟩
              · exact ⟨_, rfl, h.adv (lz_le _), rfl⟩
    | some p => exact ⟨_, rfl, h.adv (gol hu), rfl⟩
  | se =>
    simp only [RCall.run]
    rw [Buf.readSE_eq nd h]
    cases hu : ueDec b.rem with
    | none => cases nd
              · exact ⟨b, rfl, h, rfl⟩
              · exact ⟨_, rfl, h.adv (lz_le _), rfl⟩
    | some p => exact ⟨_, rfl, h.adv (gol hu), rfl⟩
  | nonSym n =>
    simp only [RCall.run]
    rw [Buf.readNonSymmetric_eq h hc.1 hc.2]
    split
    · exact ⟨b, rfl, h, rfl⟩
    · split
      · exact ⟨_, rfl, h.adv (by omega), rfl⟩
      · split
        · exact ⟨_, rfl, h.adv (by omega), rfl⟩
        · exact ⟨_, rfl, h.adv (by omega), rfl⟩

/-- C03: from any freshly constructed reader, any sequence of calls with any arguments (within the documented
precondition of `ReadNonSymmetric`), in either build mode, ends without any bad outcome; the position is inside
the buffer and `RemainingBitCount()` is the true number of unread bits. -/
theorem C03_reader_stays_inside (nd : Bool) (bytes : List UInt8) (hlen : bytes.length ≤ 2 ^ 32 - 1)
    (calls : List RCall) (hl : ∀ c ∈ calls, c.legal) :
    ∃ b, (do let b ← Buf.mk' bytes; calls.foldlM (RCall.run nd) b) = .val b ∧
      b.bytes = bytes ∧ b.bitOff < 8 ∧ b.pos ≤ 8 * bytes.length ∧
      b.remaining = 8 * bytes.length - b.pos := by
  have fold : ∀ (calls : List RCall) (b : Buf), (∀ c ∈ calls, c.legal) → b.WF →
      ∃ b', calls.foldlM (RCall.run nd) b = .val b' ∧ b'.WF ∧ b'.bytes = b.bytes := by
    intro calls
    induction calls with
    | nil => intro b _ h; exact ⟨b, rfl, h, rfl⟩
    | cons c cs ih =>
      intro b hl h
      obtain ⟨b1, e1, w1, y1⟩ := RCall.run_wf nd h c (hl c (by simp))
      obtain ⟨b2, e2, w2, y2⟩ := ih b1 (fun c hc => hl c (by simp [hc])) w1
      exact ⟨b2, by rw [List.foldlM_cons, e1]; exact e2, w2, y2.trans y1⟩
  have h0 : ({ bytes := bytes, byteOff := 0, bitOff := 0 } : Buf).WF :=
    ⟨by simp only; omega, by simp, by simp [Buf.pos]⟩
  obtain ⟨b, e, w, y⟩ := fold calls _ hl h0
  refine ⟨b, ?_, y, w.bit, ?_, ?_⟩
  · unfold Buf.mk'
    rw [show decide (bytes.length ≤ 2 ^ 32 - 1) = true by simp; omega]
    exact e
  · have := w.inside; rw [y] at this; exact this
  · rw [Buf.remaining_eq w, Buf.length_rem, y]

example : ∀ c ∈ [RCall.ue, .read 32 40, .nonSym 5, .seek 9 9, .consumeBytes (2 ^ 63)], c.legal := by
  intro c hc; simp at hc; rcases hc with rfl | rfl | rfl | rfl | rfl <;> simp [RCall.legal]

/-- C04: `ReadExponentialGolomb` returns `v` and moves to `b'` iff the unread bits start with the ue(v) codeword of
`v ≤ 2^32 - 2` and `b'` is the reader just after it. -/
theorem C04_readUE_exact (nd : Bool) {b : Buf} (h : b.WF) (v : Nat) (b' : Buf) :
    b.readUE nd = .val (some v, b') ↔
      v ≤ 2 ^ 32 - 2 ∧ (∃ rest, b.rem = encUE v ++ rest) ∧ b' = b.adv (encUE v).length := by
  rw [Buf.readUE_eq nd h]
  constructor
  · intro he
    cases hu : ueDec b.rem with
    | none => rw [hu] at he; simp at he
    | some p =>
      obtain ⟨w, r⟩ := p
      rw [hu] at he
      simp at he
      obtain ⟨rfl, rfl⟩ := he
      obtain ⟨h1, h2⟩ := (ueDec_iff _ _ _).mp hu
      refine ⟨by omega, ⟨r, h2⟩, ?_⟩
      rw [h2, lz_encUE, length_encUE]; congr 1; omega
  · rintro ⟨h1, ⟨r, hr⟩, rfl⟩
    have hu := (ueDec_iff b.rem v r).mpr ⟨by omega, hr⟩
    rw [hu]
    simp only
    rw [hr, lz_encUE, length_encUE]
    congr 3; omega

/-- C04: on every other bit string it fails (it never leaves defined behaviour and never fails its assertions). -/
theorem C04_readUE_fails_otherwise (nd : Bool) {b : Buf} (h : b.WF)
    (hno : ¬ ∃ v rest, v ≤ 2 ^ 32 - 2 ∧ b.rem = encUE v ++ rest) : ∃ b', b.readUE nd = .val (none, b') := by
  have e := Buf.readUE_eq nd h
  cases hu : ueDec b.rem with
  | none => rw [hu] at e; exact ⟨_, e⟩
  | some p =>
    obtain ⟨h1, h2⟩ := (ueDec_iff _ _ _).mp hu
    exact absurd ⟨p.1, p.2, by omega, h2⟩ hno

example : ({ bytes := [0x4F, 0xFF], byteOff := 0, bitOff := 0 } : Buf).readUE true =
    .val (some 1, { bytes := [0x4F, 0xFF], byteOff := 0, bitOff := 3 }) := by decide +kernel
example : ¬ ∃ v rest, v ≤ 2 ^ 32 - 2 ∧
    ({ bytes := [0x00], byteOff := 0, bitOff := 0 } : Buf).rem = encUE v ++ rest := by
  rintro ⟨v, r, hv, h⟩
  have := (ueDec_iff _ v r).mpr ⟨by omega, h⟩
  have hn : ueDec ({ bytes := [0x00], byteOff := 0, bitOff := 0 } : Buf).rem = none := by decide +kernel
  rw [hn] at this; simp at this

/-- C05, builds with assertions: a failed ue(v) or se(v) read leaves the reader as it was.  Full property (every
build configuration) is false, see `C05_ndebug_not_restored`. -/
theorem C05_failed_golomb_restores_partial {b b' : Buf} (h : b.WF) :
    (b.readUE false = .val (none, b') → b' = b) ∧ (b.readSE false = .val (none, b') → b' = b) := by
  rw [Buf.readUE_eq false h, Buf.readSE_eq false h]
  cases hu : ueDec b.rem with
  | none => simp only [Res.val.injEq, Prod.mk.injEq]; constructor <;> (rintro ⟨_, rfl⟩; rfl)
  | some p => simp

example : ({ bytes := [0x00], byteOff := 0, bitOff := 0 } : Buf).readUE false =
    .val (none, { bytes := [0x00], byteOff := 0, bitOff := 0 }) := by decide +kernel

/-- C05, `NDEBUG` builds: the property is false.  The restoring `Seek` is an argument of `assert`, so the failed
read of eight zero bits leaves the position at the end of the buffer. -/
theorem C05_ndebug_not_restored :
    ∃ b b' : Buf, b.WF ∧ b.readUE true = .val (none, b') ∧ b'.pos ≠ b.pos :=
  ⟨{ bytes := [0x00], byteOff := 0, bitOff := 0 }, { bytes := [0x00], byteOff := 1, bitOff := 0 },
    ⟨by decide, by decide, by decide⟩, by decide +kernel, by decide⟩

/-- C05, `NDEBUG` builds, exactly what happens instead: the position is after the run of zero bits. -/
theorem C05_ndebug_position {b b' : Buf} (h : b.WF) (he : b.readUE true = .val (none, b')) :
    ∃ z rest, b.rem = List.replicate z false ++ rest ∧ rest.head? ≠ some false ∧ b'.pos = b.pos + z := by
  rw [Buf.readUE_eq true h] at he
  cases hu : ueDec b.rem with
  | none =>
    rw [hu] at he
    simp at he
    refine ⟨lz b.rem, b.rem.drop (lz b.rem), lz_split _, ?_, by rw [← he, Buf.adv_pos]⟩
    by_cases hlt : lz b.rem < b.rem.length
    · obtain ⟨t, ht⟩ := drop_lz _ hlt
      simp [ht]
    · rw [List.drop_eq_nil_of_le (by omega)]; simp
  | some p => rw [hu] at he; simp at he

/-- C06: `ReadSignedExponentialGolomb` returns `v` iff the unread bits start with the se(v) codeword of `v` and
`|v| ≤ 2^31 - 1`; it never overflows (the result is always a `val`, see `C06_readSE_total`). -/
theorem C06_readSE_exact (nd : Bool) {b : Buf} (h : b.WF) (v : Int) (b' : Buf) :
    b.readSE nd = .val (some v, b') ↔
      (-(2 ^ 31 - 1) ≤ v ∧ v ≤ 2 ^ 31 - 1) ∧ (∃ rest, b.rem = encSE v ++ rest) ∧ b' = b.adv (encSE v).length := by
  rw [Buf.readSE_eq nd h]
  unfold encSE
  constructor
  · intro he
    cases hu : ueDec b.rem with
    | none => rw [hu] at he; simp at he
    | some p =>
      obtain ⟨w, r⟩ := p
      rw [hu] at he
      simp at he
      obtain ⟨hv, rfl⟩ := he
      obtain ⟨h1, h2⟩ := (ueDec_iff _ _ _).mp hu
      have hk := (seVal_iff w v).mp hv
      subst hk
      refine ⟨?_, ⟨r, h2⟩, ?_⟩
      · unfold seCode at h1; split at h1 <;> omega
      · rw [h2, lz_encUE, length_encUE]; congr 1; omega
  · rintro ⟨h1, ⟨r, hr⟩, rfl⟩
    have hu := (ueDec_iff b.rem (seCode v) r).mpr ⟨by unfold seCode; split <;> omega, hr⟩
    rw [hu]
    simp only [seVal_seCode]
    rw [hr, lz_encUE, length_encUE]
    congr 3; omega

/-- C06: no input makes `ReadSignedExponentialGolomb` overflow or fail an assertion. -/
theorem C06_readSE_total (nd : Bool) {b : Buf} (h : b.WF) : ∃ r b', b.readSE nd = .val (r, b') := by
  rw [Buf.readSE_eq nd h]
  cases ueDec b.rem <;> exact ⟨_, _, rfl⟩

example : ({ bytes := [0x28], byteOff := 0, bitOff := 0 } : Buf).readSE false =
    .val (some (-2), { bytes := [0x28], byteOff := 0, bitOff := 5 }) := by decide +kernel

end H264.Props

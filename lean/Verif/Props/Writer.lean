import Verif.Props.Reader
import Verif.Spec.NonSymmetric

/-
Properties C07-C10: the bit writer, and reading back what was written.
-/

namespace H264.Props
open H264

/-- C07: `WriteBits(val, n)` with `1 ≤ n ≤ 64` and room for `n` bits succeeds; the bits of the buffer are then the
old ones with the `n` bits at the position replaced by the `n` low bits of `val`, and the position is `n` further.
No byte outside the buffer is touched (no bad outcome, same length). -/
theorem C07_writeBits_exact_partial {b : Buf} (h : b.WF) (val n : Nat) (h1 : 1 ≤ n) (h64 : n ≤ 64)
    (hroom : b.pos + n ≤ 8 * b.bytes.length) :
    ∃ b', b.writeBits val n = .val (true, b') ∧
      allBits b'.bytes = (allBits b.bytes).take b.pos ++ encU n val ++ (allBits b.bytes).drop (b.pos + n) ∧
      b'.bytes.length = b.bytes.length ∧ b'.pos = b.pos + n ∧ b'.bitOff < 8 := by
  obtain ⟨b', e, h2, h3, h4, h5⟩ := Buf.writeBits_eq h val n h1 h64 (by have := h.inside; rw [Buf.length_rem]; omega)
  refine ⟨b', e, ?_, h3, by simpa using h4, h5.bit⟩
  rw [h2]; simp [ovw]

/-- C07: without room the call returns false and nothing changes, for any `n`. -/
theorem C07_writeBits_no_room {b : Buf} (h : b.WF) (val n : Nat) (hroom : 8 * b.bytes.length < b.pos + n) :
    b.writeBits val n = .val (false, b) :=
  Buf.writeBits_short h val n (by have := h.inside; rw [Buf.length_rem]; omega)

/-- C07 outside `1 ≤ n ≤ 64` is false: writing zero bits, which always fits, shifts a 64-bit value by 64. -/
theorem C07_writeBits_zero_is_ub {b : Buf} (h : b.WF) (val : Nat) : b.writeBits val 0 = .bad .shift := by
  unfold Buf.writeBits
  rw [Buf.remaining_eq h]; simp

/-- C07 outside `1 ≤ n ≤ 64`: so does writing more than 64 bits when they fit. -/
theorem C07_writeBits_wide_is_ub {b : Buf} (h : b.WF) (val n : Nat) (hn : 64 < n)
    (hroom : b.pos + n ≤ 8 * b.bytes.length) : b.writeBits val n = .bad .shift := by
  unfold Buf.writeBits
  rw [Buf.remaining_eq h, if_neg (by have := h.inside; rw [Buf.length_rem]; omega), if_pos (by omega)]

example : exBuf.writeBits 0x3FF 12 = .val (true, { bytes := [0x8F, 0xFF, 0x80], byteOff := 1, bitOff := 6 }) := by
  decide +kernel

/-- C08: `WriteExponentialGolomb(v)`, `v ≤ 2^32 - 2`, with room writes exactly the ue(v) codeword of `v`, and
`ReadExponentialGolomb` from the same place reads `v` back and stops where the writer stopped. -/
theorem C08_ue_write_read (nd : Bool) {b : Buf} (h : b.WF) {v : Nat} (hv : v ≤ 2 ^ 32 - 2)
    (hroom : b.pos + (encUE v).length ≤ 8 * b.bytes.length) :
    ∃ b', b.writeUE v = .val (true, b') ∧ b.Wrote b' (encUE v) ∧ (Buf.rewind b b').readUE nd = .val (some v, b') := by
  obtain ⟨b', e, hw⟩ := Buf.writeUE_ok h (v := v) (by omega) (by have := h.inside; rw [Buf.length_rem]; omega)
  obtain ⟨r1, r2, _⟩ := hw.rem h
  refine ⟨b', e, hw, ?_⟩
  rw [C04_readUE_exact nd r2]
  refine ⟨hv, ⟨_, r1⟩, ?_⟩
  apply Buf.ext_pos hw.2.2.2 (r2.adv (by rw [r1]; simp)) rfl
  rw [Buf.adv_pos]; exact hw.2.2.1

/-- C08: same for `WriteSignedExponentialGolomb(v)`, for every `int32_t` except `INT32_MIN`. -/
theorem C08_se_write_read (nd : Bool) {b : Buf} (h : b.WF) {v : Int} (h1 : -(2 ^ 31) < v) (h2 : v < 2 ^ 31)
    (hroom : b.pos + (encSE v).length ≤ 8 * b.bytes.length) :
    ∃ b', b.writeSE v = .val (true, b') ∧ b.Wrote b' (encSE v) ∧ (Buf.rewind b b').readSE nd = .val (some v, b') := by
  obtain ⟨e0, hs⟩ := Buf.writeSE_ue h1 h2 b
  obtain ⟨b', e, hw⟩ := Buf.writeUE_ok h (v := seCode v) hs (by rw [Buf.length_rem]; unfold encSE at hroom; omega)
  obtain ⟨r1, r2, _⟩ := hw.rem h
  refine ⟨b', by rw [e0, e], hw, ?_⟩
  rw [C06_readSE_exact nd r2]
  refine ⟨by omega, ⟨_, r1⟩, ?_⟩
  apply Buf.ext_pos hw.2.2.2 (r2.adv (by rw [r1]; simp [encSE])) rfl
  rw [Buf.adv_pos]; exact hw.2.2.1

/-- C08: `UINT32_MAX` and `INT32_MIN` are refused without touching the buffer. -/
theorem C08_refused (b : Buf) :
    b.writeUE (2 ^ 32 - 1) = .val (false, b) ∧ b.writeSE (-(2 ^ 31)) = .val (false, b) := by
  constructor
  · unfold Buf.writeUE; rw [if_pos rfl]; rfl
  · unfold Buf.writeSE; rw [if_neg (by omega), if_neg (by omega), if_pos rfl]; rfl

/-- C08: without room a Golomb write returns false and changes nothing. -/
theorem C08_no_room {b : Buf} (h : b.WF) :
    (∀ v, v ≤ 2 ^ 32 - 2 → 8 * b.bytes.length < b.pos + (encUE v).length → b.writeUE v = .val (false, b)) ∧
    (∀ v : Int, -(2 ^ 31) < v → v < 2 ^ 31 → 8 * b.bytes.length < b.pos + (encSE v).length →
      b.writeSE v = .val (false, b)) := by
  constructor
  · intro v hv hr
    exact Buf.writeUE_short h (by omega) (by have := h.inside; rw [Buf.length_rem]; omega)
  · intro v h1 h2 hr
    obtain ⟨e0, hs⟩ := Buf.writeSE_ue h1 h2 b
    rw [e0]
    exact Buf.writeUE_short h hs (by rw [Buf.length_rem]; have := h.inside; unfold encSE at hr; omega)

example : ({ bytes := [0, 0, 0xFF], byteOff := 0, bitOff := 3 } : Buf).writeSE (-9) =
    .val (true, { bytes := [0x01, 0x30, 0xFF], byteOff := 1, bitOff := 4 }) := by decide +kernel

theorem log2_pos_of_two_le {n : Nat} (h : 2 ≤ n) : 1 ≤ Nat.log2 n := by
  rw [Nat.le_log2 (by omega)]; omega

/-- C09 for `2 ≤ num_values < 2^31` (the property at `num_values = 1` and `2^31` is false, see below):
`WriteNonSymmetric` writes the truncated binary codeword, of `SizeNonSymmetricBits` bits, and `ReadNonSymmetric`
reads the value back, consuming exactly those bits. -/
theorem C09_nonSymmetric_write_read_partial {b : Buf} (h : b.WF) {nv v : Nat} (h2 : 2 ≤ nv) (h31 : nv < 2 ^ 31)
    (hv : v < nv) (hroom : b.pos + (encNS nv v).length ≤ 8 * b.bytes.length) :
    ∃ b', b.writeNonSymmetric v nv = .val (true, b') ∧ b.Wrote b' (encNS nv v) ∧
      Buf.sizeNonSymmetricBits v nv = .val (encNS nv v).length ∧
      (Buf.rewind b b').readNonSymmetric nv = .val (some v, b') := by
  obtain ⟨hc, hc32, hm, hk, ha, hb, hp⟩ := Buf.nonSym_parts (nv := nv) (by omega) h31
  have hk1 := log2_pos_of_two_le h2
  have hw : ∃ b', b.writeNonSymmetric v nv = .val (true, b') ∧ b.Wrote b' (encNS nv v) := by
    unfold Buf.writeNonSymmetric
    rw [show decide (v < nv) = true by simpa using hv, show decide (nv ≤ 2 ^ 31) = true by simp; omega]
    simp only [Res.check_true, Res.val_bind, hm, hk]
    rw [if_neg (by omega), hc]
    unfold encNS at hroom ⊢
    split
    · rename_i hlt
      rw [if_pos hlt] at hroom
      exact Buf.writeBits_eq h v _ hk1 (by omega) (by rw [Buf.length_rem]; simp at hroom; omega)
    · rename_i hlt
      rw [if_neg hlt] at hroom
      rw [add32_eq (by omega)]
      exact Buf.writeBits_eq h _ _ (by omega) (by omega) (by rw [Buf.length_rem]; simp at hroom; omega)
  obtain ⟨b', e, hw⟩ := hw
  refine ⟨b', e, hw, ?_, ?_⟩
  · unfold Buf.sizeNonSymmetricBits
    rw [show decide (v < nv) = true by simpa using hv, show decide (nv ≤ 2 ^ 31) = true by simp; omega]
    simp only [Res.check_true, Res.val_bind, hm, hk]
    rw [if_neg (by omega), hc]
    unfold encNS
    split <;> simp
  · obtain ⟨r1, r2, _⟩ := hw.rem h
    have hfin : ∀ n, n = (encNS nv v).length → (Buf.rewind b b').adv n = b' := by
      intro n hn
      have hwf : ((Buf.rewind b b').adv n).WF := r2.adv (by rw [r1, hn]; simp)
      apply Buf.ext_pos hwf hw.2.2.2 rfl
      rw [Buf.adv_pos, hn]; exact hw.2.2.1.symm
    rw [Buf.readNonSymmetric_eq r2 (by omega) h31]
    rw [r1]
    unfold encNS at hfin ⊢
    generalize hkk : Nat.log2 nv = k at *
    have h2k : 2 ^ (k + 1) = 2 * 2 ^ k := by rw [Nat.pow_succ]; omega
    by_cases hlt : v < 2 ^ (k + 1) - nv
    · simp only [if_pos hlt] at hfin ⊢
      rw [if_neg (by simp; omega)]
      rw [List.take_append_of_le_length (by simp), List.take_of_length_le (by simp), bitsVal_encU (by omega), if_pos hlt,
        hfin _ (by simp)]
    · simp only [if_neg hlt] at hfin ⊢
      rw [if_neg (by simp; omega)]
      rw [List.take_append_of_le_length (by simp), take_encU _ _ _ (by omega),
        bitsVal_encU (by rw [Nat.shiftRight_eq_div_pow, Nat.div_lt_iff_lt_mul (by simp)]
                         rw [show k + 1 - k = 1 by omega]; omega)]
      rw [if_neg (by rw [Nat.shiftRight_eq_div_pow, show k + 1 - k = 1 by omega]; omega), if_neg (by simp)]
      rw [List.take_append_of_le_length (by simp), List.take_of_length_le (by simp), bitsVal_encU (by omega),
        hfin _ (by simp)]
      congr 3; omega

/-- C09 fails at `num_values = 1`: nothing can be read (the code is empty, and a 0-bit read fails). -/
theorem C09_one_value_cannot_be_read {b : Buf} (h : b.WF) : b.readNonSymmetric 1 = .val (none, b) := by
  rw [Buf.readNonSymmetric_eq h (by omega) (by omega)]
  have : Nat.log2 1 = 0 := by decide
  rw [this]; simp

/-- C09 fails at `num_values = 1`: writing the only value shifts by 64. -/
theorem C09_one_value_cannot_be_written {b : Buf} (h : b.WF) : b.writeNonSymmetric 0 1 = .bad .shift := by
  have := C07_writeBits_zero_is_ub h 0
  obtain ⟨hc, hc32, hm, hk, ha, hb, hp⟩ := Buf.nonSym_parts (nv := 1) (by omega) (by omega)
  unfold Buf.writeNonSymmetric
  simp only [hm, hk]
  rw [hc]
  have hl : Nat.log2 1 = 0 := by decide
  rw [hl]
  simp [Res.check, this]

/-- C09 fails at `num_values = 2^31`, which the assertions allow: `uint32_t{1} << 32`. -/
theorem C09_max_values_is_ub (b : Buf) :
    b.readNonSymmetric (2 ^ 31) = .bad .shift ∧ b.writeNonSymmetric 0 (2 ^ 31) = .bad .shift := by
  have hc : countBits (2 ^ 31) = 32 := by decide +kernel
  constructor
  · unfold Buf.readNonSymmetric; rw [hc]; simp [Res.check]
  · unfold Buf.writeNonSymmetric; rw [hc]; simp [Res.check]

example : exBuf.writeNonSymmetric 4 5 = .val (true, { bytes := [0xBD, 0x0F, 0x80], byteOff := 0, bitOff := 5 }) := by
  decide +kernel

/-- A typed field of a message. -/
inductive Field where
  | u (n v : Nat) | ue (v : Nat) | se (v : Int)
  deriving DecidableEq, Repr

/-- The values each field type can carry. -/
def Field.valid : Field → Prop
  | .u n v => 1 ≤ n ∧ n ≤ 32 ∧ v < 2 ^ n
  | .ue v => v ≤ 2 ^ 32 - 2
  | .se v => -(2 ^ 31) < v ∧ v < 2 ^ 31

/-- Its codeword. -/
def Field.enc : Field → List Bool
  | .u n v => encU n v
  | .ue v => encUE v
  | .se v => encSE v

/-- Write one field with the writer call for its type. -/
def Field.write (b : Buf) : Field → Res (Bool × Buf)
  | .u n v => b.writeBits v n
  | .ue v => b.writeUE v
  | .se v => b.writeSE v

/-- Read one field of the same type (and width) as the given one. -/
def Field.readLike (nd : Bool) (b : Buf) : Field → Res (Option Field × Buf)
  | .u n _ => do let (r, b') ← b.readBits 32 n; pure (r.map (Field.u n), b')
  | .ue _ => do let (r, b') ← b.readUE nd; pure (r.map Field.ue, b')
  | .se _ => do let (r, b') ← b.readSE nd; pure (r.map Field.se, b')

/-- Write all fields in order, stopping at the first failure. -/
def writeAll : Buf → List Field → Res (Bool × Buf)
  | b, [] => pure (true, b)
  | b, f :: fs => do
    let (ok, b') ← f.write b
    if ok then writeAll b' fs else pure (false, b')

/-- Read fields of the given types in order, stopping at the first failure. -/
def readAll (nd : Bool) : Buf → List Field → Res (Option (List Field) × Buf)
  | b, [] => pure (some [], b)
  | b, f :: fs => do
    let (r, b') ← f.readLike nd b
    match r with
    | none => pure (none, b')
    | some x => do
      let (rs, b'') ← readAll nd b' fs
      pure (rs.map (x :: ·), b'')

theorem Field.write_ok {b : Buf} (h : b.WF) {f : Field} (hf : f.valid) (hr : f.enc.length ≤ b.rem.length) :
    ∃ b', f.write b = .val (true, b') ∧ b.Wrote b' f.enc := by
  cases f with
  | u n v =>
    obtain ⟨h1, h2, h3⟩ := hf
    exact Buf.writeBits_eq h v n h1 (by omega) (by simpa [Field.enc] using hr)
  | ue v => exact Buf.writeUE_ok h (by simp only [Field.valid] at hf; omega) hr
  | se v =>
    obtain ⟨e, hs⟩ := Buf.writeSE_ue hf.1 hf.2 b
    show ∃ b', b.writeSE v = _ ∧ _
    rw [e]
    exact Buf.writeUE_ok h hs hr

theorem Field.read_ok (nd : Bool) {b : Buf} (h : b.WF) {f : Field} (hf : f.valid) {r : List Bool}
    (hr : b.rem = f.enc ++ r) : f.readLike nd b = .val (some f, b.adv f.enc.length) := by
  cases f with
  | u n v =>
    obtain ⟨h1, h2, h3⟩ := hf
    simp only [Field.readLike, Field.enc] at *
    rw [Buf.readBits_eq h, if_neg (by rw [hr]; simp; omega), hr]
    rw [List.take_append_of_le_length (by simp), List.take_of_length_le (by simp), bitsVal_encU h3]
    simp
  | ue v =>
    have := (C04_readUE_exact nd h v _).mpr ⟨hf, ⟨r, hr⟩, rfl⟩
    simp only [Field.readLike]; rw [this]; rfl
  | se v =>
    simp only [Field.valid] at hf
    have := (C06_readSE_exact nd h v _).mpr ⟨by omega, ⟨r, hr⟩, rfl⟩
    simp only [Field.readLike]; rw [this]; rfl

theorem writeAll_ok (fs : List Field) {b : Buf} (h : b.WF) (hf : ∀ f ∈ fs, f.valid)
    (hr : (fs.flatMap Field.enc).length ≤ b.rem.length) :
    ∃ b', writeAll b fs = .val (true, b') ∧ b.Wrote b' (fs.flatMap Field.enc) := by
  induction fs generalizing b with
  | nil => exact ⟨b, rfl, by simp [ovw], rfl, by simp, h⟩
  | cons f fs ih =>
    simp only [List.flatMap_cons, List.length_append] at hr
    obtain ⟨b1, e1, w1⟩ := Field.write_ok h (hf f (by simp)) (by omega)
    obtain ⟨_, _, hrem⟩ := w1.rem h
    obtain ⟨b2, e2, w2⟩ := ih w1.2.2.2 (fun g hg => hf g (by simp [hg])) (by rw [hrem]; simp at hr ⊢; omega)
    refine ⟨b2, ?_, ?_, w2.2.1.trans w1.2.1, ?_, w2.2.2.2⟩
    · simp only [writeAll]; rw [e1]; exact e2
    · rw [w2.1, w1.1, w1.2.2.1, List.flatMap_cons]
      apply ovw_ovw
      have := Buf.length_rem b
      have := h.inside
      simp; omega
    · rw [w2.2.2.1, w1.2.2.1]; simp; omega

theorem readAll_ok (nd : Bool) (fs : List Field) {b : Buf} (h : b.WF) (hf : ∀ f ∈ fs, f.valid) {r : List Bool}
    (hr : b.rem = fs.flatMap Field.enc ++ r) :
    readAll nd b fs = .val (some fs, b.adv (fs.flatMap Field.enc).length) := by
  induction fs generalizing b with
  | nil => simp [readAll, h]
  | cons f fs ih =>
    rw [List.flatMap_cons, List.append_assoc] at hr
    simp only [readAll]
    rw [Field.read_ok nd h (hf f (by simp)) hr, Res.val_bind]
    simp only
    rw [ih (h.adv (by rw [hr]; simp)) (fun g hg => hf g (by simp [hg])) (by rw [Buf.rem_adv, hr]; simp), Buf.adv_adv]
    simp

/-- C10: any sequence of valid fields that fits is written completely, and reading the same field types from the
start gives the same values in order, ending where the writer ended. -/
theorem C10_message_round_trip (nd : Bool) (fs : List Field) {b : Buf} (h : b.WF) (hf : ∀ f ∈ fs, f.valid)
    (hroom : b.pos + (fs.flatMap Field.enc).length ≤ 8 * b.bytes.length) :
    ∃ b', writeAll b fs = .val (true, b') ∧ readAll nd (Buf.rewind b b') fs = .val (some fs, b') := by
  obtain ⟨b', e, w⟩ := writeAll_ok fs h hf (by have := h.inside; rw [Buf.length_rem]; omega)
  obtain ⟨r1, r2, _⟩ := w.rem h
  refine ⟨b', e, ?_⟩
  rw [readAll_ok nd fs r2 hf r1]
  congr 2
  apply Buf.ext_pos (r2.adv (by rw [r1]; simp)) w.2.2.2 rfl
  rw [Buf.adv_pos]; exact w.2.2.1.symm

example : ∀ f ∈ [Field.u 3 5, .ue 77, .se (-4), .u 32 0xDEADBEEF], f.valid := by
  intro f hf
  simp at hf
  rcases hf with rfl | rfl | rfl | rfl <;> simp [Field.valid]

end H264.Props

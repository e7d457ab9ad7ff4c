import Verif.ChecksumLemmas
import Verif.Spec.Bytes

/-
C19, C49: the NAL unit checksum.
-/

namespace H264.Props
open H264 Spec

/-- C19, value and position: on any reader, at any position (also inside a byte), GetNaluChecksum computes the checksum of the
whole unread bytes `bs` (fewer than 8 further bits, `t`, are ignored) with a sum of 64 bits, stores it big-endian in 4 bytes,
and leaves the reader exactly as it was. -/
theorem C19_checksum_exact (x : Buf) (hx : x.WF) (bs : List UInt8) (t : List Bool) (he : x.rem = allBits bs ++ t)
    (ht : t.length < 8) :
    ∃ ck, getNaluChecksum x = .val (ck, x) ∧ ck.length = 4 ∧ ck.checksum.length = 32 ∧
      ck.checksum.take ck.length = be 4 (checksum64 bs) := by
  have hrem : x.remaining = x.rem.length := Buf.remaining_eq hx
  have hrl : x.rem.length = 8 * bs.length + t.length := by rw [he, List.length_append, length_allBits]
  obtain ⟨x1, bs1, h1, h2, h3, h4, h5, h6⟩ := checksumWords_eq (bs.length / 4) bs t (x.remaining + 1) x 0 hx he ht rfl
    (by omega)
  obtain ⟨x2, g1, g2, g3⟩ := checksumTail_eq bs1 t x1 h2 h4 ht (by rw [h5, List.length_drop]; omega)
  rw [Nat.zero_add] at h1
  have hsum : (if bs1.length > 0 then add64 ((beWords (bs.take (4 * (bs.length / 4)))).sum % 2 ^ 64) (beWords bs1).sum
      else (beWords (bs.take (4 * (bs.length / 4)))).sum % 2 ^ 64) = (beWords bs).sum % 2 ^ 64 := by
    by_cases hb : bs1.length > 0
    · rw [if_pos hb, add64_mod, h6]
    · have : bs1 = [] := List.eq_nil_of_length_eq_zero (by omega)
      rw [if_neg hb, h6, this]; rfl
  have hck : checksumFold ((beWords bs).sum % 2 ^ 64) = checksum64 bs := by
    rw [checksumFold_eq _ (Nat.mod_lt _ (by decide)), checksum64_norm]
  refine ⟨{ checksum := be 4 (checksum64 bs) ++ List.replicate 28 0, length := 4 }, ?_, rfl, by simp [be], by simp [be]⟩
  unfold getNaluChecksum
  simp only [Buf.currentOffset]
  rw [h1, Res.val_bind, g1]
  simp only [Res.val_bind]
  rw [hsum, hck, Buf.seek_back hx (g3.trans h3)]
  simp only [Res.pure_eq, be]
  rw [show 256 ^ 3 = 2 ^ 24 from rfl, show 256 ^ 2 = 2 ^ 16 from rfl, show 256 ^ 1 = 2 ^ 8 from rfl, show 256 ^ 0 = 1 from rfl, Nat.div_one]

/-- C19 for the way ParseNalUnit calls it: on a fresh reader over the bytes of a NAL unit. -/
theorem C19_checksum_fresh (bs : List UInt8) (hlen : bs.length < 2 ^ 61) :
    ∃ ck, getNaluChecksum ⟨bs, 0, 0⟩ = .val (ck, ⟨bs, 0, 0⟩) ∧ ck.length = 4 ∧ ck.checksum.length = 32 ∧
      ck.checksum.take ck.length = be 4 (checksum64 bs) :=
  C19_checksum_exact _ ⟨hlen, by show 0 < 8; decide, by simp [Buf.pos]⟩ bs [] (by simp [Buf.rem, Buf.pos]) (by decide)

/-- C19, partial: for data of at most 16 GiB, or whenever the words add up to less than 2^64, that is the one's-complement sum.
Missing, because false: more data (see `C19_sum_overflows`). -/
theorem C19_checksum_partial (bs : List UInt8) (h : bs.length ≤ 2 ^ 34 ∨ (beWords bs).sum < 2 ^ 64) : checksum64 bs = checksum bs := by
  have hs : (beWords bs).sum < 2 ^ 64 := by
    rcases h with h | h
    · have : (beWords bs).sum ≤ 2 ^ 32 * (2 ^ 32 - 1) := beWords_sum_lt bs (2 ^ 32) (by omega)
      omega
    · exact h
  rw [checksum64_norm, checksum_norm, Nat.mod_eq_of_lt hs]

theorem beWords_replicate (n : Nat) : (beWords (List.replicate (4 * n) 255)).sum = n * (2 ^ 32 - 1) := by
  induction n with
  | zero => rfl
  | succ n ih =>
    rw [show 4 * (n + 1) = 4 * n + 1 + 1 + 1 + 1 by omega]
    simp only [List.replicate_succ, beWords_cons4, List.sum_cons, ih]
    have : word 255 255 255 255 = 2 ^ 32 - 1 := by decide
    rw [this]; omega

/-- C19 fails for 2^34 + 8 bytes 0xFF: the sum of the words does not fit into 64 bits, and 1 is computed instead of 0. -/
theorem C19_sum_overflows : checksum64 (List.replicate (4 * (2 ^ 32 + 2)) 255) = 1 ∧
    checksum (List.replicate (4 * (2 ^ 32 + 2)) 255) = 0 := by
  rw [checksum64_norm, checksum_norm, beWords_replicate]
  unfold onesNorm
  constructor <;> decide +kernel

/-- Any list of bits is some whole bytes and fewer than 8 further bits. -/
theorem bytes_of_bits : ∀ (n : Nat) (l : List Bool), l.length = n → ∃ bs t, l = allBits bs ++ t ∧ t.length < 8 ∧ bs.length = n / 8 := by
  intro n
  induction n using Nat.strongRecOn with
  | ind n ih =>
    intro l hl
    by_cases h : n < 8
    · exact ⟨[], l, by simp, by omega, by simp; omega⟩
    · obtain ⟨bs, t, h1, h2, h3⟩ := ih (n - 8) (by omega) (l.drop 8) (by simp; omega)
      have hv := bitsVal_lt (l.take 8)
      have ht : (l.take 8).length = 8 := by simp; omega
      rw [ht] at hv
      refine ⟨UInt8.ofNat (bitsVal (l.take 8)) :: bs, t, ?_, h2, by simp; omega⟩
      have e : (UInt8.ofNat (bitsVal (l.take 8))).toNat = bitsVal (l.take 8) := by simp; omega
      have e2 := encU_bitsVal (l.take 8)
      rw [ht] at e2
      rw [allBits_cons, e, e2, List.append_assoc, ← h1, List.take_append_drop]

/-- C19: whatever the data and position, the call ends normally and the read position is unchanged. -/
theorem C19_position_unchanged (x : Buf) (hx : x.WF) :
    ∃ ck, getNaluChecksum x = .val (ck, x) := by
  obtain ⟨bs, t, h1, h2, h3⟩ := bytes_of_bits _ x.rem rfl
  obtain ⟨ck, h, _⟩ := C19_checksum_exact x hx bs t h1 h2
  exact ⟨ck, h⟩

theorem beWords_set_zero (l : List UInt8) : ∀ (i : Nat) (y : UInt8) (h : i < l.length),
    (beWords (l.set i y)).sum + l[i].toNat * 256 ^ (3 - i % 4) = (beWords l).sum + y.toNat * 256 ^ (3 - i % 4) := by
  intro i y h
  match l, i, h with
  | [a], 0, _ => simp [beWords]; omega
  | [a, b], 0, _ => simp [beWords]; omega
  | [a, b], 1, _ => simp [beWords]; omega
  | [a, b, c], 0, _ => simp [beWords]; omega
  | [a, b, c], 1, _ => simp [beWords]; omega
  | [a, b, c], 2, _ => simp [beWords]; omega
  | a :: b :: c :: d :: r, 0, _ => simp [beWords]; omega
  | a :: b :: c :: d :: r, 1, _ => simp [beWords]; omega
  | a :: b :: c :: d :: r, 2, _ => simp [beWords]; omega
  | a :: b :: c :: d :: r, 3, _ => simp [beWords]; omega
  | a :: b :: c :: d :: r, i + 4, h =>
    have := beWords_set_zero r i y (by simpa using h)
    simp only [List.set_cons_succ, beWords_cons4, List.sum_cons, List.getElem_cons_succ, Nat.add_mod_right]
    omega

/-- C19: changing any one byte of a NAL unit changes its one's-complement sum, and what is computed (also when the sum does not
fit into 64 bits). -/
theorem C19_byte_change (bs : List UInt8) (i : Nat) (y : UInt8) (h : i < bs.length) (hy : y ≠ bs[i]) :
    checksum (bs.set i y) ≠ checksum bs ∧ checksum64 (bs.set i y) ≠ checksum64 bs := by
  have hn : ∀ s, onesNorm s ≤ 2 ^ 32 - 1 := fun s => by
    unfold onesNorm
    split
    · omega
    · have := Nat.mod_lt (s - 1) (y := 2 ^ 32 - 1) (by omega); omega
  rw [checksum_norm, checksum_norm, checksum64_norm, checksum64_norm]
  have h1 := hn (beWords bs).sum
  have h2 := hn (beWords (bs.set i y)).sum
  have h3 := hn ((beWords bs).sum % 2 ^ 64)
  have h4 := hn ((beWords (bs.set i y)).sum % 2 ^ 64)
  have hne : y.toNat ≠ bs[i].toNat := fun e => hy (UInt8.toNat_inj.mp e)
  have hset := beWords_set_zero bs i y h
  have ha := bs[i].toNat_lt
  have hb := y.toNat_lt
  suffices h : onesNorm (beWords (bs.set i y)).sum ≠ onesNorm (beWords bs).sum ∧
      onesNorm ((beWords (bs.set i y)).sum % 2 ^ 64) ≠ onesNorm ((beWords bs).sum % 2 ^ 64) by
    exact ⟨by omega, by omega⟩
  clear h1 h2 h3 h4
  generalize (beWords bs).sum = s at *
  generalize (beWords (bs.set i y)).sum = s' at *
  generalize bs[i].toNat = a at *
  generalize y.toNat = b at *
  -- the sums differ by less than 2^32 - 1
  have key : ∀ s s' : Nat, s < s' → s' - s < 2 ^ 32 - 1 → onesNorm s' ≠ onesNorm s := by
    intro s s' h1 h2 h3
    unfold onesNorm at h3
    by_cases h0 : s = 0
    · rw [if_neg (by omega), if_pos h0] at h3; omega
    · rw [if_neg (by omega), if_neg h0] at h3
      have e : (s - 1) % (2 ^ 32 - 1) = (s' - 1) % (2 ^ 32 - 1) := by omega
      have := Nat.sub_mod_eq_zero_of_mod_eq e.symm
      rw [Nat.mod_eq_of_lt (by omega)] at this
      omega
  have key64 : ∀ s s' : Nat, s < s' → s' - s < 2 ^ 32 - 1 → onesNorm (s' % 2 ^ 64) ≠ onesNorm (s % 2 ^ 64) := by
    intro s s' h1 h2
    by_cases hw : s % 2 ^ 64 + (s' - s) < 2 ^ 64
    · have e : s' % 2 ^ 64 = s % 2 ^ 64 + (s' - s) := by omega
      exact key _ _ (by omega) (by omega)
    · have e : s' % 2 ^ 64 + 2 ^ 64 = s % 2 ^ 64 + (s' - s) := by omega
      have hlt : s % 2 ^ 64 < 2 ^ 64 := Nat.mod_lt _ (by decide)
      generalize s % 2 ^ 64 = t at *
      generalize s' % 2 ^ 64 = t' at *
      intro h3
      unfold onesNorm at h3
      by_cases h0 : t' = 0
      · rw [if_pos h0, if_neg (by omega)] at h3; omega
      · rw [if_neg h0, if_neg (by omega)] at h3; omega
  have hp : 256 ^ (3 - i % 4) = 1 ∨ 256 ^ (3 - i % 4) = 256 ∨ 256 ^ (3 - i % 4) = 65536 ∨ 256 ^ (3 - i % 4) = 16777216 := by
    have : i % 4 < 4 := Nat.mod_lt _ (by decide)
    rcases (show i % 4 = 0 ∨ i % 4 = 1 ∨ i % 4 = 2 ∨ i % 4 = 3 by omega) with e | e | e | e <;> rw [e] <;> simp
  generalize 256 ^ (3 - i % 4) = p at *
  rcases Nat.lt_or_gt_of_ne hne with hlt | hlt
  · have hd : s' < s ∧ s - s' < 2 ^ 32 - 1 := by rcases hp with rfl | rfl | rfl | rfl <;> omega
    exact ⟨(key s' s hd.1 hd.2).symm, (key64 s' s hd.1 hd.2).symm⟩
  · have hd : s < s' ∧ s' - s < 2 ^ 32 - 1 := by rcases hp with rfl | rfl | rfl | rfl <;> omega
    exact ⟨key s s' hd.1 hd.2, key64 s s' hd.1 hd.2⟩

/-- The NAL unit with bit `k` (0 = least significant) of byte `i` inverted. -/
def flipBit (bs : List UInt8) (i k : Nat) : List UInt8 := bs.modify i (fun b => b ^^^ UInt8.ofNat (2 ^ k))

/-- C19: inverting any one bit of a NAL unit changes its checksum. -/
theorem C19_bit_flip (bs : List UInt8) (i k : Nat) (h : i < bs.length) (hk : k < 8) :
    checksum (flipBit bs i k) ≠ checksum bs ∧ checksum64 (flipBit bs i k) ≠ checksum64 bs := by
  have hne : bs[i] ^^^ UInt8.ofNat (2 ^ k) ≠ bs[i] := by
    intro e
    have h0 : UInt8.ofNat (2 ^ k) = 0 := by
      have := congrArg (bs[i] ^^^ ·) e
      simpa [← UInt8.xor_assoc] using this
    have : ∀ k < 8, UInt8.ofNat (2 ^ k) ≠ 0 := by decide
    exact this k hk h0
  have : flipBit bs i k = bs.set i (bs[i] ^^^ UInt8.ofNat (2 ^ k)) := by
    rw [flipBit]
    apply List.ext_getElem?
    intro j
    rw [List.getElem?_modify, List.getElem?_set]
    by_cases e : i = j
    · subst e; rw [if_pos rfl, if_pos h, List.getElem?_eq_getElem h]; simp
    · rw [if_neg e]; simp [e]
  rw [this]
  exact C19_byte_change bs i _ h hne

/-- C49: the printable form of a checksum that GetNaluChecksum computed is its value as 8 lower-case hexadecimal digits, and
computing it stays inside the character buffer. -/
theorem C49_printable (bs : List UInt8) (hlen : bs.length < 2 ^ 61) :
    ∃ ck, getNaluChecksum ⟨bs, 0, 0⟩ = .val (ck, ⟨bs, 0, 0⟩) ∧
      printableChecksum ck = .val ((hex8 (checksum64 bs)).map fun c => UInt8.ofNat c.toNat) := by
  obtain ⟨ck, h1, h2, h3, h4⟩ := C19_checksum_fresh bs hlen
  refine ⟨ck, h1, ?_⟩
  have hlt : checksum64 bs < 2 ^ 32 := by rw [checksum64_norm]; omega
  generalize checksum64 bs = v at *
  obtain ⟨l, n⟩ := ck
  simp only at h2 h3 h4
  subst h2
  obtain ⟨r, rfl⟩ : ∃ r, l = be 4 v ++ r := ⟨l.drop 4, by rw [← h4, List.take_append_drop]⟩
  have hd : ∀ n < 16, UInt8.ofNat (hexDigit n) = UInt8.ofNat (Nat.digitChar n).toNat ∧ UInt8.ofNat (hexDigit n) ≠ 0 := by decide
  have e : ∀ w, (UInt8.ofNat w).toNat / 16 = w / 16 % 16 ∧ (UInt8.ofNat w).toNat % 16 = w % 16 := by
    intro w; simp only [UInt8.toNat_ofNat']; omega
  have key : ∀ c0 c1 c2 c3 c4 c5 c6 c7 : UInt8, c0 ≠ 0 → c1 ≠ 0 → c2 ≠ 0 → c3 ≠ 0 → c4 ≠ 0 → c5 ≠ 0 → c6 ≠ 0 → c7 ≠ 0 →
      cString ([c0, c1, c2, c3, c4, c5, c6, c7] ++ List.replicate 57 0) = .val [c0, c1, c2, c3, c4, c5, c6, c7] := by
    intro c0 c1 c2 c3 c4 c5 c6 c7 h0 h1 h2 h3 h4 h5 h6 h7
    simp [cString, List.replicate, h0, h1, h2, h3, h4, h5, h6, h7]
  have dump : checksumDump ⟨be 4 v ++ r, 4⟩ 65 4 0 0 (List.replicate 65 0) = .val
      ([UInt8.ofNat (hexDigit (v / 256 ^ 3 / 16 % 16)), UInt8.ofNat (hexDigit (v / 256 ^ 3 % 16)),
        UInt8.ofNat (hexDigit (v / 256 ^ 2 / 16 % 16)), UInt8.ofNat (hexDigit (v / 256 ^ 2 % 16)),
        UInt8.ofNat (hexDigit (v / 256 ^ 1 / 16 % 16)), UInt8.ofNat (hexDigit (v / 256 ^ 1 % 16)),
        UInt8.ofNat (hexDigit (v / 256 ^ 0 / 16 % 16)), UInt8.ofNat (hexDigit (v / 256 ^ 0 % 16))] ++ List.replicate 57 0) := by
    simp only [checksumDump, be, load, store, List.replicate, List.cons_append, List.nil_append, List.getElem?_cons_zero,
      List.getElem?_cons_succ, Res.val_bind, e]
    simp [List.set]
  unfold printableChecksum
  rw [dump, Res.val_bind, key]
  · simp only [hex8, List.range, List.range.loop, List.map_cons, List.map_nil]
    rw [(hd _ (by omega)).1, (hd _ (by omega)).1, (hd _ (by omega)).1, (hd _ (by omega)).1, (hd _ (by omega)).1, (hd _ (by omega)).1,
      (hd _ (by omega)).1, (hd _ (by omega)).1]
    simp only [Nat.div_div_eq_div_mul]
  all_goals exact (hd _ (by omega)).2

/-- The sum of 3 words (the last one padded) with a carry, checked on the machine model. -/
example : getNaluChecksum ⟨[0xff, 0xff, 0xff, 0xff, 0, 0, 0, 2, 0x68], 0, 0⟩ =
    .val (⟨[0x97, 0xff, 0xff, 0xfd] ++ List.replicate 28 0, 4⟩, ⟨[0xff, 0xff, 0xff, 0xff, 0, 0, 0, 2, 0x68], 0, 0⟩) := by decide +kernel
/-- Hypotheses of C19_checksum_exact at an unaligned position. -/
example : ∃ ck, getNaluChecksum ⟨[0xab, 0xcd, 0xef], 0, 4⟩ = .val (ck, ⟨[0xab, 0xcd, 0xef], 0, 4⟩) ∧ ck.length = 4 ∧
    ck.checksum.length = 32 ∧ ck.checksum.take ck.length = be 4 (checksum64 [0xbc, 0xde]) :=
  C19_checksum_exact _ ⟨by decide, by decide, by decide⟩ _ [true, true, true, true] (by decide) (by decide)
example : checksum [0x67, 0x42, 0, 0x0a] = 0x98bdfff5 := by decide
example : hex8 0x98bdfff5 = "98bdfff5".toList := by decide +kernel

end H264.Props

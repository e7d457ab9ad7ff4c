import Verif.BitWriter
import Verif.Golomb

/-
Helper lemmas: the machine-level writer refines overwriting a segment of a bit list.
-/

namespace H264

theorem length_ovw {l : List Bool} {p : Nat} {s : List Bool} (h : p + s.length ≤ l.length) :
    (ovw l p s).length = l.length := by
  simp [ovw]; omega

theorem ovw_ovw {l : List Bool} {p : Nat} {s t : List Bool} (h : p + s.length ≤ l.length) :
    ovw (ovw l p s) (p + s.length) t = ovw l p (s ++ t) := by
  have hp : (l.take p).length = p := by simp; omega
  unfold ovw
  have e1 : (l.take p ++ s ++ l.drop (p + s.length)).take (p + s.length) = l.take p ++ s := by
    rw [List.take_append_of_le_length (by simp; omega), List.take_of_length_le (by simp; omega)]
  have e2 : (l.take p ++ s ++ l.drop (p + s.length)).drop (p + s.length + t.length) =
      l.drop (p + (s ++ t).length) := by
    rw [List.drop_append, List.drop_eq_nil_of_le (by simp; omega), List.drop_drop]
    simp only [List.nil_append, List.length_append]
    congr 1
    rw [hp]; omega
  rw [e1, e2]; simp

theorem getElem_encU (n v i : Nat) (h : i < (encU n v).length) : (encU n v)[i] = v.testBit (n - 1 - i) := by
  induction n generalizing i with
  | zero => simp at h
  | succ n ih =>
    cases i with
    | zero => simp
    | succ i =>
      simp only [encU_succ, List.getElem_cons_succ]
      rw [ih]; congr 1; omega

theorem encU_zero_val (n : Nat) : encU n 0 = List.replicate n false := by
  induction n with
  | zero => rfl
  | succ n ih => simp [List.replicate_succ, ih]

theorem encU_shl (n k v : Nat) (h : k ≤ n) :
    encU n ((v <<< k) % 2 ^ n) = (encU n v).drop k ++ List.replicate k false := by
  apply List.ext_getElem
  · simp; omega
  · intro i h1 h2
    rw [getElem_encU, List.getElem_append]
    simp only [length_encU] at h1
    rw [Nat.testBit_mod_two_pow, Nat.testBit_shiftLeft]
    split
    · rename_i h3
      simp at h3
      rw [List.getElem_drop, getElem_encU]
      simp only [show n - 1 - i < n by omega, decide_true, Bool.true_and,
        show n - 1 - i ≥ k by omega]
      congr 1; omega
    · rename_i h3
      simp at h3
      simp; omega

theorem encU_shl_wide (n w v : Nat) (h : n ≤ w) :
    encU w ((v <<< (w - n)) % 2 ^ w) = encU n v ++ List.replicate (w - n) false := by
  rw [encU_shl _ _ _ (by omega), drop_encU _ _ _ (by omega)]
  congr 2; omega

theorem encU_highestByte (v : Nat) : encU 8 (highestByte v) = (encU 64 v).take 8 := by
  rw [take_encU _ _ _ (by omega)]
  unfold highestByte
  have := encU_mod 8 8 (v >>> 56) (Nat.le_refl _)
  simpa using this

theorem highestByte_lt (v : Nat) : highestByte v < 256 := Nat.mod_lt _ (by omega)

theorem testBit_mask (c off j : Nat) (hc : c ≤ 8) (h : off + c ≤ 8) :
    ((((0xFF <<< (8 - c)) % 256) >>> off)).testBit j = decide (8 - off - c ≤ j ∧ j < 8 - off) := by
  have : off < 9 := by omega
  have : c < 9 := by omega
  rw [Nat.testBit_shiftRight, show (256 : Nat) = 2 ^ 8 by rfl, Nat.testBit_mod_two_pow,
    Nat.testBit_shiftLeft, show (0xFF : Nat) = 2 ^ 8 - 1 by rfl, Nat.testBit_two_pow_sub_one]
  rw [Bool.eq_iff_iff]
  simp only [Bool.and_eq_true, decide_eq_true_eq]
  omega

theorem writePartialByte_eq {src c tgt off : Nat} {s : List Bool} (hs : src < 256) (ht : tgt < 256)
    (hoff : off < 8) (hc : off + c ≤ 8) (hsl : s.length = c)
    (hbits : off + c = 8 ∧ s = (encU 8 src).take c ∨ encU 8 src = s ++ List.replicate (8 - c) false) :
    ∃ y, writePartialByte src c tgt off = .val y ∧ y < 256 ∧ encU 8 y = ovw (encU 8 tgt) off s := by
  unfold writePartialByte
  rw [show decide (off < 8) = true by simpa using hoff, show decide (c < 9) = true by simp; omega,
    show decide (c ≤ 8 - off) = true by simp; omega]
  simp only [Res.check_true, Res.val_bind, Res.pure_eq]
  refine ⟨_, rfl, ?_, ?_⟩
  · rw [show 256 = 2 ^ 8 by rfl]
    apply Nat.or_lt_two_pow
    · exact Nat.lt_of_le_of_lt Nat.and_le_left ht
    · exact Nat.lt_of_le_of_lt (Nat.shiftRight_le _ _) hs
  · have hsrc : ∀ i, (h : i < 8) → src.testBit (7 - i) = (encU 8 src)[i]'(by simpa using h) := by
      intro i h; rw [getElem_encU]
    have hhigh : ∀ j, 8 ≤ j → src.testBit j = false := fun j hj =>
      Nat.testBit_lt_two_pow (Nat.lt_of_lt_of_le hs (by
        rw [show 256 = 2 ^ 8 by rfl]; exact Nat.pow_le_pow_right (by omega) hj))
    apply List.ext_getElem
    · rw [length_ovw]; simp; simp; omega
    · intro i h1 h2
      simp only [length_encU] at h1
      rw [getElem_encU, Nat.testBit_or, Nat.testBit_and, Nat.testBit_xor, testBit_mask _ _ _ (by omega) hc,
        Nat.testBit_shiftRight, show (0xFF : Nat) = 2 ^ 8 - 1 by rfl, Nat.testBit_two_pow_sub_one]
      have hd8 : decide (8 - 1 - i < 8) = true := by rw [decide_eq_true_eq]; omega
      simp only [ovw, hd8]
      rw [List.getElem_append]
      split
      · rename_i h3
        simp [hsl] at h3
        rw [List.getElem_append]
        split
        · rename_i h4
          simp at h4
          simp only [List.getElem_take, getElem_encU]
          rw [hhigh _ (by omega), show decide (8 - off - c ≤ 8 - 1 - i ∧ 8 - 1 - i < 8 - off) = false by
            rw [decide_eq_false_iff_not]; omega]
          simp
        · rename_i h4
          simp at h4
          simp only [List.length_take, length_encU]
          have e5 : min off 8 = off := by omega
          simp only [e5]
          have : src.testBit (off + (8 - 1 - i)) = s[i - off]'(by omega) := by
            rw [show off + (8 - 1 - i) = 7 - (i - off) by omega, hsrc _ (by omega)]
            rcases hbits with ⟨_, hb⟩ | hb
            · simp [hb]
            · simp only [hb]
              rw [List.getElem_append_left]
          rw [this, show decide (8 - off - c ≤ 8 - 1 - i ∧ 8 - 1 - i < 8 - off) = true by
            rw [decide_eq_true_eq]; omega]
          simp
      · rename_i h3
        simp [hsl] at h3
        simp only [List.getElem_drop, getElem_encU]
        have hz : src.testBit (off + (8 - 1 - i)) = false := by
          rw [show off + (8 - 1 - i) = 7 - (i - off) by omega, hsrc _ (by omega)]
          rcases hbits with ⟨h8, _⟩ | hb
          · omega
          · simp only [hb]
            rw [List.getElem_append_right (by omega)]
            simp
        rw [hz]
        have e6 : 8 - 1 - (off + s.length + (i - (List.take off (encU 8 tgt) ++ s).length)) = 8 - 1 - i := by
          simp; omega
        rw [e6, show decide (8 - off - c ≤ 8 - 1 - i ∧ 8 - 1 - i < 8 - off) = false by
            rw [decide_eq_false_iff_not]; omega]
        simp

theorem allBits_set (bs : List UInt8) (i : Nat) (h : i < bs.length) (y off : Nat) (hy : y < 256) (s : List Bool)
    (hs : off + s.length ≤ 8) (he : encU 8 y = ovw (encU 8 (bs[i]).toNat) off s) :
    allBits (bs.set i (UInt8.ofNat y)) = ovw (allBits bs) (8 * i + off) s := by
  induction bs generalizing i with
  | nil => simp at h
  | cons x xs ih =>
    cases i with
    | zero =>
      simp only [List.set_cons_zero, allBits_cons, List.getElem_cons_zero] at *
      rw [show (UInt8.ofNat y).toNat = y by simp; omega, he]
      unfold ovw
      rw [List.take_append_of_le_length (by simp; omega), List.drop_append_of_le_length (by simp; omega)]
      simp
    | succ i =>
      simp only [List.set_cons_succ, allBits_cons, List.getElem_cons_succ] at *
      rw [ih i (by simpa using h) he]
      unfold ovw
      rw [List.take_append, List.take_of_length_le (l := encU 8 x.toNat) (by simp; omega),
        List.drop_append, List.drop_eq_nil_of_le (as := encU 8 x.toNat) (by simp; omega)]
      simp only [length_encU, List.append_assoc, List.nil_append]
      congr 3
      · omega
      · congr 1; omega

namespace Buf

theorem writeLoop_eq (f : Nat) (bs : List UInt8) (i v bc : Nat) (hv : v < 2 ^ 64) (s : List Bool)
    (hf : bc < f) (hs : s.length = bc) (hbc : bc ≤ 64)
    (hval : encU 64 v = s ++ List.replicate (64 - bc) false) (hroom : 8 * i + bc ≤ 8 * bs.length) :
    ∃ bs' v', writeLoop f bs i v bc = .val (bs', i + bc / 8, v', bc % 8) ∧ bs'.length = bs.length ∧ v' < 2 ^ 64 ∧
      encU 64 v' = s.drop (8 * (bc / 8)) ++ List.replicate (64 - bc % 8) false ∧
      allBits bs' = ovw (allBits bs) (8 * i) (s.take (8 * (bc / 8))) := by
  induction f generalizing bs i v bc s with
  | zero => omega
  | succ f ih =>
    rw [writeLoop]
    by_cases h8 : bc < 8
    · rw [if_pos h8]
      refine ⟨bs, v, ?_, rfl, hv, ?_, ?_⟩
      · rw [show bc / 8 = 0 by omega, show bc % 8 = bc by omega]; simp
      · rw [show bc / 8 = 0 by omega, show bc % 8 = bc by omega]; simpa using hval
      · rw [show bc / 8 = 0 by omega]; simp [ovw]
    · rw [if_neg h8]
      have hi : i < bs.length := by omega
      unfold store
      rw [if_pos hi, Res.val_bind]
      have hb : encU 8 (highestByte v) = s.take 8 := by
        rw [encU_highestByte, hval, List.take_append_of_le_length (by omega)]
      obtain ⟨bs', v', h1, h2, h3, h4, h5⟩ := ih (bs.set i (UInt8.ofNat (highestByte v))) (i + 1) ((v <<< 8) % 2 ^ 64) (bc - 8)
        (Nat.mod_lt _ (by omega)) (s.drop 8) (by omega) (by simp; omega) (by omega)
        (by rw [encU_shl _ _ _ (by omega), hval, List.drop_append_of_le_length (by omega), List.append_assoc,
              List.replicate_append_replicate]
            congr 2; omega) (by simp; omega)
      refine ⟨bs', v', ?_, ?_, h3, ?_, ?_⟩
      · rw [h1]
        congr 3
        · omega
        · congr 1; omega
      · simpa using h2
      · rw [h4, List.drop_drop]
        congr 2
        · omega
        · omega
      · rw [h5]
        rw [allBits_set bs i hi (highestByte v) 0 (highestByte_lt v) (s.take 8) (by simp; omega)
          (by rw [hb]; simp [ovw]; omega)]
        have e1 : (s.take 8).length = 8 := by simp; omega
        have := ovw_ovw (l := allBits bs) (p := 8 * i + 0) (s := s.take 8)
          (t := (s.drop 8).take (8 * ((bc - 8) / 8))) (by rw [e1]; simp; omega)
        rw [e1] at this
        rw [show 8 * (i + 1) = 8 * i + 0 + 8 by omega, this]
        congr 1
        rw [show 8 * (bc / 8) = 8 + 8 * ((bc - 8) / 8) by omega, List.take_add]

theorem finish {b : Buf} (h : b.WF) {n : Nat} (hn : n ≤ b.rem.length) {bs : List UInt8}
    (hl : bs.length = b.bytes.length) {s : List Bool} (hs : s.length = n)
    (hb : allBits bs = ovw (allBits b.bytes) b.pos s) :
    ∃ b', ({ b with bytes := bs } : Buf).consumeBits n = (true, b') ∧ b.Wrote b' s := by
  have hw : ({ b with bytes := bs } : Buf).WF := by
    refine ⟨by simpa [hl] using h.size, h.bit, ?_⟩
    have := h.inside
    simpa [pos, hl] using this
  have hr : ({ b with bytes := bs } : Buf).rem.length = b.rem.length := by
    rw [length_rem, length_rem]; simp [pos, hl]
  rw [consumeBits_eq hw, if_pos (by omega)]
  refine ⟨_, rfl, ?_, ?_, ?_, hw.adv (by omega)⟩
  · simpa using hb
  · simpa using hl
  · rw [adv_pos, hs]; rfl

theorem writeBits_eq {b : Buf} (h : b.WF) (val n : Nat) (h1 : 1 ≤ n) (h64 : n ≤ 64) (hn : n ≤ b.rem.length) :
    ∃ b', b.writeBits val n = .val (true, b') ∧ b.Wrote b' (encU n val) := by
  have hin := h.inside; have hbit := h.bit
  have hlen := length_rem b
  rw [hlen] at hn
  have hpos : b.pos = 8 * b.byteOff + b.bitOff := rfl
  have hoff : b.byteOff < b.bytes.length := by omega
  unfold writeBits
  rw [remaining_eq h, if_neg (by omega), if_neg (by omega), load_eq hoff]
  simp only [Res.val_bind]
  have hw := encU_shl_wide n 64 val h64
  have hv64 : (val <<< (64 - n)) % 2 ^ 64 < 2 ^ 64 := Nat.mod_lt _ (Nat.two_pow_pos _)
  generalize (val <<< (64 - n)) % 2 ^ 64 = v at hw hv64
  by_cases hfit : n ≤ 8 - b.bitOff
  · -- one byte
    rw [Nat.min_eq_left hfit]
    obtain ⟨y, hy1, hy2, hy3⟩ := writePartialByte_eq (src := highestByte v) (c := n) (off := b.bitOff)
      (s := encU n val) (highestByte_lt v) (UInt8.toNat_lt _) hbit (by omega) (by simp)
      (Or.inr (by
        rw [encU_highestByte, hw, List.take_append, List.take_of_length_le (l := encU n val) (by simp; omega)]
        simp; omega))
    rw [hy1, Res.val_bind]
    unfold store
    rw [if_pos hoff, Res.val_bind, if_pos hfit, Res.pure_eq]
    obtain ⟨b', e1, e2⟩ := finish h (n := n) (bs := b.bytes.set b.byteOff (UInt8.ofNat y)) (by omega) (by simp)
      (s := encU n val) (by simp)
      (by rw [hpos]; exact allBits_set _ _ hoff _ _ hy2 _ (by simp; omega) hy3)
    exact ⟨b', by rw [e1], e2⟩
  · rw [Nat.min_eq_right (by omega)]
    have ht : (encU n val).take (8 - b.bitOff) = (encU 8 (highestByte v)).take (8 - b.bitOff) := by
      rw [encU_highestByte, List.take_take, hw, List.take_append_of_le_length (by simp; omega)]
      congr 1; omega
    obtain ⟨y, hy1, hy2, hy3⟩ := writePartialByte_eq (src := highestByte v) (c := 8 - b.bitOff) (off := b.bitOff)
      (s := (encU n val).take (8 - b.bitOff)) (highestByte_lt v) (UInt8.toNat_lt _) hbit (by omega) (by simp; omega)
      (Or.inl ⟨by omega, ht⟩)
    rw [hy1, Res.val_bind]
    have hset := allBits_set _ _ hoff _ _ hy2 _ (by simp; omega) hy3
    unfold store
    rw [if_pos hoff, Res.val_bind, if_neg hfit]
    have e0 : (8 - b.bitOff) ≤ n := by omega
    have htl : ((encU n val).take (8 - b.bitOff)).length = 8 - b.bitOff := by simp; omega
    obtain ⟨bs', v', l1, l2, l3, l4, l5⟩ := writeLoop_eq (n + 1) (b.bytes.set b.byteOff (UInt8.ofNat y)) (b.byteOff + 1)
      ((v <<< (8 - b.bitOff)) % 2 ^ 64) (n - (8 - b.bitOff)) (Nat.mod_lt _ (Nat.two_pow_pos _))
      ((encU n val).drop (8 - b.bitOff)) (by omega) (by simp) (by omega)
      (by rw [encU_shl _ _ _ (by omega), hw, List.drop_append_of_le_length (by simp; omega), List.append_assoc,
            List.replicate_append_replicate]
          congr 2; omega)
      (by simp; omega)
    rw [l1]
    simp only [Res.val_bind]
    rw [hset] at l5
    have l5' : allBits bs' = ovw (allBits b.bytes) b.pos ((encU n val).take (8 - b.bitOff + 8 * ((n - (8 - b.bitOff)) / 8))) := by
      rw [l5, List.take_add, ← ovw_ovw (by simp; omega), htl, hpos]
      congr 1; omega
    generalize hbc : n - (8 - b.bitOff) = bc at *
    by_cases h0 : bc % 8 > 0
    · rw [if_pos h0]
      have hi : b.byteOff + 1 + bc / 8 < bs'.length := by rw [l2]; simp; omega
      rw [load_eq hi]
      simp only [Res.val_bind]
      obtain ⟨y2, hz1, hz2, hz3⟩ := writePartialByte_eq (src := highestByte v') (c := bc % 8) (off := 0)
        (s := ((encU n val).drop (8 - b.bitOff)).drop (8 * (bc / 8))) (highestByte_lt v')
        (UInt8.toNat_lt _) (by omega) (by omega) (by simp; omega)
        (Or.inr (by
          rw [encU_highestByte, l4, List.take_append, List.take_of_length_le (by simp; omega)]
          congr 1
          simp; omega))
      rw [hz1, Res.val_bind, if_pos hi, Res.val_bind, Res.pure_eq]
      obtain ⟨b', e1, e2⟩ := finish h (n := n) (bs := bs'.set (b.byteOff + 1 + bc / 8) (UInt8.ofNat y2)) (by omega)
        (by simpa using l2) (s := encU n val) (by simp)
        (by
          rw [allBits_set _ _ hi _ _ hz2 _ (by simp; omega) hz3, l5']
          have hk : ((encU n val).take (8 - b.bitOff + 8 * (bc / 8))).length = 8 - b.bitOff + 8 * (bc / 8) := by
            simp; omega
          have := ovw_ovw (l := allBits b.bytes) (p := b.pos) (s := (encU n val).take (8 - b.bitOff + 8 * (bc / 8)))
            (t := ((encU n val).drop (8 - b.bitOff)).drop (8 * (bc / 8))) (by rw [hk]; simp; omega)
          rw [hk] at this
          rw [show 8 * (b.byteOff + 1 + bc / 8) + 0 = b.pos + (8 - b.bitOff + 8 * (bc / 8)) by omega, this]
          rw [List.drop_drop, List.take_append_drop])
      exact ⟨b', by rw [e1], e2⟩
    · rw [if_neg h0, Res.pure_eq]
      obtain ⟨b', e1, e2⟩ := finish h (n := n) (bs := bs') (by omega)
        (by simpa using l2) (s := encU n val) (by simp)
        (by
          rw [l5', List.take_of_length_le (by simp; omega)])
      exact ⟨b', by rw [e1], e2⟩

theorem countBitsLoop_eq (f v c : Nat) (h : v < 2 ^ f) :
    countBitsLoop f v c = c + if v = 0 then 0 else Nat.log2 v + 1 := by
  induction f generalizing v c with
  | zero => simp at h; simp [countBitsLoop, h]
  | succ f ih =>
    rw [countBitsLoop]
    by_cases h0 : v = 0
    · simp [h0]
    · rw [if_neg h0, if_neg h0, Nat.shiftRight_eq_div_pow, Nat.pow_one, ih _ _ (by rw [Nat.pow_succ] at h; omega)]
      rw [Nat.log2_def v]
      by_cases h2 : v / 2 = 0
      · rw [if_pos h2, if_neg (by omega)]
      · rw [if_neg h2, if_pos (by omega)]; omega

theorem countBits_eq {v : Nat} (h : v < 2 ^ 64) (h0 : v ≠ 0) : countBits v = Nat.log2 v + 1 := by
  unfold countBits; rw [countBitsLoop_eq _ _ _ h, if_neg h0]; omega

theorem encUE_eq_encU (v : Nat) : encU (2 * Nat.log2 (v + 1) + 1) (v + 1) = encUE v := by
  rw [encUE_eq, show 2 * Nat.log2 (v + 1) + 1 = Nat.log2 (v + 1) + (Nat.log2 (v + 1) + 1) by omega, encU_append]
  congr 1
  rw [Nat.shiftRight_eq_div_pow, Nat.div_eq_of_lt Nat.lt_log2_self, encU_zero_val]

theorem writeBits_short {b : Buf} (h : b.WF) (val n : Nat) (hn : b.rem.length < n) :
    b.writeBits val n = .val (false, b) := by
  unfold writeBits
  rw [remaining_eq h, if_pos hn]; rfl

theorem writeUE_bits {v : Nat} (hv : v < 2 ^ 32 - 1) (b : Buf) :
    b.writeUE v = b.writeBits (v + 1) (2 * Nat.log2 (v + 1) + 1) ∧ Nat.log2 (v + 1) < 32 := by
  have hl : Nat.log2 (v + 1) < 32 := (Nat.log2_lt (by omega)).mpr (by omega)
  refine ⟨?_, hl⟩
  unfold writeUE
  rw [if_neg (by omega), add64_eq (by omega), countBits_eq (by omega) (by omega), mul64_eq (by omega),
    sub64_eq (by omega) (by omega)]
  congr 1; omega

theorem writeUE_ok {b : Buf} (h : b.WF) {v : Nat} (hv : v < 2 ^ 32 - 1) (hr : (encUE v).length ≤ b.rem.length) :
    ∃ b', b.writeUE v = .val (true, b') ∧ b.Wrote b' (encUE v) := by
  obtain ⟨e, hl⟩ := writeUE_bits hv b
  rw [length_encUE] at hr
  rw [e, ← encUE_eq_encU]
  exact writeBits_eq h _ _ (by omega) (by omega) hr

theorem writeUE_short {b : Buf} (h : b.WF) {v : Nat} (hv : v < 2 ^ 32 - 1) (hr : b.rem.length < (encUE v).length) :
    b.writeUE v = .val (false, b) := by
  obtain ⟨e, hl⟩ := writeUE_bits hv b
  rw [length_encUE] at hr
  rw [e]
  exact writeBits_short h _ _ hr

theorem writeSE_ue {v : Int} (h1 : -(2 ^ 31) < v) (h2 : v < 2 ^ 31) (b : Buf) :
    b.writeSE v = b.writeUE (seCode v) ∧ seCode v < 2 ^ 32 - 1 := by
  constructor
  · unfold writeSE seCode
    by_cases h0 : v = 0
    · subst h0; simp
    · rw [if_neg h0]
      by_cases hp : v > 0
      · rw [if_pos hp, if_pos hp, mul32_eq (by omega), sub32_eq (by omega) (by omega)]
        congr 1; omega
      · rw [if_neg hp, if_neg hp, if_neg (by omega), sint_eq (by omega) (by omega), Res.val_bind, mul32_eq (by omega)]
        congr 1; omega
  · unfold seCode; split <;> omega

/-- The unread bits seen by a reader placed where the write started. -/
theorem Wrote.rem {b b' : Buf} {s : List Bool} (h : b.Wrote b' s) (hb : b.WF) :
    (rewind b b').rem = s ++ b'.rem ∧
    (rewind b b').WF ∧
    b'.rem = b.rem.drop s.length := by
  obtain ⟨h1, h2, h3, h4⟩ := h
  have hin := hb.inside
  have hl : (List.take b.pos (allBits b.bytes)).length = b.pos := by simp; omega
  have hr' : b'.rem = b.rem.drop s.length := by
    unfold Buf.rem
    rw [h1, h3, List.drop_drop]
    unfold ovw
    rw [List.drop_append, List.drop_eq_nil_of_le (by simp; omega)]
    rw [List.nil_append, List.drop_drop]
    congr 1
    rw [List.length_append, hl]; omega
  refine ⟨?_, ?_, hr'⟩
  · rw [hr']
    show (allBits b'.bytes).drop b.pos = _
    rw [h1]
    unfold ovw Buf.rem
    rw [List.append_assoc, List.drop_append, List.drop_eq_nil_of_le (by omega), hl, Nat.sub_self,
      List.drop_drop]
    rfl
  · exact ⟨by simpa [rewind, h2] using hb.size, hb.bit, by simpa [rewind, h2, pos] using hb.inside⟩

/-! Non-symmetric (truncated binary) codes. -/

theorem nonSym_parts {nv : Nat} (h0 : 0 < nv) (h31 : nv < 2 ^ 31) :
    countBits nv = Nat.log2 nv + 1 ∧ Nat.log2 nv + 1 < 32 ∧
    sub32 ((1 <<< countBits nv) % 2 ^ 32) nv = 2 ^ (Nat.log2 nv + 1) - nv ∧
    sub64 (countBits nv) 1 = Nat.log2 nv ∧ 2 ^ Nat.log2 nv ≤ nv ∧ nv < 2 ^ (Nat.log2 nv + 1) ∧
    2 ^ (Nat.log2 nv + 1) ≤ 2 ^ 31 := by
  have hc := countBits_eq (v := nv) (by omega) (by omega)
  have hl : Nat.log2 nv < 31 := (Nat.log2_lt (by omega)).mpr (by omega)
  have ha : 2 ^ Nat.log2 nv ≤ nv := Nat.log2_self_le (by omega)
  have hb : nv < 2 ^ (Nat.log2 nv + 1) := Nat.lt_log2_self
  have hp : 2 ^ (Nat.log2 nv + 1) ≤ 2 ^ 31 := Nat.pow_le_pow_right (by omega) (by omega)
  refine ⟨hc, by omega, ?_, ?_, ha, hb, hp⟩
  · rw [hc, Nat.one_shiftLeft, Nat.mod_eq_of_lt (by omega), sub32_eq (by omega) (by omega)]
  · rw [hc, sub64_eq (by omega) (by omega)]; omega

/-- `ReadNonSymmetric` on bit lists, for `1 ≤ nv < 2^31`. -/
theorem readNonSymmetric_eq {b : Buf} (h : b.WF) {nv : Nat} (h0 : 0 < nv) (h31 : nv < 2 ^ 31) :
    b.readNonSymmetric nv = .val (
      if Nat.log2 nv = 0 ∨ Nat.log2 nv > b.rem.length then (none, b)
      else if bitsVal (b.rem.take (Nat.log2 nv)) < 2 ^ (Nat.log2 nv + 1) - nv then
        (some (bitsVal (b.rem.take (Nat.log2 nv))), b.adv (Nat.log2 nv))
      else if Nat.log2 nv + 1 > b.rem.length then (none, b.adv (Nat.log2 nv))
      else (some (bitsVal (b.rem.take (Nat.log2 nv + 1)) - (2 ^ (Nat.log2 nv + 1) - nv)), b.adv (Nat.log2 nv + 1))) := by
  obtain ⟨hc, hc32, hm, hk, ha, hb, hp⟩ := nonSym_parts h0 h31
  unfold readNonSymmetric
  rw [show decide (nv > 0) = true by simpa using h0, show decide (nv ≤ 2 ^ 31) = true by simp; omega]
  simp only [Res.check_true, Res.val_bind, hm, hk]
  rw [if_neg (by omega), readBits_eq h]
  generalize hkk : Nat.log2 nv = k at *
  by_cases h1 : k = 0 ∨ k > b.rem.length
  · rw [if_pos (by omega), if_pos h1]; rfl
  · rw [if_neg (by omega), if_neg h1]
    simp only [Res.val_bind]
    have hkl : k ≤ b.rem.length := by omega
    by_cases h2 : bitsVal (b.rem.take k) < 2 ^ (k + 1) - nv
    · rw [if_pos h2, if_pos h2]; rfl
    · rw [if_neg h2, if_neg h2, readBits_eq (h.adv hkl), rem_adv]
      by_cases h3 : k + 1 > b.rem.length
      · rw [if_pos (by simp; omega), if_pos h3]; rfl
      · rw [if_neg (by simp; omega), if_neg h3, adv_adv]
        simp only [Res.val_bind, Res.pure_eq]
        congr 3
        have e : bitsVal (b.rem.take (k + 1)) =
            bitsVal (b.rem.take k) * 2 + bitsVal ((b.rem.drop k).take 1) := by
          rw [List.take_add, bitsVal_append]
          congr 2
          simp
          rw [show min 1 (b.rem.length - k) = 1 by omega]
        have l1 := bitsVal_lt (b.rem.take k)
        have l2 := bitsVal_lt ((b.rem.drop k).take 1)
        have hl1 : (b.rem.take k).length = k := by simp; omega
        have hl2 : ((b.rem.drop k).take 1).length = 1 := by simp; omega
        rw [hl1] at l1
        rw [hl2] at l2
        rw [Nat.pow_succ] at h2 hb hp ⊢
        rw [e, Nat.shiftLeft_eq, Nat.pow_one, Nat.mod_eq_of_lt (by omega), add32_eq (by omega),
          sub32_eq (by omega) (by omega)]

end Buf
end H264

import Verif.Spec.Cursor

/-
Helper lemmas: the machine-level reader refines a cursor over a list of bits.
-/

namespace H264
namespace Buf

theorem length_rem (b : Buf) : b.rem.length = 8 * b.bytes.length - b.pos := by
  simp [rem]

@[simp] theorem adv_bytes (b : Buf) (n) : (b.adv n).bytes = b.bytes := rfl
@[simp] theorem adv_pos (b : Buf) (n) : (b.adv n).pos = b.pos + n := by
  simp only [adv, pos]; omega

theorem rem_adv (b : Buf) (n) : (b.adv n).rem = b.rem.drop n := by
  simp [rem, List.drop_drop]

theorem WF.adv {b : Buf} (h : b.WF) {n : Nat} (hn : n ≤ b.rem.length) : (b.adv n).WF := by
  have := h.inside
  rw [length_rem] at hn
  exact ⟨h.size, by simp only [Buf.adv]; omega, by rw [adv_pos, adv_bytes]; omega⟩

@[simp] theorem adv_zero {b : Buf} (h : b.WF) : b.adv 0 = b := by
  have := h.bit
  cases b with | mk bs i j =>
  simp only [Buf.adv, pos] at *
  congr 1 <;> omega

theorem adv_adv (b : Buf) (m n) : (b.adv m).adv n = b.adv (m + n) := by
  simp only [Buf.adv, pos]
  congr 1 <;> omega

/-- A well-formed reader is determined by its bytes and the number of unread bits. -/
theorem ext_pos {a b : Buf} (ha : a.WF) (hb : b.WF) (h : a.bytes = b.bytes) (hp : a.pos = b.pos) : a = b := by
  cases a with | mk x i j =>
  cases b with | mk y k l =>
  have h1 := ha.bit; have h2 := hb.bit
  simp only [pos] at *
  subst h
  have : i = k := by omega
  have : j = l := by omega
  simp_all

theorem remaining_eq {b : Buf} (h : b.WF) : b.remaining = b.rem.length := by
  have h1 := h.size; have h2 := h.bit; have h3 := h.inside
  rw [length_rem]
  unfold pos at *
  unfold remaining
  rw [sub64_eq (a := b.bytes.length) (by omega) (by omega), mul64_eq (by omega), sub64_eq (by omega) (by omega)]
  omega

theorem consumeBits_eq {b : Buf} (h : b.WF) (n : Nat) :
    b.consumeBits n = if n ≤ b.rem.length then (true, b.adv n) else (false, b) := by
  unfold consumeBits
  rw [remaining_eq h]
  by_cases hn : n ≤ b.rem.length
  · rw [if_neg (by omega), if_pos hn]
    have h1 := h.size; have h2 := h.bit; have h3 := h.inside
    rw [length_rem] at hn
    unfold pos at *
    have e1 : add64 b.bitOff n = b.bitOff + n := add64_eq (by omega)
    rw [e1, add64_eq (by omega)]
    simp only [Buf.adv, pos]
    congr 2 <;> omega
  · rw [if_pos (by omega), if_neg hn]

/-- The unread bits start inside the current byte. -/
theorem rem_split {b : Buf} (h : b.WF) (hb : b.byteOff < b.bytes.length) :
    b.rem = encU (8 - b.bitOff) (b.bytes[b.byteOff]).toNat ++ allBits (b.bytes.drop (b.byteOff + 1)) := by
  have hbit := h.bit
  unfold rem pos
  rw [← List.drop_drop, drop_allBits, List.drop_eq_getElem_cons hb, allBits_cons,
    List.drop_append_of_le_length (by simp; omega), drop_encU _ _ _ (by omega)]

theorem lowestBits_eq {x k : Nat} (h : k ≤ 8) : lowestBits x k = .val (bitsVal (encU k x)) := by
  simp [lowestBits, h, Nat.one_shiftLeft, Nat.and_two_pow_sub_one_eq_mod, bitsVal_encU_mod]

theorem highestBits_eq {x k : Nat} (hk : k ≤ 8) (hx : x < 256) :
    highestBits x k = .val (x / 2 ^ (8 - k)) := by
  simp only [highestBits, hk, decide_true, Res.check_true, Res.val_bind, Res.pure_eq]
  congr 1
  rw [Nat.mod_eq_of_lt hx]
  have hmask : (0xFF <<< (8 - k)) % 256 = 255 - (2 ^ (8 - k) - 1) := by
    have : k = 0 ∨ k = 1 ∨ k = 2 ∨ k = 3 ∨ k = 4 ∨ k = 5 ∨ k = 6 ∨ k = 7 ∨ k = 8 := by omega
    rcases this with rfl | rfl | rfl | rfl | rfl | rfl | rfl | rfl | rfl <;> decide
  apply Nat.eq_of_testBit_eq
  intro i
  rw [Nat.testBit_shiftRight, Nat.testBit_and, ← Nat.shiftRight_eq_div_pow, Nat.testBit_shiftRight]
  by_cases hi : 8 - k + i < 8
  · have : (0xFF <<< (8 - k) % 256).testBit (8 - k + i) = true := by
      rw [show (256 : Nat) = 2 ^ 8 by rfl, Nat.testBit_mod_two_pow, Nat.testBit_shiftLeft]
      simp only [hi, decide_true, Bool.true_and]
      rw [Nat.add_sub_cancel_left, show (0xFF : Nat) = 2 ^ 8 - 1 by rfl, Nat.testBit_two_pow_sub_one]
      simp; omega
    simp [this]
  · have : x.testBit (8 - k + i) = false := by
      apply Nat.testBit_lt_two_pow
      calc x < 2 ^ 8 := hx
        _ ≤ 2 ^ (8 - k + i) := Nat.pow_le_pow_right (by omega) (by omega)
    simp [this]

theorem shl_or {a b k w : Nat} (hb : b < 2 ^ k) (ha : a * 2 ^ k + b < 2 ^ w) :
    ((a <<< k) % 2 ^ w) ||| b = a * 2 ^ k + b := by
  rw [Nat.shiftLeft_eq, Nat.mod_eq_of_lt (by omega), ← Nat.shiftLeft_eq,
    ← Nat.shiftLeft_add_eq_or_of_lt hb, Nat.shiftLeft_eq]

theorem peekLoop_eq (w : Nat) (bytes : List UInt8) :
    ∀ (f i : Nat) (pre : List Bool) (bc : Nat), bc / 8 < f → pre.length + bc ≤ w →
      bc ≤ (allBits (bytes.drop i)).length →
      peekLoop w bytes f i (bitsVal pre) bc =
        .val (i + bc / 8, bitsVal (pre ++ (allBits (bytes.drop i)).take (8 * (bc / 8))), bc % 8) := by
  intro f
  induction f with
  | zero => intro i pre bc h; omega
  | succ f ih =>
    intro i pre bc hf hw hb
    unfold peekLoop
    by_cases h8 : bc < 8
    · rw [if_pos h8, Nat.div_eq_of_lt h8, Nat.mod_eq_of_lt h8]; simp
    · rw [if_neg h8]
      simp only [length_allBits, List.length_drop] at hb
      have hi : i < bytes.length := by omega
      rw [load_eq hi, Res.val_bind]
      have hx : bytes[i].toNat < 2 ^ 8 := bytes[i].toNat_lt
      have hstep : ((bitsVal pre <<< 8) % 2 ^ w) ||| bytes[i].toNat
          = bitsVal (pre ++ encU 8 bytes[i].toNat) := by
        rw [shl_or hx]
        · rw [bitsVal_append, bitsVal_encU hx, length_encU]
        · have e := bitsVal_append pre (encU 8 bytes[i].toNat)
          rw [bitsVal_encU hx, length_encU] at e
          rw [← e]
          refine Nat.lt_of_lt_of_le (bitsVal_lt _) (Nat.pow_le_pow_right (by omega) ?_)
          simp; omega
      rw [hstep, ih (i + 1) _ (bc - 8) (by omega) (by simp; omega) (by simp; omega)]
      have e1 : bc / 8 = (bc - 8) / 8 + 1 := by omega
      rw [List.drop_eq_getElem_cons hi, allBits_cons]
      congr 1
      congr 1
      · omega
      · congr 1
        · rw [e1, Nat.mul_add, List.take_append]
          simp only [length_encU, List.append_assoc]
          rw [List.take_of_length_le (l := encU 8 _) (by simp)]
          congr 3
        · omega

theorem peekBits_eq {b : Buf} (h : b.WF) (w n : Nat) :
    b.peekBits w n = .val (if n = 0 ∨ n > w ∨ n > b.rem.length then none else some (bitsVal (b.rem.take n))) := by
  unfold peekBits
  by_cases h0 : n = 0 ∨ n > w
  · rw [if_pos h0, if_pos (by omega)]
  rw [if_neg h0, remaining_eq h]
  by_cases h1 : n > b.rem.length
  · rw [if_pos h1, if_pos (by omega)]
  rw [if_neg h1, if_neg (by omega)]
  have hbit := h.bit; have hin := h.inside
  have hlr := length_rem b
  have hbo : b.byteOff < b.bytes.length := by unfold pos at *; omega
  rw [load_eq hbo, Res.val_bind, lowestBits_eq (by omega), Res.val_bind]
  have hsplit := rem_split h hbo
  generalize hx : (b.bytes[b.byteOff]).toNat = x at *
  by_cases hn : n < 8 - b.bitOff
  · rw [if_pos hn, highestBits_eq (by omega)]
    · simp only [Res.val_bind, Res.pure_eq]
      congr 2
      rw [hsplit, List.take_append_of_le_length (by simp; omega), take_encU _ _ _ (by omega),
        bitsVal_encU_mod, bitsVal_encU_mod, Nat.shiftRight_eq_div_pow]
      have e : 8 - (b.bitOff + n) = 8 - b.bitOff - n := by omega
      rw [e]
      have e2 : (2:Nat) ^ (8 - b.bitOff) = 2 ^ (8 - b.bitOff - n) * 2 ^ n := by
        rw [← Nat.pow_add]; congr 1; omega
      rw [e2, Nat.mod_mul_right_div_self]
    · refine Nat.lt_of_lt_of_le (bitsVal_lt _) ?_
      rw [length_encU]
      calc 2 ^ (8 - b.bitOff) ≤ 2 ^ 8 := Nat.pow_le_pow_right (by omega) (by omega)
        _ = 256 := rfl
  · rw [if_neg hn]
    have hlen : (allBits (b.bytes.drop (b.byteOff + 1))).length = b.rem.length - (8 - b.bitOff) := by
      rw [hsplit]; simp
    rw [peekLoop_eq w b.bytes (n + 1) _ (encU (8 - b.bitOff) x) (n - (8 - b.bitOff)) (by omega)
      (by simp; omega) (by omega)]
    simp only [Res.val_bind]
    generalize hbc : n - (8 - b.bitOff) = bc at *
    have htake : b.rem.take n = encU (8 - b.bitOff) x ++ (allBits (b.bytes.drop (b.byteOff + 1))).take bc := by
      rw [hsplit, List.take_append]
      simp only [length_encU, hbc]
      rw [List.take_of_length_le (by simp; omega)]
    rw [htake]
    by_cases hb0 : bc % 8 > 0
    · rw [if_pos hb0]
      have hlen2 : b.byteOff + 1 + bc / 8 < b.bytes.length := by
        unfold pos at *; omega
      rw [load_eq hlen2, Res.val_bind, highestBits_eq (by omega) (UInt8.toNat_lt _)]
      simp only [Res.val_bind, Res.pure_eq]
      congr 2
      -- the last partial byte
      have hdrop : allBits (b.bytes.drop (b.byteOff + 1)) =
          (allBits (b.bytes.drop (b.byteOff + 1))).take (8 * (bc / 8)) ++
          (encU 8 (b.bytes[b.byteOff + 1 + bc / 8]).toNat ++ allBits (b.bytes.drop (b.byteOff + 1 + bc / 8 + 1))) := by
        conv => lhs; rw [← List.take_append_drop (8 * (bc / 8)) (allBits (b.bytes.drop (b.byteOff + 1)))]
        rw [drop_allBits, List.drop_drop, List.drop_eq_getElem_cons hlen2, allBits_cons]
      generalize (b.bytes[b.byteOff + 1 + bc / 8]) = y at *
      have hy : y.toNat < 2 ^ 8 := y.toNat_lt
      have e3 : (allBits (b.bytes.drop (b.byteOff + 1))).take bc =
          (allBits (b.bytes.drop (b.byteOff + 1))).take (8 * (bc / 8)) ++ encU (bc % 8) (y.toNat >>> (8 - bc % 8)) := by
        rw [← take_encU _ 8 _ (by omega)]
        conv => lhs; rw [hdrop]
        rw [List.take_append]
        rw [List.take_of_length_le (by simp; omega)]
        congr 1
        rw [List.take_append_of_le_length (by simp; omega)]
        congr 1
        simp; omega
      rw [e3, ← List.append_assoc]
      have hv : y.toNat / 2 ^ (8 - bc % 8) < 2 ^ (bc % 8) := by
        rw [Nat.div_lt_iff_lt_mul (Nat.two_pow_pos _), ← Nat.pow_add]
        rw [show bc % 8 + (8 - bc % 8) = 8 by omega]; exact hy
      rw [← Nat.shiftRight_eq_div_pow] at hv ⊢
      generalize y.toNat >>> (8 - bc % 8) = z at *
      have e4 := bitsVal_append (encU (8 - b.bitOff) x ++ (allBits (b.bytes.drop (b.byteOff + 1))).take (8 * (bc / 8)))
        (encU (bc % 8) z)
      rw [bitsVal_encU hv, length_encU] at e4
      rw [e4]
      apply shl_or hv
      rw [← e4]
      refine Nat.lt_of_lt_of_le (bitsVal_lt _) (Nat.pow_le_pow_right (by omega) ?_)
      simp; omega
    · rw [if_neg hb0]
      have : 8 * (bc / 8) = bc := by omega
      rw [this]; rfl

theorem readBits_eq {b : Buf} (h : b.WF) (w n : Nat) :
    b.readBits w n = .val (if n = 0 ∨ n > w ∨ n > b.rem.length then (none, b)
      else (some (bitsVal (b.rem.take n)), b.adv n)) := by
  rw [readBits]
  rw [peekBits_eq h]
  by_cases h1 : n = 0 ∨ n > w ∨ n > b.rem.length
  · rw [if_pos h1, if_pos h1]
    rfl
  · rw [if_neg h1, if_neg h1]
    rw [Res.val_bind]
    have hn : n ≤ b.rem.length := by omega
    rw [consumeBits_eq h, if_pos hn]
    rfl

end Buf
end H264

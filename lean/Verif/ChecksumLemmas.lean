import Verif.Model.Checksum
import Verif.Spec.Checksum
import Verif.BitBufferLemmas

/- Helper lemmas for the checksum. -/

namespace H264
open Spec

theorem beWords_lt : ∀ (l : List UInt8), ∀ w ∈ beWords l, w < 2 ^ 32
  | [], w, h => by simp [beWords] at h
  | [a], w, h => by
    simp only [beWords, List.mem_singleton] at h; have := a.toNat_lt; omega
  | [a, b], w, h => by
    simp only [beWords, List.mem_singleton] at h; have := a.toNat_lt; have := b.toNat_lt; omega
  | [a, b, c], w, h => by
    simp only [beWords, List.mem_singleton] at h; have := a.toNat_lt; have := b.toNat_lt; have := c.toNat_lt; omega
  | a :: b :: c :: d :: r, w, h => by
    simp only [beWords, List.mem_cons] at h
    rcases h with h | h
    · have := a.toNat_lt; have := b.toNat_lt; have := c.toNat_lt; have := d.toNat_lt; omega
    · exact beWords_lt r w h

/-- Value of the one's-complement sum of words that add up to `s`. -/
def onesNorm (s : Nat) : Nat := if s = 0 then 0 else (s - 1) % (2 ^ 32 - 1) + 1

theorem mod_small (M x : Nat) (h1 : M ≤ x) (h2 : x < 2 * M) : x % M = x - M := by
  rw [Nat.mod_eq_sub_mod h1, Nat.mod_eq_of_lt (by omega)]

theorem onesNorm_split (q r : Nat) (h : r < 2 * (2 ^ 32 - 1)) : onesNorm ((2 ^ 32 - 1) * q + r + 1) =
    if r + 1 < 2 ^ 32 then r + 1 else r + 1 - 2 ^ 32 + 1 := by
  unfold onesNorm
  rw [if_neg (by omega), Nat.add_sub_cancel, Nat.mul_add_mod]
  by_cases h1 : r + 1 < 2 ^ 32
  · rw [if_pos h1, Nat.mod_eq_of_lt (by omega)]
  · rw [if_neg h1, mod_small _ _ (by omega) h]; omega

theorem onesAdd_norm (s w : Nat) (hw : w < 2 ^ 32) : onesAdd (onesNorm s) w = onesNorm (s + w) := by
  by_cases hs : s = 0
  · subst hs
    unfold onesAdd onesNorm
    rw [if_pos rfl]
    by_cases hw0 : w = 0
    · simp [hw0]
    · rw [if_pos (by omega), if_neg (by omega), Nat.mod_eq_of_lt (by omega)]; omega
  · have hd := Nat.div_add_mod (s - 1) (2 ^ 32 - 1)
    have hr := Nat.mod_lt (s - 1) (y := 2 ^ 32 - 1) (by omega)
    have e : s + w = (2 ^ 32 - 1) * ((s - 1) / (2 ^ 32 - 1)) + ((s - 1) % (2 ^ 32 - 1) + w) + 1 := by omega
    rw [e, onesNorm_split _ _ (by omega), onesNorm, if_neg hs, onesAdd]
    rw [show (s - 1) % (2 ^ 32 - 1) + 1 + w = (s - 1) % (2 ^ 32 - 1) + w + 1 by omega]

theorem foldl_onesAdd (ws : List Nat) (h : ∀ w ∈ ws, w < 2 ^ 32) : ∀ s, ws.foldl onesAdd (onesNorm s) = onesNorm (s + ws.sum) := by
  induction ws with
  | nil => intro s; simp
  | cons w ws ih =>
    intro s
    rw [List.foldl_cons, onesAdd_norm _ _ (h w (by simp)), ih (fun x hx => h x (by simp [hx])), List.sum_cons]
    congr 1; omega

theorem checksum_norm (l : List UInt8) : checksum l = 2 ^ 32 - 1 - onesNorm (beWords l).sum := by
  have := foldl_onesAdd (beWords l) (beWords_lt l) 0
  rw [show onesNorm 0 = 0 from rfl, Nat.zero_add] at this
  rw [checksum, this]

theorem checksumFold_eq (s : Nat) (hlt : s < 2 ^ 64) : checksumFold s = 2 ^ 32 - 1 - onesNorm s := by
  unfold checksumFold onesNorm
  simp only [Nat.shiftRight_eq_div_pow]
  rw [add64_eq (a := s / 2 ^ 32) (by omega), add64_eq (by omega)]
  by_cases hs : s = 0
  · subst hs; simp
  · obtain ⟨h, l, rfl, hl⟩ : ∃ h l, s = 2 ^ 32 * h + l ∧ l < 2 ^ 32 :=
      ⟨s / 2 ^ 32, s % 2 ^ 32, (Nat.div_add_mod ..).symm, Nat.mod_lt _ (by omega)⟩
    have e1 : (2 ^ 32 * h + l) / 2 ^ 32 = h := by omega
    have e2 : (2 ^ 32 * h + l) % 2 ^ 32 = l := by omega
    have e3 := onesNorm_split h (h + l - 1) (by omega)
    rw [show (2 ^ 32 - 1) * h + (h + l - 1) + 1 = 2 ^ 32 * h + l by omega] at e3
    unfold onesNorm at e3
    rw [e3, e1, e2]
    split <;> omega

theorem add64_mod (a b : Nat) : add64 (a % 2 ^ 64) b = (a + b) % 2 ^ 64 := by
  unfold add64; omega

theorem onesAdd_halves (s : Nat) (hlt : s < 2 ^ 64) : onesAdd (s / 2 ^ 32) (s % 2 ^ 32) = onesNorm s := by
  have h := onesAdd_norm (2 ^ 32 * (s / 2 ^ 32)) (s % 2 ^ 32) (by omega)
  rw [Nat.div_add_mod] at h
  rw [← h]
  have hn : onesNorm (2 ^ 32 * (s / 2 ^ 32)) = s / 2 ^ 32 := by
    generalize hq : s / 2 ^ 32 = q
    have hq' : q < 2 ^ 32 := by omega
    by_cases h0 : q = 0
    · subst h0; rfl
    · have := onesNorm_split q (q - 1) (by omega)
      rw [show (2 ^ 32 - 1) * q + (q - 1) + 1 = 2 ^ 32 * q by omega] at this
      rw [this, if_pos (by omega)]
      omega
  rw [hn]

theorem checksum64_norm (l : List UInt8) : checksum64 l = 2 ^ 32 - 1 - onesNorm ((beWords l).sum % 2 ^ 64) := by
  unfold checksum64
  dsimp only
  rw [onesAdd_halves _ (Nat.mod_lt _ (by decide))]

/-- The words of whole 4-byte groups. -/
theorem beWords_sum_lt (l : List UInt8) : ∀ n, l.length ≤ 4 * n → (beWords l).sum ≤ n * (2 ^ 32 - 1) := by
  intro n
  induction n generalizing l with
  | zero =>
    intro h
    have : l = [] := List.eq_nil_of_length_eq_zero (by omega)
    subst this; simp [beWords]
  | succ n ih =>
    intro h
    match l, h with
    | [], _ => simp [beWords]
    | [a], h =>
      have := beWords_lt [a] _ (by simp only [beWords, List.mem_singleton]; rfl); simp only [beWords, List.sum_cons, List.sum_nil] at *; omega
    | [a, b], h =>
      have := beWords_lt [a, b] _ (by simp only [beWords, List.mem_singleton]; rfl); simp only [beWords, List.sum_cons, List.sum_nil] at *; omega
    | [a, b, c], h =>
      have := beWords_lt [a, b, c] _ (by simp only [beWords, List.mem_singleton]; rfl); simp only [beWords, List.sum_cons, List.sum_nil] at *; omega
    | a :: b :: c :: d :: r, h =>
      have h1 := beWords_lt (a :: b :: c :: d :: r) _ (by simp only [beWords, List.mem_cons]; exact Or.inl rfl)
      have h2 := ih r (by simp at h; omega)
      simp only [beWords, List.sum_cons] at *; omega

theorem bitsVal_byte (a : UInt8) (l : List Bool) : bitsVal (encU 8 a.toNat ++ l) = a.toNat * 2 ^ l.length + bitsVal l := by
  rw [bitsVal_append, bitsVal_encU a.toNat_lt]

theorem bitsVal_byte1 (a : UInt8) : bitsVal (encU 8 a.toNat) = a.toNat := bitsVal_encU a.toNat_lt

theorem take_bytes (bs : List UInt8) (t : List Bool) (n : Nat) (h : n = 8 * bs.length) : (allBits bs ++ t).take n = allBits bs := by
  rw [h, ← length_allBits bs]; simp

theorem drop_bytes (bs : List UInt8) (t : List Bool) (n : Nat) (h : n = 8 * bs.length) : (allBits bs ++ t).drop n = t := by
  rw [h, ← length_allBits bs]; simp

/-- A big-endian 32-bit word. -/
def word (a b c d : UInt8) : Nat := ((a.toNat * 256 + b.toNat) * 256 + c.toNat) * 256 + d.toNat

theorem beWords_cons4 (a b c d : UInt8) (r : List UInt8) : beWords (a :: b :: c :: d :: r) = word a b c d :: beWords r := rfl

namespace Buf

theorem readUInt32_cons {x : Buf} (h : x.WF) {a b c d : UInt8} {t : List Bool} (e : x.rem = allBits [a, b, c, d] ++ t) :
    x.readUInt32 = .val (some (word a b c d), x.adv 32) ∧ (x.adv 32).WF ∧
      (x.adv 32).rem = t := by
  have hl : x.rem.length = 32 + t.length := by rw [e, List.length_append, length_allBits]; rfl
  refine ⟨?_, h.adv (by omega), ?_⟩
  · rw [readUInt32, readBits_eq h, if_neg (by omega), e, take_bytes _ _ _ (by simp)]
    simp only [allBits_cons, allBits_nil, List.append_nil, bitsVal_byte, bitsVal_byte1, length_encU, List.length_append]
    rw [show a.toNat * 2 ^ (8 + (8 + 8)) + (b.toNat * 2 ^ (8 + 8) + (c.toNat * 2 ^ 8 + d.toNat)) =
      word a b c d by unfold word; omega]
  · rw [rem_adv, e]; exact drop_bytes _ _ _ (by simp)

theorem readUInt8_cons {x : Buf} (h : x.WF) {a : UInt8} {t : List Bool} (e : x.rem = encU 8 a.toNat ++ t) :
    x.readUInt8 = .val (some a.toNat, x.adv 8) ∧ (x.adv 8).WF ∧ (x.adv 8).rem = t := by
  have hl : x.rem.length = 8 + t.length := by rw [e, List.length_append, length_encU]
  have ha := a.toNat_lt
  refine ⟨?_, h.adv (by omega), ?_⟩
  · rw [readUInt8, readBits_eq h, if_neg (by omega), e, List.take_left' (by simp), Res.val_bind]
    simp only [bitsVal_byte1]
    rw [show decide (a.toNat ≤ 255) = true from decide_eq_true (by omega)]
    simp only [Res.check_true, Res.val_bind, Res.pure_eq]
    rw [Nat.mod_eq_of_lt ha]
  · rw [rem_adv, e]; exact List.drop_left' (by simp)

theorem readUInt32_short {x : Buf} (h : x.WF) (hl : x.rem.length < 32) : x.readUInt32 = .val (none, x) := by
  rw [readUInt32, readBits_eq h, if_pos (by omega)]

end Buf

theorem checksumWords_eq : ∀ (n : Nat) (bs : List UInt8) (t : List Bool) (f : Nat) (x : Buf) (s : Nat), x.WF →
    x.rem = allBits bs ++ t → t.length < 8 → bs.length / 4 = n → n < f →
    ∃ (x' : Buf) (bs' : List UInt8), checksumWords f x (s % 2 ^ 64) = .val ((s + (beWords (bs.take (4 * n))).sum) % 2 ^ 64, x') ∧ x'.WF ∧
      x'.bytes = x.bytes ∧ x'.rem = allBits bs' ++ t ∧ bs' = bs.drop (4 * n) ∧
      (beWords bs).sum = (beWords (bs.take (4 * n))).sum + (beWords bs').sum
  | 0, bs, t, f, x, s, hx, he, ht, hn, hf => by
    obtain ⟨f, rfl⟩ : ∃ g, f = g + 1 := ⟨f - 1, by omega⟩
    refine ⟨x, bs, ?_, hx, rfl, he, by simp, by simp [beWords]⟩
    have : x.rem.length < 32 := by rw [he]; simp; omega
    rw [checksumWords, Buf.readUInt32_short hx this]
    simp [beWords]
  | n + 1, bs, t, f, x, s, hx, he, ht, hn, hf => by
    obtain ⟨f, rfl⟩ : ∃ g, f = g + 1 := ⟨f - 1, by omega⟩
    match bs, hn with
    | [], h => simp at h
    | [_], h => simp at h
    | [_, _], h => simp at h
    | [_, _, _], h => simp at h
    | a :: b :: c :: d :: r, hn =>
      have he' : x.rem = allBits [a, b, c, d] ++ (allBits r ++ t) := by rw [he]; simp
      obtain ⟨h1, h2, h3⟩ := Buf.readUInt32_cons hx he'
      have hr : r.length / 4 = n := by simp only [List.length_cons] at hn; omega
      obtain ⟨x', bs', g1, g2, g3, g4, g5, g6⟩ := checksumWords_eq n r t f (x.adv 32)
        (s + word a b c d) h2 h3 ht hr (by omega)
      refine ⟨x', bs', ?_, g2, g3, g4, ?_, ?_⟩
      · rw [checksumWords, h1]
        simp only [Res.val_bind]
        rw [add64_mod, g1, show 4 * (n + 1) = 4 * n + 1 + 1 + 1 + 1 by omega]
        simp only [List.take_succ_cons, beWords_cons4, List.sum_cons]
        rw [Nat.add_assoc]
      · rw [g5, show 4 * (n + 1) = 4 * n + 1 + 1 + 1 + 1 by omega]; simp
      · rw [show 4 * (n + 1) = 4 * n + 1 + 1 + 1 + 1 by omega]
        simp only [List.take_succ_cons, beWords_cons4, List.sum_cons]
        omega

theorem shl_lt (a : UInt8) (k : Nat) (hk : k ≤ 24) : (a.toNat <<< k) % 2 ^ 32 = a.toNat * 2 ^ k := by
  rw [Nat.shiftLeft_eq]
  apply Nat.mod_eq_of_lt
  have h1 : a.toNat * 2 ^ k < 2 ^ 8 * 2 ^ k := Nat.mul_lt_mul_of_pos_right a.toNat_lt (Nat.pow_pos (by decide))
  have h2 : 2 ^ 8 * 2 ^ k ≤ 2 ^ 8 * 2 ^ 24 := Nat.mul_le_mul_left _ (Nat.pow_le_pow_right (by decide) hk)
  omega

theorem or_low (a b k : Nat) (hb : b < 2 ^ k) : (a * 2 ^ k) ||| b = a * 2 ^ k + b := by
  rw [Nat.mul_comm, Nat.two_pow_add_eq_or_of_lt hb]

theorem tail_step {x : Buf} (h : x.WF) {a : UInt8} {t : List Bool} (e : x.rem = encU 8 a.toNat ++ t) (f i val : Nat) (hi : i < 4) :
    checksumTail (f + 1) x i val = checksumTail f (x.adv 8) (i + 1) (val ||| ((a.toNat <<< (8 * (3 - i))) % 2 ^ 32)) := by
  have hl : x.rem.length = 8 + t.length := by rw [e, List.length_append, length_encU]
  rw [checksumTail, Buf.remaining_eq h, if_pos ⟨by omega, hi⟩, (Buf.readUInt8_cons h e).1]
  rfl

theorem tail_end {x : Buf} (h : x.WF) (hl : x.rem.length < 8) (f i val : Nat) :
    checksumTail (f + 1) x i val = .val (i, val, x) := by
  rw [checksumTail, Buf.remaining_eq h, if_neg (by omega)]; rfl

theorem checksumTail_eq (bs : List UInt8) (t : List Bool) (x : Buf) (hx : x.WF) (he : x.rem = allBits bs ++ t) (ht : t.length < 8)
    (hb : bs.length < 4) : ∃ x', checksumTail 5 x 0 0 = .val (bs.length, (beWords bs).sum, x') ∧ x'.WF ∧ x'.bytes = x.bytes := by
  match bs, hb with
  | [], _ => exact ⟨x, by rw [tail_end hx (by rw [he]; simpa using ht)]; simp [beWords], hx, rfl⟩
  | [a], _ =>
    have e1 : x.rem = encU 8 a.toNat ++ t := by rw [he]; simp
    obtain ⟨_, h2, h3⟩ := Buf.readUInt8_cons hx e1
    refine ⟨_, ?_, h2, rfl⟩
    rw [tail_step hx e1 _ _ _ (by omega), tail_end h2 (by rw [h3]; exact ht), shl_lt _ _ (by omega)]
    simp [beWords]
  | [a, b], _ =>
    have e1 : x.rem = encU 8 a.toNat ++ (encU 8 b.toNat ++ t) := by rw [he]; simp
    obtain ⟨_, h2, h3⟩ := Buf.readUInt8_cons hx e1
    obtain ⟨_, h4, h5⟩ := Buf.readUInt8_cons h2 h3
    refine ⟨_, ?_, h4, rfl⟩
    have hb := b.toNat_lt
    rw [tail_step hx e1 _ _ _ (by omega), tail_step h2 h3 _ _ _ (by omega), tail_end h4 (by rw [h5]; exact ht),
      shl_lt _ _ (by omega), shl_lt _ _ (by omega), Nat.zero_or, or_low a.toNat _ _ (by omega)]
    simp [beWords]; omega
  | [a, b, c], _ =>
    have e1 : x.rem = encU 8 a.toNat ++ (encU 8 b.toNat ++ (encU 8 c.toNat ++ t)) := by rw [he]; simp
    obtain ⟨_, h2, h3⟩ := Buf.readUInt8_cons hx e1
    obtain ⟨_, h4, h5⟩ := Buf.readUInt8_cons h2 h3
    obtain ⟨_, h6, h7⟩ := Buf.readUInt8_cons h4 h5
    refine ⟨_, ?_, h6, rfl⟩
    have hb := b.toNat_lt
    have hc := c.toNat_lt
    rw [tail_step hx e1 _ _ _ (by omega), tail_step h2 h3 _ _ _ (by omega), tail_step h4 h5 _ _ _ (by omega),
      tail_end h6 (by rw [h7]; exact ht), shl_lt _ _ (by omega), shl_lt _ _ (by omega), shl_lt _ _ (by omega), Nat.zero_or,
      or_low a.toNat _ _ (by omega)]
    rw [show a.toNat * 2 ^ (8 * (3 - 0)) + b.toNat * 2 ^ (8 * (3 - (0 + 1))) = (a.toNat * 256 + b.toNat) * 2 ^ 16 by omega,
      or_low _ _ _ (by omega)]
    simp [beWords]; omega

/-- Going back to a position the reader has been at restores it. -/
theorem Buf.seek_back {x y : Buf} (hx : x.WF) (h : y.bytes = x.bytes) : y.seek x.byteOff x.bitOff = (true, x) := by
  have h1 := hx.bit
  have h2 := hx.inside
  unfold Buf.pos at h2
  rw [Buf.seek, if_neg (by rw [h]; omega)]
  cases x; cases y; simp_all

end H264

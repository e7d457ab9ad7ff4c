import Verif.BitBufferLemmas
import Verif.Spec.Codes

/-
Exponential-Golomb decoding on bit lists, and its relation to the specification `encUE`/`encSE` and to the
machine-level reader.
-/

namespace H264

/-- Number of leading zero bits. -/
def lz : List Bool → Nat
  | false :: l => lz l + 1
  | _ => 0

@[simp] theorem lz_nil : lz [] = 0 := rfl
@[simp] theorem lz_true (l) : lz (true :: l) = 0 := rfl
@[simp] theorem lz_false (l) : lz (false :: l) = lz l + 1 := rfl

theorem lz_le (l : List Bool) : lz l ≤ l.length := by
  induction l with
  | nil => simp
  | cons b l ih => cases b <;> simp; omega

theorem lz_replicate (k : Nat) (l : List Bool) : lz (List.replicate k false ++ l) = k + lz l := by
  induction k with
  | zero => simp
  | succ k ih => simp [List.replicate_succ, ih]; omega

theorem lz_split (l : List Bool) : l = List.replicate (lz l) false ++ l.drop (lz l) := by
  induction l with
  | nil => simp
  | cons b l ih =>
    cases b
    · simp only [lz_false, List.replicate_succ, List.cons_append, List.drop_succ_cons]
      rw [← ih]
    · simp

theorem drop_lz (l : List Bool) (h : lz l < l.length) : ∃ r, l.drop (lz l) = true :: r := by
  induction l with
  | nil => simp at h
  | cons b l ih =>
    cases b
    · simp at h ⊢; exact ih h
    · exact ⟨l, by simp⟩

/-- Result of decoding one ue(v) at the head of a bit list, as `ReadExponentialGolomb` does it. -/
def ueDec (l : List Bool) : Option (Nat × List Bool) :=
  if lz l + 1 ≤ 32 ∧ lz l + (lz l + 1) ≤ l.length then
    some (bitsVal ((l.drop (lz l)).take (lz l + 1)) - 1, l.drop (lz l + (lz l + 1)))
  else none

theorem encUE_eq (v : Nat) :
    encUE v = List.replicate (Nat.log2 (v + 1)) false ++ encU (Nat.log2 (v + 1) + 1) (v + 1) := by
  unfold encUE
  congr 1
  have h1 : 2 ^ Nat.log2 (v + 1) ≤ v + 1 := Nat.log2_self_le (by omega)
  have h2 : v + 1 < 2 ^ (Nat.log2 (v + 1) + 1) := Nat.lt_log2_self
  generalize Nat.log2 (v + 1) = k at *
  rw [encU_succ]
  congr 1
  · rw [Nat.testBit_eq_decide_div_mod_eq]
    have : (v + 1) / 2 ^ k = 1 := by
      rw [Nat.div_eq_iff (Nat.two_pow_pos _)]
      rw [Nat.pow_succ] at h2
      omega
    rw [this]; rfl
  · conv => rhs; rw [show v + 1 = 1 * 2 ^ k + (v + 1 - 2 ^ k) by omega]
    rw [encU_add_mul]

theorem lz_encUE (v : Nat) (r : List Bool) : lz (encUE v ++ r) = Nat.log2 (v + 1) := by
  simp [encUE, lz_replicate]

theorem length_encUE (v : Nat) : (encUE v).length = 2 * Nat.log2 (v + 1) + 1 := by
  simp [encUE]; omega

/-- ue(v) decoding is exactly the inverse of the specification's encoding, for the 32-bit code numbers. -/
theorem ueDec_iff (l : List Bool) (v : Nat) (r : List Bool) :
    ueDec l = some (v, r) ↔ v < 2 ^ 32 - 1 ∧ l = encUE v ++ r := by
  constructor
  · intro h
    unfold ueDec at h
    split at h
    · rename_i hc
      simp only [Option.some.injEq, Prod.mk.injEq] at h
      obtain ⟨hv, hr⟩ := h
      obtain ⟨t, ht⟩ := drop_lz l (by omega)
      have hlen := congrArg List.length ht
      simp at hlen
      have hsplit := lz_split l
      generalize hz : lz l = z at *
      rw [ht, List.take_succ_cons] at hv
      have htz : (t.take z).length = z := by simp; omega
      have hlt := bitsVal_lt (t.take z)
      rw [bitsVal_cons, htz] at hv
      rw [htz] at hlt
      have hlog : Nat.log2 (v + 1) = z := by
        rw [Nat.log2_eq_iff (by omega)]
        simp at hv
        rw [Nat.pow_succ]; omega
      have hp : 2 ^ z ≤ 2 ^ 31 := Nat.pow_le_pow_right (by omega) (by omega)
      refine ⟨by simp at hv; omega, ?_⟩
      unfold encUE
      rw [hlog]
      have : encU z (v + 1 - 2 ^ z) = t.take z := by
        rw [show v + 1 - 2 ^ z = bitsVal (t.take z) by simp at hv; omega]
        have := encU_bitsVal (t.take z)
        rwa [htz] at this
      rw [this, List.append_assoc, List.cons_append, ← hr, ← List.drop_drop, ht, List.drop_succ_cons,
        List.take_append_drop, ← ht]
      exact hsplit
    · simp at h
  · rintro ⟨hv, rfl⟩
    unfold ueDec
    rw [lz_encUE]
    have hle : Nat.log2 (v + 1) < 32 := (Nat.log2_lt (by omega)).mpr (by omega)
    rw [if_pos]
    · congr 2
      · rw [encUE_eq, List.append_assoc, List.drop_append, List.drop_eq_nil_of_le (by simp)]
        simp only [List.length_replicate, Nat.sub_self, List.drop_zero, List.nil_append]
        rw [List.take_append_of_le_length (by simp), List.take_of_length_le (by simp)]
        rw [bitsVal_encU Nat.lt_log2_self]; omega
      · rw [List.drop_append, List.drop_eq_nil_of_le (by rw [length_encUE]; omega), length_encUE]
        rw [show Nat.log2 (v + 1) + (Nat.log2 (v + 1) + 1) - (2 * Nat.log2 (v + 1) + 1) = 0 by omega]; simp
    · rw [List.length_append, length_encUE]; omega

/-- Signed mapping used by the decoder. -/
def seVal (k : Nat) : Int := if k % 2 = 0 then -((k / 2 : Nat) : Int) else ((k + 1) / 2 : Nat)

theorem seVal_iff (k : Nat) (v : Int) : seVal k = v ↔ k = seCode v := by
  unfold seVal seCode
  split <;> split <;> omega

theorem seVal_seCode (v : Int) : seVal (seCode v) = v := (seVal_iff _ _).mpr rfl

namespace Buf

theorem peek1 {b : Buf} (h : b.WF) :
    b.peekBits 32 1 = .val (b.rem.head?.map (fun x => x.toNat)) := by
  rw [peekBits_eq h]
  cases hr : b.rem with
  | nil => simp
  | cons x l => simp

theorem ueZeros_eq (f z : Nat) {b : Buf} (h : b.WF) (hf : b.rem.length < f) :
    ueZeros f z b = .val (z + lz b.rem, b.adv (lz b.rem)) := by
  induction f generalizing z b with
  | zero => omega
  | succ f ih =>
    rw [ueZeros, peek1 h]
    cases hr : b.rem with
    | nil => simp [h]
    | cons x l =>
      cases x
      · have h1 : 1 ≤ b.rem.length := by rw [hr]; simp
        have e : (b.adv 1).rem = l := by rw [rem_adv, hr]; simp
        simp only [List.head?_cons, Option.map_some, Bool.toNat_false, Res.val_bind]
        rw [consumeBits_eq h, if_pos h1]
        simp only
        rw [ih (z + 1) (h.adv h1) (by rw [e]; rw [hr] at hf; simp at hf; omega), e, adv_adv]
        simp only [lz_false]
        congr 2
        · omega
        · congr 1; omega
      · simp [h]

theorem seek_self {b b2 : Buf} (h : b.WF) (hb : b2.bytes = b.bytes) :
    b2.seek b.byteOff b.bitOff = (true, b) := by
  have h1 := h.inside; have h2 := h.bit
  unfold pos at h1
  unfold seek
  rw [if_neg (by rw [hb]; omega), hb]

theorem readUE_eq (nd : Bool) {b : Buf} (h : b.WF) :
    b.readUE nd = .val (match ueDec b.rem with
      | some (v, _) => (some v, b.adv (lz b.rem + (lz b.rem + 1)))
      | none => (none, if nd then b.adv (lz b.rem) else b)) := by
  have hz := lz_le b.rem
  have h1 := h.adv hz
  have hr1 : (b.adv (lz b.rem)).rem = b.rem.drop (lz b.rem) := rem_adv _ _
  unfold readUE
  rw [remaining_eq h, ueZeros_eq _ _ h (by omega)]
  rw [Res.val_bind, Nat.zero_add]
  dsimp only
  rw [peek1 h1, hr1]
  have hchk : ((b.rem.drop (lz b.rem)).head?.map (fun x => x.toNat) == none ||
      (b.rem.drop (lz b.rem)).head?.map (fun x => x.toNat) == some 1) = true := by
    by_cases hlt : lz b.rem < b.rem.length
    · obtain ⟨t, ht⟩ := drop_lz _ hlt
      rw [ht]; rfl
    · rw [List.drop_eq_nil_of_le (by omega)]; rfl
  rw [Res.val_bind, hchk, Res.check_true, Res.val_bind]
  rw [readBits_eq h1, hr1]
  unfold ueDec
  by_cases hc : lz b.rem + 1 ≤ 32 ∧ lz b.rem + (lz b.rem + 1) ≤ b.rem.length
  · rw [if_neg (by omega), if_neg (by simp; omega), if_pos hc]
    simp only [Res.val_bind, Res.pure_eq, adv_adv]
    obtain ⟨t, ht⟩ := drop_lz b.rem (by omega)
    rw [ht]
    have hlt := bitsVal_lt (List.take (lz b.rem + 1) (true :: t))
    have hle : (List.take (lz b.rem + 1) (true :: t)).length ≤ 32 := by simp; omega
    have hp : 2 ^ (List.take (lz b.rem + 1) (true :: t)).length ≤ 2 ^ 32 :=
      Nat.pow_le_pow_right (by omega) hle
    have h0 : 1 ≤ bitsVal (List.take (lz b.rem + 1) (true :: t)) := by
      simp; have := Nat.two_pow_pos (min (lz b.rem) t.length); omega
    rw [sub32_eq h0 (by omega)]
  · rw [if_neg hc]
    by_cases h32 : lz b.rem + 1 > 32
    · rw [if_pos h32]
      simp only [Res.val_bind, Res.pure_eq]
      rw [seek_self h (by simp)]
      cases nd <;> simp
    · rw [if_neg h32, if_pos (by simp; omega)]
      simp only [Res.val_bind, Res.pure_eq]
      rw [seek_self h (by simp)]
      cases nd <;> simp

theorem readSE_eq (nd : Bool) {b : Buf} (h : b.WF) :
    b.readSE nd = .val (match ueDec b.rem with
      | some (v, _) => (some (seVal v), b.adv (lz b.rem + (lz b.rem + 1)))
      | none => (none, if nd then b.adv (lz b.rem) else b)) := by
  unfold readSE
  rw [readUE_eq nd h]
  cases hu : ueDec b.rem with
  | none => simp
  | some p =>
    obtain ⟨k, r⟩ := p
    have hk := ((ueDec_iff _ _ _).mp hu).1
    simp only [Res.val_bind]
    rw [Nat.and_one_is_mod]
    unfold seVal
    by_cases hp : k % 2 = 0
    · rw [if_pos hp, if_pos hp, toI32_eq (by omega), sint_eq (by omega) (by omega)]
      simp
    · rw [if_neg hp, if_neg hp, add32_eq (by omega), toI32_eq (by omega)]
      simp

end Buf
end H264

import Verif.Props.Framerate
import Verif.Props.Reach
import Verif.Spec.FloatLen

/-
C62: the lengths computed in floating point.
-/

namespace H264.Props
open H264.Spec H264.Fl

theorem IsVal.toRat {f : Fl} {x : ℚ} (h : IsVal f x) : f.toRat = x := by
  obtain ⟨m, e, rfl, rfl⟩ := h
  rfl

/-- Quotient of two finite values. -/
theorem div_spec {f g : Fl} {a b : ℚ} (hf : IsVal f a) (hg : IsVal g b) (ha : 0 < a) (hb : 0 < b)
    (h1 : (2 : ℚ) ^ (-40 : ℤ) ≤ a / b) (h2 : a / b < 2 ^ 40) :
    ∃ y, IsVal (f.div g) y ∧ RoundsTo binary64 (a / b) y ∧ |y - a / b| ≤ a / b / 2 ^ 53 := by
  obtain ⟨m, e, rfl, hm⟩ := hf
  obtain ⟨k, j, rfl, hk⟩ := hg
  have hk0 : k ≠ 0 := by rintro rfl; rw [hk] at hb; simp at hb
  have hm0 : m ≠ 0 := by rintro rfl; rw [hm] at ha; simp at ha
  have hq : (((m * 2 ^ (e - j).toNat : Nat) : ℚ) / ((k * 2 ^ (j - e).toNat : Nat) : ℚ)) = a / b := by
    have h5 : (2 : ℚ) ^ e = 2 ^ (e - j) * 2 ^ j := by rw [← zpow_add₀ (by norm_num)]; congr 1; ring
    have h6 : (2 : ℚ) ^ (e - j) = 2 ^ (e - j).toNat / 2 ^ (j - e).toNat := by
      rw [two_zpow_split]; congr 2; omega
    have hkq : (k : ℚ) ≠ 0 := by exact_mod_cast hk0
    have hj : (2 : ℚ) ^ j ≠ 0 := ne_of_gt (zpow_pos (by norm_num) _)
    have hp : (2 : ℚ) ^ (j - e).toNat ≠ 0 := by positivity
    rw [hm, hk, h5, h6]
    push_cast
    field_simp
  obtain ⟨y, h5, h6, h7⟩ := round_spec binary64 (m * 2 ^ (e - j).toNat) (k * 2 ^ (j - e).toNat)
    (Nat.mul_pos (Nat.pos_of_ne_zero hm0) (Nat.pow_pos (by norm_num)))
    (Nat.mul_pos (Nat.pos_of_ne_zero hk0) (Nat.pow_pos (by norm_num))) (by decide) (by decide)
    (by rw [hq]; exact lt_big _ h2 (by decide))
  rw [hq] at h6 h7
  refine ⟨y, ?_, h6, h7 (le_trans (zpow_le_zpow_right₀ (by norm_num) (by decide)) h1)⟩
  unfold Fl.div
  dsimp only
  rw [if_neg hk0]
  exact h5

/-- Sum of two finite values, not both zero. -/
theorem add_spec {f g : Fl} {a b : ℚ} (hf : IsVal f a) (hg : IsVal g b) (h1 : 1 ≤ a + b) (h2 : a + b < 2 ^ 40) :
    ∃ y, IsVal (f.add g) y ∧ RoundsTo binary64 (a + b) y ∧ |y - (a + b)| ≤ (a + b) / 2 ^ 53 := by
  obtain ⟨m, e, rfl, hm⟩ := hf
  obtain ⟨k, j, rfl, hk⟩ := hg
  have hq : (((m * 2 ^ (e - min e j).toNat * 2 ^ (min e j).toNat + k * 2 ^ (j - min e j).toNat * 2 ^ (min e j).toNat : Nat) : ℚ) /
      ((2 ^ (-(min e j)).toNat : Nat) : ℚ)) = a + b := by
    have h5 : (2 : ℚ) ^ e = 2 ^ (e - min e j).toNat * 2 ^ (min e j) := by
      rw [← zpow_natCast, ← zpow_add₀ (by norm_num)]; congr 1; omega
    have h6 : (2 : ℚ) ^ j = 2 ^ (j - min e j).toNat * 2 ^ (min e j) := by
      rw [← zpow_natCast, ← zpow_add₀ (by norm_num)]; congr 1; omega
    rw [hm, hk, h5, h6, two_zpow_split (min e j)]
    push_cast
    have hp : (2 : ℚ) ^ (-(min e j)).toNat ≠ 0 := by positivity
    field_simp
  have hd : 0 < 2 ^ (-(min e j)).toNat := Nat.pow_pos (by norm_num)
  have hn : 0 < m * 2 ^ (e - min e j).toNat * 2 ^ (min e j).toNat + k * 2 ^ (j - min e j).toNat * 2 ^ (min e j).toNat := by
    apply Nat.pos_of_ne_zero
    intro h0
    rw [h0] at hq
    simp at hq
    linarith
  obtain ⟨y, h5, h6, h7⟩ := round_spec binary64 _ _ hn hd (by decide) (by decide)
    (by rw [hq]; exact lt_big _ h2 (by decide))
  rw [hq] at h6 h7
  refine ⟨y, ?_, h6, h7 (le_trans ?_ h1)⟩
  · unfold Fl.add
    exact h5
  · have : (2 : ℚ) ^ (binary64.emin + binary64.p - 1) ≤ 2 ^ (0 : ℤ) := zpow_le_zpow_right₀ (by norm_num) (by decide)
    simpa using this

theorem one_mul_val (b : Nat) (h : b < 2 ^ 32) : IsVal ((Fl.fin 1 0).mul (Fl.ofNat b)) (b : ℚ) := by
  obtain ⟨m, e, h1, h2⟩ := ofNat_val b h
  rw [h1]
  unfold Fl.mul
  have hq : (b : ℚ) < 2 ^ 40 := by
    have : (b : ℚ) < 2 ^ 32 := by exact_mod_cast h
    linarith
  refine round_exact binary64 _ _ (Nat.pow_pos (by norm_num)) (by decide) (by decide) ?_ (lt_big _ hq (by decide))
    (inFormat_nat _ _ (by show b < 2 ^ 53; omega) (by decide) (by decide))
  rw [frac_val]
  push_cast
  rw [h2, zero_add]
  ring

/-- The ceiling of an approximate logarithm of a number that keeps away from powers of two. -/
theorem ceil_core (j : ℕ) {l x : ℝ} (h1 : 2 ^ j * (1 + 1 / 2 ^ 33) ≤ x) (h2 : x ≤ 2 ^ (j + 1) * (1 - 1 / 2 ^ 35))
    (h : |l - Real.logb 2 x| ≤ 1 / 2 ^ 40) : ⌈l⌉ = (j : ℤ) + 1 := by
  have hA : (0 : ℝ) < 2 ^ j := by positivity
  have hB : (0 : ℝ) < 2 ^ (j + 1) := by positivity
  have hx : 0 < x := lt_of_lt_of_le (by positivity) h1
  have hl2 : 0 < Real.log 2 := Real.log_pos (by norm_num)
  have hl1 : Real.log 2 < 1 := by have := Real.log_lt_sub_one_of_pos (show (0 : ℝ) < 2 by norm_num) (by norm_num); linarith
  have hpow : ∀ n : ℕ, Real.logb 2 (2 ^ n) = n := fun n => by
    rw [← Real.rpow_natCast]; exact Real.logb_rpow (by norm_num) (by norm_num)
  have lo : (j : ℝ) + 1 / 2 ^ 34 ≤ Real.logb 2 x := by
    have a1 : Real.logb 2 (2 ^ j * (1 + 1 / 2 ^ 33)) ≤ Real.logb 2 x :=
      Real.logb_le_logb_of_le (by norm_num) (by positivity) h1
    rw [Real.logb_mul (by positivity) (by positivity), hpow] at a1
    have a2 : (1 : ℝ) / 2 ^ 34 ≤ Real.logb 2 (1 + 1 / 2 ^ 33) := by
      rw [Real.logb, le_div_iff₀ hl2]
      have a3 := Real.one_sub_inv_le_log_of_pos (by positivity : (0 : ℝ) < 1 + 1 / 2 ^ 33)
      have a4 : (1 : ℝ) / 2 ^ 34 ≤ 1 - (1 + 1 / 2 ^ 33)⁻¹ := by norm_num
      have a5 : (1 : ℝ) / 2 ^ 34 * Real.log 2 ≤ 1 / 2 ^ 34 * 1 := mul_le_mul_of_nonneg_left (le_of_lt hl1) (by positivity)
      linarith
    linarith
  have hi : Real.logb 2 x ≤ (j : ℝ) + 1 - 1 / 2 ^ 35 := by
    have hu : (0 : ℝ) < 1 - 1 / 2 ^ 35 := by norm_num
    have a1 : Real.logb 2 x ≤ Real.logb 2 (2 ^ (j + 1) * (1 - 1 / 2 ^ 35)) :=
      Real.logb_le_logb_of_le (by norm_num) hx h2
    rw [Real.logb_mul (ne_of_gt hB) (ne_of_gt hu), hpow] at a1
    have a2 : Real.logb 2 (1 - 1 / 2 ^ 35) ≤ -(1 / 2 ^ 35) := by
      rw [Real.logb, div_le_iff₀ hl2]
      have a3 := Real.log_le_sub_one_of_pos hu
      have a5 : (1 : ℝ) / 2 ^ 35 * Real.log 2 ≤ 1 / 2 ^ 35 * 1 := mul_le_mul_of_nonneg_left (le_of_lt hl1) (by positivity)
      linarith
    push_cast at a1
    linarith
  have h3 := abs_le.1 h
  rw [Int.ceil_eq_iff]
  push_cast
  constructor
  · have : (1 : ℝ) / 2 ^ 40 < 1 / 2 ^ 34 := by norm_num
    linarith
  · have : (1 : ℝ) / 2 ^ 40 < 1 / 2 ^ 35 := by norm_num
    linarith

/-- The exact length in terms of `j` with 2^j < P / R + 1 ≤ 2^(j+1). -/
theorem ceilLog2_bounds {P R : Nat} (hP : 0 < P) (hR : 0 < R) :
    ∃ j, ceilLog2 ((P + R - 1) / R + 1) = j + 1 ∧ R * 2 ^ j + 1 ≤ P + R ∧ P + R ≤ R * 2 ^ (j + 1) := by
  have hc : 1 ≤ (P + R - 1) / R := (Nat.le_div_iff_mul_le hR).2 (by omega)
  refine ⟨((P + R - 1) / R).log2, ?_, ?_, ?_⟩
  · unfold ceilLog2
    rw [if_neg (by omega), Nat.add_sub_cancel]
  · have h1 : 2 ^ ((P + R - 1) / R).log2 ≤ (P + R - 1) / R := Nat.log2_self_le (by omega)
    have h2 := (Nat.le_div_iff_mul_le hR).1 h1
    rw [Nat.mul_comm] at h2
    omega
  · have h1 : (P + R - 1) / R < 2 ^ (((P + R - 1) / R).log2 + 1) := Nat.lt_log2_self
    have h2 := (Nat.div_lt_iff_lt_mul hR).1 h1
    generalize 2 ^ (((P + R - 1) / R).log2 + 1) = z at h1 h2 ⊢
    rw [Nat.mul_comm]
    by_contra hlt
    have h3 : z * R < P + R := by omega
    omega

/-- The margins between P / R + 1 and the powers of two around it. -/
theorem cycle_margin {P R j : Nat} (hP : 0 < P) (hP2 : P ≤ 2 ^ 21) (hR : 0 < R) (hR2 : R < 2 ^ 32)
    (h1 : R * 2 ^ j + 1 ≤ P + R) :
    (2 : ℚ) ^ j + 2 ^ j / 2 ^ 32 ≤ P / R + 1 ∧
      (P + R < R * 2 ^ (j + 1) → (P / R + 1 : ℚ) ≤ 2 ^ (j + 1) - 2 ^ (j + 1) / 2 ^ 33) := by
  have hRq : (0 : ℚ) < R := by exact_mod_cast hR
  have hb : R * 2 ^ j ≤ 2 ^ 32 := by
    rcases Nat.eq_zero_or_pos j with h | h
    · subst h; omega
    · have h2 : 2 ≤ 2 ^ j := by
        calc 2 = 2 ^ 1 := rfl
          _ ≤ 2 ^ j := Nat.pow_le_pow_right (by norm_num) h
      have h3 : R * 2 ≤ R * 2 ^ j := Nat.mul_le_mul_left R h2
      omega
  have hbq : (R : ℚ) * 2 ^ j ≤ 2 ^ 32 := by exact_mod_cast hb
  have hd : (P / R + 1 : ℚ) = (P + R) / R := by field_simp
  have h1q : (R : ℚ) * 2 ^ j + 1 ≤ P + R := by exact_mod_cast h1
  rw [hd]
  constructor
  · rw [le_div_iff₀ hRq]
    have : ((2 : ℚ) ^ j + 2 ^ j / 2 ^ 32) * R = R * 2 ^ j + (R * 2 ^ j) / 2 ^ 32 := by ring
    rw [this]
    have : (R * 2 ^ j : ℚ) / 2 ^ 32 ≤ 1 := by rw [div_le_one (by norm_num)]; exact hbq
    linarith
  · intro h2
    rw [div_le_iff₀ hRq]
    have h2q : (P + R : ℚ) + 1 ≤ R * 2 ^ (j + 1) := by exact_mod_cast h2
    have h3 : ((2 : ℚ) ^ (j + 1) - 2 ^ (j + 1) / 2 ^ 33) * R = R * 2 ^ (j + 1) - (R * 2 ^ j) / 2 ^ 32 := by
      rw [pow_succ]; ring
    rw [h3]
    have : (R * 2 ^ j : ℚ) / 2 ^ 32 ≤ 1 := by rw [div_le_one (by norm_num)]; exact hbq
    linarith

/-- What `log2` gives for a number as near to P / R + 1 as two roundings keep it. -/
theorem ceil_near {P R j : Nat} (hP : 0 < P) (hP2 : P ≤ 2 ^ 21) (hR : 0 < R) (hR2 : R < 2 ^ 32)
    (h1 : R * 2 ^ j + 1 ≤ P + R) (h2 : P + R < R * 2 ^ (j + 1)) {l : ℝ} {x : ℚ}
    (hx : |x - (P / R + 1 : ℚ)| ≤ (P / R + 1 : ℚ) / 2 ^ 51) (h : |l - Real.logb 2 x| ≤ 1 / 2 ^ 40) :
    ⌈l⌉ = (j : ℤ) + 1 := by
  obtain ⟨a, b⟩ := cycle_margin hP hP2 hR hR2 h1
  have b := b h2
  have hx' := abs_le.1 hx
  have hA : (0 : ℚ) < 2 ^ j := by positivity
  have hB : (0 : ℚ) < 2 ^ (j + 1) := by positivity
  generalize (P / R + 1 : ℚ) = t at *
  refine ceil_core j (x := (x : ℝ)) ?_ ?_ h
  · have : (2 : ℚ) ^ j * (1 + 1 / 2 ^ 33) ≤ x := by
      generalize (2 : ℚ) ^ j = A at *
      linarith
    have := (Rat.cast_le (K := ℝ)).2 this
    push_cast at this
    exact this
  · have : x ≤ (2 : ℚ) ^ (j + 1) * (1 - 1 / 2 ^ 35) := by
      generalize (2 : ℚ) ^ (j + 1) = B at *
      linarith
    have := (Rat.cast_le (K := ℝ)).2 this
    push_cast at this
    exact this

/-- C62: whatever `std::log2` of reasonable quality is used, the length of slice_group_change_cycle that the code computes in
floating point is the one of the standard, and the one the model uses, for every picture size and change rate the parsers
let through. -/
theorem C62_cycle_len {log2 : ℚ → ℝ} (hl : UsableLog2 log2) (w h rate : Nat) (hw : w + 1 ≤ 1056) (hh : h + 1 ≤ 1056)
    (hr : rate + 1 < 2 ^ 32) :
    ceilLog log2 (cycleLenArg ((w + 1) * (h + 1)) (rate + 1)) = stdCycleLen ((w + 1) * (h + 1)) (rate + 1) ∧
      ∃ n : Nat, sliceGroupChangeCycleLen w h rate = .val n ∧ stdCycleLen ((w + 1) * (h + 1)) (rate + 1) = n := by
  have hP : 0 < (w + 1) * (h + 1) := by positivity
  have hP2 : (w + 1) * (h + 1) ≤ 2 ^ 21 := le_trans (Nat.mul_le_mul hw hh) (by norm_num)
  have hmodel : sliceGroupChangeCycleLen w h rate = .val (ceilLog2 (((w + 1) * (h + 1) + (rate + 1) - 1) / (rate + 1) + 1)) := by
    unfold sliceGroupChangeCycleLen
    dsimp only
    have e1 : add32 w 1 = w + 1 := add32_eq (by omega)
    have e2 : add32 h 1 = h + 1 := add32_eq (by omega)
    have e3 : add32 rate 1 = rate + 1 := add32_eq (by omega)
    have e4 : mul32 (w + 1) (h + 1) = (w + 1) * (h + 1) := mul32_eq (by omega)
    rw [e1, e2, e3, e4, if_neg (by omega)]
  have hR : 0 < rate + 1 := by omega
  generalize (w + 1) * (h + 1) = P at *
  generalize rate + 1 = R at *
  obtain ⟨j, hj, hb1, hb2⟩ := ceilLog2_bounds hP hR
  have hRq : (0 : ℚ) < R := by exact_mod_cast hR
  have hPq : (1 : ℚ) ≤ P := by exact_mod_cast hP
  have hPq2 : (P : ℚ) ≤ 2 ^ 21 := by exact_mod_cast hP2
  have hRq1 : (1 : ℚ) ≤ R := by exact_mod_cast hR
  have hRq2 : (R : ℚ) < 2 ^ 32 := by exact_mod_cast hr
  have hq1 : (2 : ℚ) ^ (-40 : ℤ) ≤ P / R := by
    rw [le_div_iff₀ hRq]
    have : (2 : ℚ) ^ (-40 : ℤ) = 1 / 2 ^ 40 := by norm_num
    rw [this]; linarith
  have hq2 : (P / R : ℚ) ≤ 2 ^ 21 := by
    rw [div_le_iff₀ hRq]; linarith
  have hq0 : (0 : ℚ) < P / R := by positivity
  obtain ⟨y, hy, hyr, hye⟩ := div_spec (one_mul_val P (by omega)) (ofNat_val R hr) (by linarith) hRq hq1
    (by linarith)
  have hye' := abs_le.1 hye
  have hone : IsVal (Fl.ofNat 1) ((1 : ℕ) : ℚ) := ofNat_val 1 (by norm_num)
  rw [Nat.cast_one] at hone
  obtain ⟨x, hx, hxr, hxe⟩ := add_spec hy hone (by linarith) (by linarith)
  have hxe' := abs_le.1 hxe
  have hxt : cycleLenArg P R = (((Fl.fin 1 0).mul (Fl.ofNat P)).div (Fl.ofNat R)).add (Fl.ofNat 1) := rfl
  have hceil : ceilLog log2 (cycleLenArg P R) = ⌈log2 x⌉ := by rw [ceilLog, hxt, IsVal.toRat hx]
  have hstd : stdCycleLen P R = ⌈Real.logb 2 (((P / R + 1 : ℚ)) : ℝ)⌉ := by rw [stdCycleLen]; push_cast; rfl
  have hpow : Real.logb 2 ((2 : ℝ) ^ (j + 1)) = ((j + 1 : ℕ) : ℝ) := by
    rw [← Real.rpow_natCast]; exact Real.logb_rpow (by norm_num) (by norm_num)
  have key : ⌈log2 x⌉ = (j : ℤ) + 1 ∧ stdCycleLen P R = (j : ℤ) + 1 := by
    rcases Nat.lt_or_ge (P + R) (R * 2 ^ (j + 1)) with hlt | hge
    · constructor
      · refine ceil_near hP hP2 hR hr hb1 hlt (x := x) ?_ (hl.2 x (by linarith) (by linarith))
        rw [abs_le]
        constructor <;> linarith
      · rw [hstd]
        refine ceil_near hP hP2 hR hr hb1 hlt (x := P / R + 1) ?_ (by simp)
        rw [sub_self, abs_zero]
        positivity
    · have heq : P + R = R * 2 ^ (j + 1) := by omega
      have heqq : (P + R : ℚ) = R * 2 ^ (j + 1) := by exact_mod_cast heq
      have ht : (P / R + 1 : ℚ) = 2 ^ (j + 1) := by
        have : (P / R + 1 : ℚ) = (P + R) / R := by field_simp
        rw [this, heqq, mul_div_cancel_left₀ _ (ne_of_gt hRq)]
      have hpl : (2 : ℕ) ^ (j + 1) ≤ 2 ^ 22 := by
        have h3 : ((2 ^ (j + 1) : ℕ) : ℚ) ≤ 2 ^ 22 := by push_cast; rw [← ht]; linarith
        exact_mod_cast h3
      have hp1 : 1 ≤ (2 : ℕ) ^ (j + 1) := Nat.one_le_two_pow
      have hyN : y = P / R := by
        refine RoundsTo.of_inFormat hyr ?_
        have : (P / R : ℚ) = ((2 ^ (j + 1) - 1 : ℕ) : ℚ) := by
          rw [Nat.cast_sub hp1]; push_cast; linarith
        rw [this]
        exact inFormat_nat _ _ (show _ < 2 ^ 53 by omega) (by decide) (by decide)
      have hxN : x = 2 ^ (j + 1) := by
        rw [hyN, ht] at hxr
        refine RoundsTo.of_inFormat hxr ?_
        have : (2 : ℚ) ^ (j + 1) = ((2 ^ (j + 1) : ℕ) : ℚ) := by push_cast; rfl
        rw [this]
        exact inFormat_nat _ _ (show _ < 2 ^ 53 by omega) (by decide) (by decide)
      constructor
      · rw [hxN, hl.1 (j + 1), Int.ceil_natCast]; push_cast; rfl
      · rw [hstd, ht]
        push_cast
        rw [hpow, Int.ceil_natCast]; push_cast; rfl
  refine ⟨by rw [hceil, key.1, key.2], j + 1, by rw [hmodel, hj], by rw [key.2]; push_cast; rfl⟩

/-- C62: the same for the length of slice_group_id, for every number of slice groups (the parser allows 8). -/
theorem C62_id_len {log2 : ℚ → ℝ} (hl : UsableLog2 log2) (n : Nat) (hn : n ≤ 7) :
    ceilLog log2 (idLenArg n) = stdIdLen n ∧ stdIdLen n = sliceGroupIdLen n := by
  have hone : IsVal (Fl.ofNat 1) ((1 : ℕ) : ℚ) := ofNat_val 1 (by norm_num)
  rw [Nat.cast_one] at hone
  have hnq : (n : ℚ) ≤ 7 := by exact_mod_cast hn
  have hn0 : (0 : ℚ) ≤ n := by positivity
  obtain ⟨x, hx, hxr, _⟩ := add_spec (one_mul_val n (by omega)) hone (by linarith) (by linarith)
  have hxn : x = n + 1 := by
    refine RoundsTo.of_inFormat hxr ?_
    have : (n + 1 : ℚ) = ((n + 1 : ℕ) : ℚ) := by push_cast; rfl
    rw [this]
    exact inFormat_nat _ _ (show _ < 2 ^ 53 by omega) (by decide) (by decide)
  have hceil : ceilLog log2 (idLenArg n) = ⌈log2 (n + 1)⌉ := by
    rw [← hxn, ceilLog, ← IsVal.toRat hx]; rfl
  have hpow : ∀ k : ℕ, Real.logb 2 ((2 : ℝ) ^ k) = (k : ℝ) := fun k => by
    rw [← Real.rpow_natCast]; exact Real.logb_rpow (by norm_num) (by norm_num)
  have exact : ∀ k : ℕ, n + 1 = 2 ^ k → ⌈log2 (n + 1)⌉ = (k : ℤ) ∧ stdIdLen n = (k : ℤ) := by
    intro k hk
    have h1 : (n + 1 : ℚ) = 2 ^ k := by exact_mod_cast hk
    have h2 : (n + 1 : ℝ) = 2 ^ k := by exact_mod_cast hk
    rw [h1, hl.1 k, stdIdLen, h2, hpow, Int.ceil_natCast]
    exact ⟨rfl, rfl⟩
  have near : ∀ j : ℕ, 0 < n → 2 ^ j + 1 ≤ n + 1 → n + 1 < 2 ^ (j + 1) →
      ⌈log2 (n + 1)⌉ = (j : ℤ) + 1 ∧ stdIdLen n = (j : ℤ) + 1 := by
    intro j h0 h1 h2
    have ht : ((n : ℚ) / (1 : ℕ) + 1) = n + 1 := by simp
    constructor
    · refine ceil_near (P := n) (R := 1) (x := n + 1) h0 (by omega) (by norm_num) (by norm_num) (by omega) (by omega) ?_
        (hl.2 (n + 1) (by linarith) (by linarith))
      rw [ht, sub_self, abs_zero]; positivity
    · have hs : stdIdLen n = ⌈Real.logb 2 (((n + 1 : ℚ)) : ℝ)⌉ := by rw [stdIdLen]; push_cast; rfl
      rw [hs]
      refine ceil_near (P := n) (R := 1) (x := n + 1) h0 (by omega) (by norm_num) (by norm_num) (by omega) (by omega) ?_
        (by simp)
      rw [ht, sub_self, abs_zero]; positivity
  rw [hceil]
  have all : ∃ k : ℕ, sliceGroupIdLen n = k ∧ ⌈log2 (n + 1)⌉ = (k : ℤ) ∧ stdIdLen n = (k : ℤ) := by
    have hc : n = 0 ∨ n = 1 ∨ n = 2 ∨ n = 3 ∨ n = 4 ∨ n = 5 ∨ n = 6 ∨ n = 7 := by omega
    rcases hc with h | h | h | h | h | h | h | h
    · exact ⟨0, by rw [h]; decide +kernel, exact 0 (by omega)⟩
    · exact ⟨1, by rw [h]; decide +kernel, exact 1 (by omega)⟩
    · exact ⟨2, by rw [h]; decide +kernel, near 1 (by omega) (by omega) (by omega)⟩
    · exact ⟨2, by rw [h]; decide +kernel, exact 2 (by omega)⟩
    · exact ⟨3, by rw [h]; decide +kernel, near 2 (by omega) (by omega) (by omega)⟩
    · exact ⟨3, by rw [h]; decide +kernel, near 2 (by omega) (by omega) (by omega)⟩
    · exact ⟨3, by rw [h]; decide +kernel, near 2 (by omega) (by omega) (by omega)⟩
    · exact ⟨3, by rw [h]; decide +kernel, exact 3 (by omega)⟩
  obtain ⟨k, h1, h2, h3⟩ := all
  rw [h1, h2, h3]
  exact ⟨rfl, rfl⟩

/-- The logarithm itself is usable. -/
theorem usable_logb : UsableLog2 (fun x => Real.logb 2 x) := by
  refine ⟨fun k => ?_, fun x _ _ => by simp⟩
  push_cast
  rw [← Real.rpow_natCast]; exact Real.logb_rpow (by norm_num) (by norm_num)

/-- C62: with parameter sets that a parser state can hold, the length `cycleBits` in the statements about slice headers (C34) is the
one of the standard, and the floating point computation gives it. -/
theorem C62_cycle_bits {log2 : ℚ → ℝ} (hl : UsableLog2 log2) {σ : Store} (hσ : Reachable σ) {i k : Nat} {s : SpsData} {p : Pps}
    (hs : σ.sps i = some s ∨ ∃ u, σ.subset_sps i = some u ∧ u.seq_parameter_set_data = s) (hp : σ.pps k = some p) :
    let P := (s.pic_width_in_mbs_minus1 + 1) * (s.pic_height_in_map_units_minus1 + 1)
    let R := p.slice_group_change_rate_minus1 + 1
    (cycleBits s p : ℤ) = stdCycleLen P R ∧ ceilLog log2 (cycleLenArg P R) = stdCycleLen P R := by
  have hv := C36_reachable_valid hσ
  have hsr : s.InRange := by
    rcases hs with hs | ⟨u, hu, rfl⟩
    · exact (hv.sps i s hs).1
    · exact (hv.subset_sps i u hu).1.1
  have hpr := (hv.pps k p hp).1
  have h1 := (cycleLen_eq hsr hpr).1
  have hw := hsr.2.width
  have hh := hsr.2.height
  have hr : p.slice_group_change_rate_minus1 < 2 ^ 32 - 1 := by
    have := hpr.groups.change
    by_cases hc : p.num_slice_groups_minus1 > 0 ∧ 3 ≤ p.slice_group_map_type ∧ p.slice_group_map_type ≤ 5
    · rw [if_pos hc] at this; exact this.2
    · rw [if_neg hc] at this; rw [this.2]; decide
  obtain ⟨h2, n, h3, h4⟩ := C62_cycle_len hl s.pic_width_in_mbs_minus1 s.pic_height_in_map_units_minus1
    p.slice_group_change_rate_minus1 (by omega) (by omega) (by omega)
  dsimp only
  refine ⟨?_, h2⟩
  rw [h1] at h3
  rw [h4]
  have : cycleBits s p = n := by injection h3
  rw [this]

/-- A picture of 120 by 68 map units and a change rate of 100 give 7 bits; 99 map units and a rate of 1 also. -/
example : (sliceGroupChangeCycleLen 119 67 99 == .val 7) = true := by decide +kernel
example : (sliceGroupChangeCycleLen 10 8 0 == .val 7) = true := by decide +kernel
example : cycleLenArg (120 * 68) 100 = .fin 5812458269075046 (-46) := by decide +kernel
example : sliceGroupIdLen 4 = 3 := by decide +kernel
/-- C62_cycle_bits: a state with both parameter sets can be reached. -/
example : ∃ (σ : Store) (s : SpsData) (p : Pps), Reachable σ ∧ σ.sps 0 = some s ∧ σ.pps 0 = some p := by
  obtain ⟨σ, h, h1, h2⟩ := exReach
  exact ⟨σ, _, _, h, Option.some_get h1 |>.symm, Option.some_get h2 |>.symm⟩

end H264.Props

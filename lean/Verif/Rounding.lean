import Mathlib.Tactic.Linarith
import Mathlib.Tactic.Positivity
import Mathlib.Tactic.Ring
import Mathlib.Tactic.FieldSimp
import Mathlib.Tactic.NormNum
import Mathlib.Data.Rat.Lemmas
import Verif.Spec.Rounding

/-
The rounding function of the model is rounding to nearest, ties to even.
-/

namespace H264.Fl
open H264.Spec

theorem nearestNat_lo (n d : Nat) (hd : 0 < d) : 2 * n ≤ 2 * (nearestNat n d * d) + d := by
  have h := Nat.div_add_mod n d
  have hr := Nat.mod_lt n hd
  have hc : d * (n / d) = n / d * d := Nat.mul_comm _ _
  unfold nearestNat
  split
  · omega
  · split
    · rw [Nat.add_mul]; omega
    · rcases Nat.mod_two_eq_zero_or_one (n / d) with h2 | h2 <;> rw [h2]
      · simp; omega
      · rw [Nat.add_mul]; omega

theorem nearestNat_hi (n d : Nat) (hd : 0 < d) : 2 * (nearestNat n d * d) ≤ 2 * n + d := by
  have h := Nat.div_add_mod n d
  have hr := Nat.mod_lt n hd
  have hc : d * (n / d) = n / d * d := Nat.mul_comm _ _
  unfold nearestNat
  split
  · omega
  · split
    · rw [Nat.add_mul]; omega
    · rcases Nat.mod_two_eq_zero_or_one (n / d) with h2 | h2 <;> rw [h2]
      · simp; omega
      · rw [Nat.add_mul]; omega

theorem nearestNat_even (n d : Nat) (hd : 0 < d)
    (h2 : 2 * n = 2 * (nearestNat n d * d) + d ∨ 2 * (nearestNat n d * d) = 2 * n + d) :
    nearestNat n d % 2 = 0 := by
  have h := Nat.div_add_mod n d
  have hr := Nat.mod_lt n hd
  have hc : d * (n / d) = n / d * d := Nat.mul_comm _ _
  unfold nearestNat at h2 ⊢
  split at h2
  · omega
  · split at h2
    · rw [Nat.add_mul] at h2; omega
    · rename_i h3 h4
      rw [if_neg h3, if_neg h4]
      omega

/-- The nearest natural number, over the rationals. -/
theorem nearestNat_abs (n d : Nat) (hd : 0 < d) : |(nearestNat n d : ℚ) - n / d| ≤ 1 / 2 := by
  have h1 : (2 * n : ℚ) ≤ 2 * (nearestNat n d * d) + d := by exact_mod_cast nearestNat_lo n d hd
  have h2 : (2 * (nearestNat n d * d) : ℚ) ≤ 2 * n + d := by exact_mod_cast nearestNat_hi n d hd
  have hd' : (0 : ℚ) < d := by exact_mod_cast hd
  rw [abs_le]
  constructor
  · have : (n / d : ℚ) ≤ nearestNat n d + 1 / 2 := by
      rw [div_le_iff₀ hd']; linarith
    linarith
  · have : (nearestNat n d : ℚ) - 1 / 2 ≤ n / d := by
      rw [le_div_iff₀ hd']; linarith
    linarith

theorem nearestNat_tie (n d : Nat) (hd : 0 < d) (h : |(nearestNat n d : ℚ) - n / d| = 1 / 2) :
    nearestNat n d % 2 = 0 := by
  have hd' : (0 : ℚ) < d := by exact_mod_cast hd
  have hx : (n / d : ℚ) * d = n := div_mul_cancel₀ _ (ne_of_gt hd')
  apply nearestNat_even n d hd
  rcases (abs_eq (by norm_num)).1 h with h1 | h1
  · right
    have : (2 * (nearestNat n d * d) : ℚ) = 2 * n + d := by
      have h3 : (nearestNat n d : ℚ) = n / d + 1 / 2 := by linarith
      rw [h3, add_mul, hx]; ring
    exact_mod_cast this
  · left
    have : (2 * n : ℚ) = 2 * (nearestNat n d * d) + d := by
      have h3 : (nearestNat n d : ℚ) = n / d - 1 / 2 := by linarith
      rw [h3, sub_mul, hx]; ring
    exact_mod_cast this

/-- No integer is nearer. -/
theorem nearest_of_half {x m : ℚ} (hm : |m - x| ≤ 1 / 2) (mi : ℤ) (hmi : m = mi) (k : ℤ) : |m - x| ≤ |(k : ℚ) - x| := by
  by_cases hk : k = mi
  · rw [hk, hmi]
  · have h1 : (1 : ℚ) ≤ |(k : ℚ) - m| := by
      rw [hmi]
      have : (1 : ℤ) ≤ |k - mi| := Int.one_le_abs (sub_ne_zero.2 hk)
      exact_mod_cast this
    have h2 : |(k : ℚ) - m| ≤ |(k : ℚ) - x| + |m - x| := by
      rw [abs_sub_comm m x]; exact abs_sub_le _ _ _
    linarith

theorem tie_of_half {x m : ℚ} (hm : |m - x| ≤ 1 / 2) (mi : ℤ) (hmi : m = mi) (k : ℤ) (hk : k ≠ mi)
    (h : |(k : ℚ) - x| = |m - x|) : |m - x| = 1 / 2 ∧ (k = mi + 1 ∨ k = mi - 1) := by
  have h1 : (1 : ℚ) ≤ |(k : ℚ) - m| := by
    rw [hmi]
    have : (1 : ℤ) ≤ |k - mi| := Int.one_le_abs (sub_ne_zero.2 hk)
    exact_mod_cast this
  have h2 : |(k : ℚ) - m| ≤ |(k : ℚ) - x| + |m - x| := by
    rw [abs_sub_comm m x]; exact abs_sub_le _ _ _
  have h3 : |m - x| = 1 / 2 := by linarith
  refine ⟨h3, ?_⟩
  have h4 : |(k : ℚ) - m| = 1 := by linarith
  rw [hmi] at h4
  have h5 : |k - mi| = 1 := by exact_mod_cast h4
  rcases (abs_eq (by norm_num)).1 h5 with h6 | h6
  · left; omega
  · right; omega

theorem two_zpow_split (e : Int) : (2 : ℚ) ^ e = 2 ^ e.toNat / 2 ^ (-e).toNat := by
  rw [eq_div_iff (by positivity), ← zpow_natCast, ← zpow_natCast, ← zpow_add₀ (by norm_num)]
  congr 1
  omega

theorem powLe_iff (e : Int) (b a : Nat) : powLe e b a = true ↔ (2 : ℚ) ^ e * b ≤ a := by
  have hp : (0 : ℚ) < 2 ^ (-e).toNat := by positivity
  rw [powLe, decide_eq_true_iff, two_zpow_split, div_mul_eq_mul_div, div_le_iff₀ hp]
  exact_mod_cast Iff.rfl

theorem ilog_spec (n d : Nat) (hn : 0 < n) (hd : 0 < d) :
    (2 : ℚ) ^ ilog n d ≤ n / d ∧ (n / d : ℚ) < 2 ^ (ilog n d + 1) := by
  have hd' : (0 : ℚ) < d := by exact_mod_cast hd
  have hn1 : (2 : ℚ) ^ (n.log2 : ℤ) ≤ n := by
    rw [zpow_natCast]; exact_mod_cast Nat.log2_self_le (by omega)
  have hn2 : (n : ℚ) < 2 ^ ((n.log2 : ℤ) + 1) := by
    have : n < 2 ^ (n.log2 + 1) := Nat.lt_log2_self
    have h : (n : ℚ) < 2 ^ (n.log2 + 1) := by exact_mod_cast this
    exact_mod_cast h
  have hd1 : (2 : ℚ) ^ (d.log2 : ℤ) ≤ d := by
    rw [zpow_natCast]; exact_mod_cast Nat.log2_self_le (by omega)
  have hd2 : (d : ℚ) < 2 ^ ((d.log2 : ℤ) + 1) := by
    have : d < 2 ^ (d.log2 + 1) := Nat.lt_log2_self
    have h : (d : ℚ) < 2 ^ (d.log2 + 1) := by exact_mod_cast this
    exact_mod_cast h
  unfold ilog
  split
  · rename_i h
    rw [powLe_iff] at h
    refine ⟨(le_div_iff₀ hd').2 h, (div_lt_iff₀ hd').2 ?_⟩
    calc (n : ℚ) < 2 ^ ((n.log2 : ℤ) + 1) := hn2
      _ = 2 ^ ((n.log2 : ℤ) - d.log2 + 1) * 2 ^ (d.log2 : ℤ) := by
        rw [← zpow_add₀ (by norm_num)]; congr 1; ring
      _ ≤ 2 ^ ((n.log2 : ℤ) - d.log2 + 1) * d := by
        exact mul_le_mul_of_nonneg_left hd1 (le_of_lt (zpow_pos (by norm_num) _))
  · rename_i h
    rw [powLe_iff, not_le] at h
    refine ⟨(le_div_iff₀ hd').2 ?_, (div_lt_iff₀ hd').2 ?_⟩
    · calc (2 : ℚ) ^ ((n.log2 : ℤ) - d.log2 - 1) * d
          ≤ 2 ^ ((n.log2 : ℤ) - d.log2 - 1) * 2 ^ ((d.log2 : ℤ) + 1) :=
            mul_le_mul_of_nonneg_left (le_of_lt hd2) (le_of_lt (zpow_pos (by norm_num) _))
        _ = 2 ^ (n.log2 : ℤ) := by rw [← zpow_add₀ (by norm_num)]; congr 1; ring
        _ ≤ n := hn1
    · rw [sub_add_cancel]; exact h

/-- The facts about the place to which a number is rounded. -/
theorem scaled (e : Int) (n d : Nat) :
    (((n * 2 ^ (-e).toNat : Nat) : ℚ) / ((d * 2 ^ e.toNat : Nat) : ℚ)) = n / d / 2 ^ e := by
  rw [two_zpow_split]
  push_cast
  by_cases hd : (d : ℚ) = 0
  · simp [hd]
  · have h1 : (2 : ℚ) ^ e.toNat ≠ 0 := by positivity
    have h2 : (2 : ℚ) ^ (-e).toNat ≠ 0 := by positivity
    field_simp

/-- A number `M * 2 ^ e` with `M` the nearest even natural number to `x / 2 ^ e` is `x` rounded, when `e` is the place the
format has for `x`. -/
theorem roundsTo_of_nearest (F : Format) {x : ℚ} (e : Int) (M : Nat) (hp : 0 < F.p)
    (hx1 : e = F.emin ∨ (2 : ℚ) ^ (e + F.p - 1) ≤ x)
    (hmem : InFormat F (M * (2 : ℚ) ^ e))
    (hM : |(M : ℚ) - x / 2 ^ e| ≤ 1 / 2) (htie : |(M : ℚ) - x / 2 ^ e| = 1 / 2 → M % 2 = 0) :
    RoundsTo F x (M * (2 : ℚ) ^ e) := by
  have he : (0 : ℚ) < 2 ^ e := zpow_pos (by norm_num) _
  have key : ∀ q : ℚ, |q * 2 ^ e - x| = |q - x / 2 ^ e| * 2 ^ e := by
    intro q
    rw [← abs_of_pos he, ← abs_mul, abs_of_pos he, sub_mul, div_mul_cancel₀ _ (ne_of_gt he)]
  have hMi : (M : ℚ) = ((M : ℤ) : ℚ) := by push_cast; rfl
  have hint : ∀ k : ℤ, |(M : ℚ) * 2 ^ e - x| ≤ |(k : ℚ) * 2 ^ e - x| := by
    intro k
    rw [key, key]
    exact mul_le_mul_of_nonneg_right (nearest_of_half hM M hMi k) (le_of_lt he)
  have hz : ∀ z, InFormat F z → (∃ k : ℤ, z = k * (2 : ℚ) ^ e) ∨
      (F.emin < e ∧ z < (((2 ^ (F.p - 1) : ℕ) : ℤ) : ℚ) * 2 ^ e ∧ (((2 ^ (F.p - 1) : ℕ) : ℤ) : ℚ) * 2 ^ e ≤ x) := by
    rintro z ⟨m, e', hm, h1, h2, rfl⟩
    by_cases hee : e ≤ e'
    · left
      refine ⟨m * 2 ^ (e' - e).toNat, ?_⟩
      push_cast
      rw [mul_assoc, ← zpow_natCast, ← zpow_add₀ (by norm_num)]
      congr 2
      omega
    · right
      have hpe : (((2 ^ (F.p - 1) : ℕ) : ℤ) : ℚ) * 2 ^ e = 2 ^ (e + F.p - 1) := by
        push_cast
        rw [← zpow_natCast, ← zpow_add₀ (by norm_num)]
        congr 1
        omega
      rw [hpe]
      refine ⟨by omega, ?_, ?_⟩
      · calc (m : ℚ) * 2 ^ e' < 2 ^ F.p * 2 ^ e' := by
              apply mul_lt_mul_of_pos_right _ (zpow_pos (by norm_num) _)
              exact_mod_cast hm
          _ = 2 ^ ((F.p : ℤ) + e') := by rw [zpow_add₀ (by norm_num), zpow_natCast]
          _ ≤ 2 ^ (e + F.p - 1) := zpow_le_zpow_right₀ (by norm_num) (by omega)
      · rcases hx1 with h | h
        · omega
        · exact h
  refine ⟨hmem, ?_, ?_⟩
  · intro z hzF
    rcases hz z hzF with ⟨k, rfl⟩ | ⟨_, h1, h2⟩
    · exact hint k
    · refine le_trans (hint ((2 ^ (F.p - 1) : ℕ) : ℤ)) ?_
      rw [abs_of_nonpos (by linarith), abs_of_nonpos (by linarith)]
      linarith
  · intro z hzF hne hzt
    rcases hz z hzF with ⟨k, rfl⟩ | ⟨_, h1, h2⟩
    · rw [key, key] at hzt
      have h3 := mul_right_cancel₀ (ne_of_gt he) hzt
      have hk : k ≠ M := by
        rintro rfl
        exact hne (by push_cast; rfl)
      obtain ⟨h4, h5⟩ := tie_of_half hM M hMi k hk h3
      have h6 := htie h4
      have h7 : (M : ℚ) = 2 * ((M / 2 : ℕ) : ℤ) := by
        have : M = 2 * (M / 2) := by omega
        push_cast
        exact_mod_cast this
      refine ⟨((M / 2 : ℕ) : ℤ), e, by rw [← h7], ?_⟩
      rw [← h7]
      rcases h5 with h | h
      · left; rw [h]; push_cast; rfl
      · right; rw [h]; push_cast; rfl
    · exfalso
      have h3 := hint ((2 ^ (F.p - 1) : ℕ) : ℤ)
      rw [abs_of_nonpos (by linarith : (((2 ^ (F.p - 1) : ℕ) : ℤ) : ℚ) * 2 ^ e - x ≤ 0)] at h3
      rw [abs_of_nonpos (by linarith : z - x ≤ 0)] at hzt
      linarith

/-- Rounding within the range of the format. -/
theorem round_spec (F : Format) (n d : Nat) (hn : 0 < n) (hd : 0 < d) (hp : 0 < F.p) (hr : F.emin < F.emax)
    (hx : (n / d : ℚ) < 2 ^ (F.emax + F.p - 1)) :
    ∃ y, IsVal (round F n d) y ∧ RoundsTo F (n / d) y ∧
      ((2 : ℚ) ^ (F.emin + F.p - 1) ≤ n / d → |y - n / d| ≤ n / d / 2 ^ F.p) := by
  obtain ⟨hl1, hl2⟩ := ilog_spec n d hn hd
  have h2 : (1 : ℚ) < 2 := by norm_num
  have hil : ilog n d < F.emax + F.p - 1 := by
    rw [← zpow_lt_zpow_iff_right₀ h2]; exact lt_of_le_of_lt hl1 hx
  have hp1 : ((F.p : ℤ) - 1) = ((F.p - 1 : ℕ) : ℤ) := by omega
  unfold round
  rw [if_neg (by omega)]
  dsimp only
  generalize hE : max F.emin (ilog n d - ((F.p : ℤ) - 1)) = e
  have he1 : F.emin ≤ e := by rw [← hE]; exact le_max_left _ _
  have he2 : e < F.emax := by rw [← hE]; exact max_lt hr (by omega)
  have hxe : (n / d : ℚ) < 2 ^ (e + F.p) := by
    refine lt_of_lt_of_le hl2 ((zpow_le_zpow_iff_right₀ h2).2 ?_)
    have : ilog n d - ((F.p : ℤ) - 1) ≤ e := by rw [← hE]; exact le_max_right _ _
    omega
  have hlo : e = F.emin ∨ (2 : ℚ) ^ (e + F.p - 1) ≤ n / d := by
    rcases max_choice F.emin (ilog n d - ((F.p : ℤ) - 1)) with h | h
    · left; rw [← hE, h]
    · right
      rw [hE] at h
      have : e + F.p - 1 = ilog n d := by omega
      rw [this]; exact hl1
  rw [if_neg (by omega)]
  have hd2 : 0 < d * 2 ^ e.toNat := Nat.mul_pos hd (Nat.pow_pos (by norm_num))
  have hM := nearestNat_abs (n * 2 ^ (-e).toNat) (d * 2 ^ e.toNat) hd2
  have ht := nearestNat_tie (n * 2 ^ (-e).toNat) (d * 2 ^ e.toNat) hd2
  rw [scaled] at hM ht
  generalize nearestNat (n * 2 ^ (-e).toNat) (d * 2 ^ e.toNat) = M at hM ht
  have hee : (0 : ℚ) < 2 ^ e := zpow_pos (by norm_num) _
  have herr : (2 : ℚ) ^ (F.emin + F.p - 1) ≤ n / d → |(M : ℚ) * 2 ^ e - n / d| ≤ n / d / 2 ^ F.p := by
    intro h
    have h3 : (2 : ℚ) ^ (e + F.p - 1) ≤ n / d := by
      rcases hlo with h' | h'
      · rw [h']; exact h
      · exact h'
    have h4 : |(M : ℚ) * 2 ^ e - n / d| = |(M : ℚ) - n / d / 2 ^ e| * 2 ^ e := by
      rw [← abs_of_pos hee, ← abs_mul, abs_of_pos hee, sub_mul, div_mul_cancel₀ _ (ne_of_gt hee)]
    rw [h4, le_div_iff₀ (by positivity)]
    have h5 : (2 : ℚ) ^ (e + F.p - 1) = 1 / 2 * 2 ^ e * 2 ^ F.p := by
      rw [← zpow_natCast, zpow_sub₀ (by norm_num), zpow_add₀ (by norm_num)]; ring
    refine le_trans ?_ h3
    rw [h5]
    exact mul_le_mul_of_nonneg_right (mul_le_mul_of_nonneg_right hM (le_of_lt hee)) (by positivity)
  by_cases hMp : M < 2 ^ F.p
  · rw [if_pos hMp]
    exact ⟨M * 2 ^ e, ⟨M, e, rfl, rfl⟩,
      roundsTo_of_nearest F e M hp hlo ⟨M, e, hMp, he1, by omega, rfl⟩ hM ht, herr⟩
  · rw [if_neg hMp, if_neg (by omega)]
    have hup : (M : ℚ) ≤ 2 ^ F.p := by
      have h3 : (n / d : ℚ) / 2 ^ e < 2 ^ F.p := by
        rw [div_lt_iff₀ hee, ← zpow_natCast, ← zpow_add₀ (by norm_num), add_comm]; exact hxe
      have h4 := (abs_le.1 hM).2
      have h5 : (M : ℚ) < 2 ^ F.p + 1 := by linarith
      have h6 : M < 2 ^ F.p + 1 := by exact_mod_cast h5
      exact_mod_cast Nat.lt_succ_iff.1 h6
    have hMe : M = 2 ^ F.p := by
      have h6 : M ≤ 2 ^ F.p := by exact_mod_cast hup
      omega
    have hval : (M : ℚ) * 2 ^ e = ((2 ^ (F.p - 1) : ℕ) : ℚ) * 2 ^ (e + 1) := by
      rw [hMe]
      push_cast
      rw [← zpow_natCast, ← zpow_natCast, ← zpow_add₀ (by norm_num), ← zpow_add₀ (by norm_num)]
      congr 1
      omega
    refine ⟨M * 2 ^ e, ⟨_, _, rfl, hval⟩, roundsTo_of_nearest F e M hp hlo ⟨_, _, ?_, ?_, ?_, hval⟩ hM ht, herr⟩
    · exact Nat.pow_lt_pow_right (by norm_num) (by omega)
    · omega
    · omega

/-- A number has one rounding at most. -/
theorem RoundsTo.unique {F : Format} {x y z : ℚ} (hy : RoundsTo F x y) (hz : RoundsTo F x z) : y = z := by
  by_contra hne
  have heq : |z - x| = |y - x| := le_antisymm (hz.2.1 y hy.1) (hy.2.1 z hz.1)
  obtain ⟨k, e, h1, h2⟩ := hy.2.2 z hz.1 (fun h => hne h.symm) heq
  obtain ⟨k', e', h3, h4⟩ := hz.2.2 y hy.1 hne heq.symm
  have h5 : |z - y| = 2 ^ e := by
    have hpos : (0 : ℚ) < 2 ^ e := zpow_pos (by norm_num) _
    rcases h2 with h | h
    · rw [h, h1, ← sub_mul]; rw [show (2 * (k : ℚ) + 1 - 2 * k) = 1 by ring, one_mul, abs_of_pos hpos]
    · rw [h, h1, ← sub_mul]; rw [show (2 * (k : ℚ) - 1 - 2 * k) = -1 by ring, neg_one_mul, abs_neg, abs_of_pos hpos]
  have h6 : |z - y| = 2 ^ e' := by
    have hpos : (0 : ℚ) < 2 ^ e' := zpow_pos (by norm_num) _
    rw [abs_sub_comm]
    rcases h4 with h | h
    · rw [h, h3, ← sub_mul]; rw [show (2 * (k' : ℚ) + 1 - 2 * k') = 1 by ring, one_mul, abs_of_pos hpos]
    · rw [h, h3, ← sub_mul]; rw [show (2 * (k' : ℚ) - 1 - 2 * k') = -1 by ring, neg_one_mul, abs_neg, abs_of_pos hpos]
  have h7 : e = e' := zpow_right_injective₀ (by norm_num) (by norm_num) (h5.symm.trans h6)
  subst h7
  have hpos : (2 : ℚ) ^ e ≠ 0 := ne_of_gt (zpow_pos (by norm_num) _)
  rw [h1] at h4
  rcases h4 with h | h
  · have h8 : (2 * k : ℚ) = 2 * k' + 1 := mul_right_cancel₀ hpos h
    have h9 : 2 * k = 2 * k' + 1 := by exact_mod_cast h8
    omega
  · have h8 : (2 * k : ℚ) = 2 * k' - 1 := mul_right_cancel₀ hpos h
    have h9 : 2 * k = 2 * k' - 1 := by exact_mod_cast h8
    omega

/-- Rounding keeps the order. -/
theorem RoundsTo.mono {F : Format} {x x' y y' : ℚ} (h : RoundsTo F x y) (h' : RoundsTo F x' y') (hx : x ≤ x') :
    y ≤ y' := by
  by_contra hlt
  rw [not_le] at hlt
  have h1 := h.2.1 y' h'.1
  have h2 := h'.2.1 y h.1
  have h3 : (x - y') ≥ (y - x) ∧ x' - y' ≤ y - x' := by
    constructor
    · rcases abs_cases (y - x) with ⟨a, b⟩ | ⟨a, b⟩ <;> rcases abs_cases (y' - x) with ⟨c, d⟩ | ⟨c, d⟩ <;> linarith
    · rcases abs_cases (y - x') with ⟨a, b⟩ | ⟨a, b⟩ <;> rcases abs_cases (y' - x') with ⟨c, d⟩ | ⟨c, d⟩ <;> linarith
  have h4 : x = x' := by linarith
  subst h4
  exact absurd (RoundsTo.unique h h') (ne_of_gt hlt)

/-- A value of the format is its own rounding. -/
theorem RoundsTo.self {F : Format} {x : ℚ} (h : InFormat F x) : RoundsTo F x x := by
  refine ⟨h, fun z _ => ?_, fun z _ hne hz => ?_⟩
  · rw [sub_self, abs_zero]; exact abs_nonneg _
  · rw [sub_self, abs_zero, abs_eq_zero, sub_eq_zero] at hz
    exact absurd hz hne

theorem RoundsTo.of_inFormat {F : Format} {x y : ℚ} (h : RoundsTo F x y) (hx : InFormat F x) : y = x :=
  RoundsTo.unique h (RoundsTo.self hx)

end H264.Fl

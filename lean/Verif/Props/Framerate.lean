import Verif.Rounding
import Verif.Props.Sps
import Verif.Props.Stream

/-
C61: the frame rate.
-/

namespace H264.Props
open H264.Spec H264.Fl

/-- The frame rate the fields of `v` stand for (equation D-2). -/
def rate (v : Vui) : ℚ := v.time_scale / (2 * v.num_units_in_tick)

theorem inFormat_nat (F : Format) (n : Nat) (h : n < 2 ^ F.p) (h1 : F.emin ≤ 0) (h2 : 0 ≤ F.emax) : InFormat F n :=
  ⟨n, 0, h, h1, h2, by simp⟩

/-- `round` on a number that the format has. -/
theorem round_exact (F : Format) (n d : Nat) (hd : 0 < d) (hp : 0 < F.p) (hr : F.emin < F.emax) {x : ℚ} (hx : (n / d : ℚ) = x)
    (hlt : x < 2 ^ (F.emax + F.p - 1)) (hin : InFormat F x) : IsVal (round F n d) x := by
  by_cases hn : n = 0
  · subst hn
    refine ⟨0, 0, by rw [round, if_pos rfl], ?_⟩
    rw [← hx]; simp
  · obtain ⟨y, h1, h2, _⟩ := round_spec F n d (by omega) hd hp hr (by rw [hx]; exact hlt)
    rw [hx] at h2
    rw [RoundsTo.of_inFormat h2 hin] at h1
    exact h1

theorem frac_val (m : Nat) (e : Int) : (((m * 2 ^ e.toNat : Nat) : ℚ) / ((2 ^ (-e).toNat : Nat) : ℚ)) = m * 2 ^ e := by
  rw [two_zpow_split]; push_cast; rw [mul_div_assoc]

theorem lt_big {x : ℚ} (F : Format) (h : x < 2 ^ 40) (hF : 40 ≤ F.emax + F.p - 1) : x < 2 ^ (F.emax + F.p - 1) :=
  lt_of_lt_of_le h (by
    have : (2 : ℚ) ^ (40 : ℤ) ≤ 2 ^ (F.emax + F.p - 1) := zpow_le_zpow_right₀ (by norm_num) hF
    exact_mod_cast this)

theorem ofNat_val (n : Nat) (h : n < 2 ^ 32) : IsVal (Fl.ofNat n) n := by
  have hq : (n : ℚ) < 2 ^ 40 := by
    have : (n : ℚ) < 2 ^ 32 := by exact_mod_cast h
    linarith
  exact round_exact binary64 n 1 (by norm_num) (by decide) (by decide) (by simp) (lt_big _ hq (by decide))
    (inFormat_nat _ _ (by show n < 2 ^ 53; omega) (by decide) (by decide))

theorem two_mul_val (b : Nat) (h : b < 2 ^ 32) : IsVal ((Fl.fin 2 0).mul (Fl.ofNat b)) ((2 * b : Nat) : ℚ) := by
  obtain ⟨m, e, h1, h2⟩ := ofNat_val b h
  rw [h1]
  unfold Fl.mul
  have hq : ((2 * b : Nat) : ℚ) < 2 ^ 40 := by
    have : ((2 * b : Nat) : ℚ) < 2 ^ 33 := by exact_mod_cast (by omega : 2 * b < 2 ^ 33)
    linarith
  refine round_exact binary64 _ _ (Nat.pow_pos (by norm_num)) (by decide) (by decide) ?_ (lt_big _ hq (by decide))
    (inFormat_nat _ _ (by show 2 * b < 2 ^ 53; omega) (by decide) (by decide))
  rw [frac_val]
  push_cast
  rw [h2, zero_add]
  ring

/-- The two roundings of `getFramerate` and what each of them costs. -/
theorem getFramerate_steps (v : Vui) (ha : 1 ≤ v.time_scale) (ha2 : v.time_scale < 2 ^ 32) (hb : 1 ≤ v.num_units_in_tick)
    (hb2 : v.num_units_in_tick < 2 ^ 32) :
    ∃ y f : ℚ, IsVal v.getFramerate f ∧ RoundsTo binary64 (rate v) y ∧ RoundsTo binary32 y f ∧
      |y - rate v| ≤ rate v / 2 ^ 53 ∧ |f - y| ≤ y / 2 ^ 24 := by
  obtain ⟨m, e, h1, h2⟩ := ofNat_val v.time_scale ha2
  obtain ⟨k, j, h3, h4⟩ := two_mul_val v.num_units_in_tick hb2
  have hbq : (1 : ℚ) ≤ v.num_units_in_tick := by exact_mod_cast hb
  have haq : (1 : ℚ) ≤ v.time_scale := by exact_mod_cast ha
  have haq2 : (v.time_scale : ℚ) < 2 ^ 32 := by exact_mod_cast ha2
  have hbq2 : (v.num_units_in_tick : ℚ) < 2 ^ 32 := by exact_mod_cast hb2
  have hr1 : rate v < 2 ^ 32 := by
    rw [rate, div_lt_iff₀ (by linarith)]; nlinarith
  have hr2 : (2 : ℚ) ^ (-40 : ℤ) ≤ rate v := by
    rw [rate, le_div_iff₀ (by linarith)]
    have : (2 : ℚ) ^ (-40 : ℤ) = 1 / 2 ^ 40 := by norm_num
    rw [this]; nlinarith
  have hk : k ≠ 0 := by
    rintro rfl
    have : ((2 * v.num_units_in_tick : Nat) : ℚ) = 0 := by rw [h4]; simp
    push_cast at this
    linarith
  have hm : m ≠ 0 := by
    rintro rfl
    have : (v.time_scale : ℚ) = 0 := by rw [h2]; simp
    linarith
  have hq : (((m * 2 ^ (e - j).toNat : Nat) : ℚ) / ((k * 2 ^ (j - e).toNat : Nat) : ℚ)) = rate v := by
    have h5 : (2 : ℚ) ^ e = 2 ^ (e - j) * 2 ^ j := by rw [← zpow_add₀ (by norm_num)]; congr 1; ring
    have h6 : (2 : ℚ) ^ (e - j) = 2 ^ (e - j).toNat / 2 ^ (j - e).toNat := by
      rw [two_zpow_split]; congr 2; omega
    have h7 : (2 * v.num_units_in_tick : ℚ) = k * 2 ^ j := by rw [← h4]; push_cast; rfl
    have hkq : (k : ℚ) ≠ 0 := by exact_mod_cast hk
    have hj : (2 : ℚ) ^ j ≠ 0 := ne_of_gt (zpow_pos (by norm_num) _)
    have hp : (2 : ℚ) ^ (j - e).toNat ≠ 0 := by positivity
    rw [rate, h2, h7, h5, h6]
    push_cast
    field_simp
  obtain ⟨y, h5, h6, h7⟩ := round_spec binary64 (m * 2 ^ (e - j).toNat) (k * 2 ^ (j - e).toNat)
    (Nat.mul_pos (Nat.pos_of_ne_zero hm) (Nat.pow_pos (by norm_num)))
    (Nat.mul_pos (Nat.pos_of_ne_zero hk) (Nat.pow_pos (by norm_num))) (by decide) (by decide)
    (by rw [hq]; exact lt_big _ (by linarith) (by decide))
  rw [hq] at h6 h7
  have herr : |y - rate v| ≤ rate v / 2 ^ 53 :=
    h7 (le_trans (zpow_le_zpow_right₀ (by norm_num) (by decide)) hr2)
  have hrpos : 0 < rate v := lt_of_lt_of_le (zpow_pos (by norm_num) _) hr2
  have hy1 : y < 2 ^ 33 := by have := (abs_le.1 herr).2; linarith
  have hy2 : (2 : ℚ) ^ (-41 : ℤ) ≤ y := by
    have := (abs_le.1 herr).1
    have h8 : (2 : ℚ) ^ (-41 : ℤ) = 2 ^ (-40 : ℤ) / 2 := by norm_num
    rw [h8]
    generalize (2 : ℚ) ^ (-40 : ℤ) = c at hr2
    linarith
  have hypos : 0 < y := lt_of_lt_of_le (zpow_pos (by norm_num) _) hy2
  obtain ⟨n, g, h8, h9⟩ := h5
  have hn : n ≠ 0 := by
    rintro rfl
    rw [h9] at hypos; simp at hypos
  have hyv : (((n * 2 ^ g.toNat : Nat) : ℚ) / ((2 ^ (-g).toNat : Nat) : ℚ)) = y := by rw [frac_val, h9]
  obtain ⟨f, h10, h11, h12⟩ := round_spec binary32 (n * 2 ^ g.toNat) (2 ^ (-g).toNat)
    (Nat.mul_pos (Nat.pos_of_ne_zero hn) (Nat.pow_pos (by norm_num))) (Nat.pow_pos (by norm_num)) (by decide) (by decide)
    (by rw [hyv]; exact lt_big _ (by linarith) (by decide))
  rw [hyv] at h11 h12
  refine ⟨y, f, ?_, h6, h11, herr, h12 (le_trans (zpow_le_zpow_right₀ (by norm_num) (by decide)) hy2)⟩
  have : v.getFramerate = round binary32 (n * 2 ^ g.toNat) (2 ^ (-g).toNat) := by
    rw [Vui.getFramerate, h1, h3]
    unfold Fl.div
    dsimp only
    rw [if_neg hk, h8]
    rfl
  rw [this]
  exact h10

/-- VUI parameters that a caller can get: from `ParseVuiParameters`, or within an SPS from `ParseSps`. -/
def ReturnedVui (v : Vui) : Prop :=
  (∃ nd b c s', Buf.WF b ∧ run nd parseVui ⟨b, c⟩ = .ok v s') ∨
  (∃ nd b c st s', Buf.WF b ∧ run nd parseSps ⟨b, c⟩ = .ok st s' ∧ st.vui_parameters = some v)

theorem ReturnedVui.ok {v : Vui} (h : ReturnedVui v) : v.Ok := by
  rcases h with ⟨nd, b, c, s', hb, h⟩ | ⟨nd, b, c, st, s', hb, h, hv⟩
  · exact ((C25_vui_exact nd hb c v s').1 h).1
  · obtain ⟨s1, h1, _⟩ := (run_ok_iff nd _ hb c _ _).mp h
    obtain ⟨s2, h2⟩ := (sps_iff nd _ _).mp ⟨s1, h1⟩
    obtain ⟨_, tok, _⟩ := spsData_ranges nd h2
    have hv' := tok.vui
    split at hv'
    · obtain ⟨w, hw, hok⟩ := hv'
      have : w = v := by
        have h3 : some w = some v := hw.symm.trans hv
        exact Option.some.inj h3
      rw [← this]; exact hok
    · have h3 : none = some v := hv'.symm.trans hv
      cases h3

/-- C61: with timing information `getFramerate` returns a finite number: the frame rate rounded to `double` and then to
`float`, both to the nearest value. -/
theorem C61_rounded {v : Vui} (h : ReturnedVui v) (ht : v.timing_info_present_flag = 1) :
    ∃ y f : ℚ, IsVal v.getFramerate f ∧ RoundsTo binary64 (rate v) y ∧ RoundsTo binary32 y f := by
  have ok := h.ok.timing
  rw [if_pos ht] at ok
  obtain ⟨y, f, h1, h2, h3, _⟩ := getFramerate_steps v ok.2.1.1 ok.2.1.2 ok.1.1 ok.1.2
  exact ⟨y, f, h1, h2, h3⟩

/-- C61: its relative error is below 2^-24 + 2^-52; in particular it is positive. -/
theorem C61_error {v : Vui} (h : ReturnedVui v) (ht : v.timing_info_present_flag = 1) :
    ∃ f : ℚ, IsVal v.getFramerate f ∧ 0 < f ∧ |f - rate v| ≤ rate v * (1 / 2 ^ 24 + 1 / 2 ^ 52) := by
  have ok := h.ok.timing
  rw [if_pos ht] at ok
  obtain ⟨y, f, h1, _, _, h2, h3⟩ := getFramerate_steps v ok.2.1.1 ok.2.1.2 ok.1.1 ok.1.2
  have hr : 0 < rate v := by
    have h4 : (1 : ℚ) ≤ v.num_units_in_tick := by exact_mod_cast ok.1.1
    have h5 : (1 : ℚ) ≤ v.time_scale := by exact_mod_cast ok.2.1.1
    exact div_pos (by linarith) (by linarith)
  have h4 := abs_le.1 h2
  have h5 := abs_le.1 h3
  have h6 : |f - rate v| ≤ rate v * (1 / 2 ^ 24 + 1 / 2 ^ 52) := by
    rw [abs_le]; constructor <;> linarith
  refine ⟨f, h1, ?_, h6⟩
  have := (abs_le.1 h6).1
  linarith

/-- C61: it is exact when the rate is a number a `float` can have. -/
theorem C61_exact {v : Vui} (h : ReturnedVui v) (ht : v.timing_info_present_flag = 1) (hf : InFormat binary32 (rate v)) : IsVal v.getFramerate (rate v) := by
  obtain ⟨y, f, h1, h2, h3⟩ := C61_rounded h ht
  have h4 : InFormat binary64 (rate v) := by
    obtain ⟨m, e, a1, a2, a3, a4⟩ := hf
    change m < 2 ^ 24 at a1
    change -149 ≤ e at a2
    change e ≤ 104 at a3
    exact ⟨m, e, show m < 2 ^ 53 by omega, show (-1074 : ℤ) ≤ e by omega, show e ≤ 971 by omega, a4⟩
  rw [RoundsTo.of_inFormat h2 h4] at h3
  rw [RoundsTo.of_inFormat h3 hf] at h1
  exact h1

/-- C61: so a whole number of frames per second below 2^24 is returned as it is. -/
theorem C61_whole {v : Vui} (h : ReturnedVui v) (ht : v.timing_info_present_flag = 1) (r : Nat) (hr : r < 2 ^ 24) (hv : v.time_scale = r * (2 * v.num_units_in_tick)) :
    IsVal v.getFramerate r := by
  have ok := h.ok.timing
  rw [if_pos ht] at ok
  have h4 : (1 : ℚ) ≤ v.num_units_in_tick := by exact_mod_cast ok.1.1
  have hrv : rate v = r := by
    rw [rate, hv]
    push_cast
    rw [mul_div_assoc, div_self (by linarith), mul_one]
  rw [← hrv]
  refine C61_exact h ht ?_
  rw [hrv]
  exact inFormat_nat _ _ hr (by decide) (by decide)

/-- C61: a higher rate is never returned as a lower number. -/
theorem C61_monotone {v v' : Vui} (h : ReturnedVui v) (h' : ReturnedVui v')
    (ht : v.timing_info_present_flag = 1) (ht' : v'.timing_info_present_flag = 1) (hle : rate v ≤ rate v') :
    ∃ f f' : ℚ, IsVal v.getFramerate f ∧ IsVal v'.getFramerate f' ∧ f ≤ f' := by
  obtain ⟨y, f, h1, h2, h3⟩ := C61_rounded h ht
  obtain ⟨y', f', h1', h2', h3'⟩ := C61_rounded h' ht'
  exact ⟨f, f', h1, h1', RoundsTo.mono h3 h3' (RoundsTo.mono h2 h2' hle)⟩

/-- C61: without timing information both fields are 0, and the result is not a number. -/
theorem C61_absent {v : Vui} (h : ReturnedVui v) (ht : v.timing_info_present_flag ≠ 1) : v.getFramerate = .nan := by
  have ok := h.ok.timing
  rw [if_neg ht] at ok
  rw [Vui.getFramerate, ok.1, ok.2.1]
  decide +kernel

/-- A rate is not too near to a number with 25 significant bits without being equal to it. -/
theorem rate_gap (a b : Nat) (ha : a < 2 ^ 32) (hb : 1 ≤ b) (hb2 : b ≤ 2 ^ 28) (e M : ℤ) {q : ℚ} (hq : q = a / (2 * b))
    (hq2 : q < 2 ^ (e + 24)) (h : |(M : ℚ) * 2 ^ (e - 1) - q| ≤ q / 2 ^ 53) : q = M * 2 ^ (e - 1) := by
  by_contra hne
  have hbq : (1 : ℚ) ≤ b := by exact_mod_cast hb
  have hbq2 : (b : ℚ) ≤ 2 ^ 28 := by exact_mod_cast hb2
  have haq : (a : ℚ) < 2 ^ 32 := by exact_mod_cast ha
  have hqb : q * (2 * b) = a := by rw [hq, div_mul_cancel₀ _ (by linarith)]
  by_cases he : e ≤ 0
  · obtain ⟨j, hj⟩ : ∃ j : ℕ, (j : ℤ) = -e := ⟨(-e).toNat, by omega⟩
    have hp : (0 : ℚ) < 2 ^ j := by positivity
    have h1 : (2 : ℚ) ^ (e - 1) = 1 / (2 * 2 ^ j) := by
      rw [show e - 1 = -((j : ℤ) + 1) by omega, zpow_neg, zpow_add₀ (by norm_num), zpow_natCast]
      field_simp
    have h2 : (2 : ℚ) ^ (e + 24) = 2 ^ 24 / 2 ^ j := by
      rw [show e + 24 = 24 - (j : ℤ) by omega, zpow_sub₀ (by norm_num), zpow_natCast]
      norm_num
    have h3 : (M : ℚ) * 2 ^ (e - 1) - q = ((M * b - a * 2 ^ j : ℤ) : ℚ) / (2 * b * 2 ^ j) := by
      rw [h1, hq]
      push_cast
      have : (b : ℚ) ≠ 0 := by linarith
      field_simp
    have hz : (M * b - a * 2 ^ j : ℤ) ≠ 0 := by
      intro h0
      rw [h0] at h3
      apply hne
      have : (M : ℚ) * 2 ^ (e - 1) - q = 0 := by rw [h3]; simp
      linarith
    have h4 : (1 : ℚ) ≤ |((M * b - a * 2 ^ j : ℤ) : ℚ)| := by exact_mod_cast Int.one_le_abs hz
    rw [h3, abs_div, abs_of_pos (by positivity : (0 : ℚ) < 2 * b * 2 ^ j), div_le_iff₀ (by positivity)] at h
    rw [h2, lt_div_iff₀ hp] at hq2
    have h5 : q / 2 ^ 53 * (2 * b * 2 ^ j) < 1 := by
      have h6 : q / 2 ^ 53 * (2 * b * 2 ^ j) = (q * 2 ^ j) * (2 * b) / 2 ^ 53 := by ring
      rw [h6, div_lt_one (by norm_num)]
      calc q * 2 ^ j * (2 * b) < 2 ^ 24 * (2 * b) := mul_lt_mul_of_pos_right hq2 (by linarith)
        _ ≤ 2 ^ 24 * (2 * 2 ^ 28) := by linarith
        _ = 2 ^ 53 := by norm_num
    linarith
  · obtain ⟨j, hj⟩ : ∃ j : ℕ, (j : ℤ) = e - 1 := ⟨(e - 1).toNat, by omega⟩
    have h1 : (2 : ℚ) ^ (e - 1) = 2 ^ j := by rw [← hj, zpow_natCast]
    have h3 : ((M : ℚ) * 2 ^ (e - 1) - q) * (2 * b) = ((M * 2 ^ j * (2 * b) - a : ℤ) : ℚ) := by
      rw [h1, sub_mul, hqb]
      push_cast
      ring
    have hz : (M * 2 ^ j * (2 * b) - a : ℤ) ≠ 0 := by
      intro h0
      rw [h0] at h3
      apply hne
      have h4 : (M : ℚ) * 2 ^ (e - 1) - q = 0 := by
        rcases mul_eq_zero.1 (by rw [h3]; simp : ((M : ℚ) * 2 ^ (e - 1) - q) * (2 * b) = 0) with h5 | h5
        · exact h5
        · linarith
      linarith
    have h4 : (1 : ℚ) ≤ |((M * 2 ^ j * (2 * b) - a : ℤ) : ℚ)| := by exact_mod_cast Int.one_le_abs hz
    rw [← h3, abs_mul, abs_of_pos (by linarith : (0 : ℚ) < 2 * b)] at h4
    have h5 : |(M : ℚ) * 2 ^ (e - 1) - q| * (2 * b) ≤ q / 2 ^ 53 * (2 * b) :=
      mul_le_mul_of_nonneg_right h (by linarith)
    have h6 : q / 2 ^ 53 * (2 * b) = a / 2 ^ 53 := by rw [div_mul_eq_mul_div, hqb]
    have h7 : (a : ℚ) / 2 ^ 53 < 1 := by rw [div_lt_one (by norm_num)]; linarith
    linarith

/-- The values of `float` from 2^(e+23) on are multiples of 2^e. -/
theorem float_multiple {z : ℚ} {e : ℤ} (hz : InFormat binary32 z) (h : (2 : ℚ) ^ (e + 23) ≤ z) : ∃ k : ℤ, z = k * 2 ^ e := by
  obtain ⟨m, g, h1, _, _, rfl⟩ := hz
  change m < 2 ^ 24 at h1
  have hge : e ≤ g := by
    by_contra hlt
    have h2 : (m : ℚ) * 2 ^ g < 2 ^ (e + 23) := by
      calc (m : ℚ) * 2 ^ g < 2 ^ 24 * 2 ^ g := by
            apply mul_lt_mul_of_pos_right _ (zpow_pos (by norm_num) _)
            exact_mod_cast h1
        _ = 2 ^ (24 + g) := by rw [zpow_add₀ (by norm_num)]; norm_num
        _ ≤ 2 ^ (e + 23) := zpow_le_zpow_right₀ (by norm_num) (by omega)
    linarith
  refine ⟨m * 2 ^ (g - e).toNat, ?_⟩
  push_cast
  rw [mul_assoc, ← zpow_natCast, ← zpow_add₀ (by norm_num)]
  congr 2
  omega

theorem inFormat_pow (F : Format) (e : ℤ) (hp : 0 < F.p) (h1 : F.emin ≤ e) (h2 : e ≤ F.emax) : InFormat F ((2 : ℚ) ^ e) :=
  ⟨1, e, Nat.one_lt_two_pow (by omega), h1, h2, by simp⟩

/-- C61: unless `num_units_in_tick` exceeds 2^28, the result is the `float` nearest to the frame rate: rounding twice does no
harm. -/
theorem C61_nearest {v : Vui} (h : ReturnedVui v) (ht : v.timing_info_present_flag = 1) (hn : v.num_units_in_tick ≤ 2 ^ 28) :
    ∃ f : ℚ, IsVal v.getFramerate f ∧ RoundsTo binary32 (rate v) f := by
  have ok := h.ok.timing
  rw [if_pos ht] at ok
  obtain ⟨⟨hb1, hb2⟩, ⟨ha1, ha2⟩, _⟩ := ok
  obtain ⟨y, f, h1, h2, h3, h4, _⟩ := getFramerate_steps v ha1 ha2 hb1 hb2
  have hd : 0 < 2 * v.num_units_in_tick := by omega
  have hrv : ((v.time_scale : ℚ) / ((2 * v.num_units_in_tick : Nat) : ℚ)) = rate v := by rw [rate]; push_cast; rfl
  have hbq : (1 : ℚ) ≤ v.num_units_in_tick := by exact_mod_cast hb1
  have hbq2 : (v.num_units_in_tick : ℚ) < 2 ^ 32 := by exact_mod_cast hb2
  have haq : (1 : ℚ) ≤ v.time_scale := by exact_mod_cast ha1
  have haq2 : (v.time_scale : ℚ) < 2 ^ 32 := by exact_mod_cast ha2
  have hr1 : rate v < 2 ^ (32 : ℤ) := by
    rw [rate, div_lt_iff₀ (by linarith)]; norm_num; nlinarith
  have hr2 : (2 : ℚ) ^ (-40 : ℤ) ≤ rate v := by
    rw [rate, le_div_iff₀ (by linarith)]
    have : (2 : ℚ) ^ (-40 : ℤ) = 1 / 2 ^ 40 := by norm_num
    rw [this]; nlinarith
  obtain ⟨g, _, h5, _⟩ := round_spec binary32 v.time_scale (2 * v.num_units_in_tick) ha1 hd (by decide) (by decide)
    (by rw [hrv]; exact lt_of_lt_of_le hr1 (zpow_le_zpow_right₀ (by norm_num) (by decide)))
  rw [hrv] at h5
  obtain ⟨hl1, hl2⟩ := ilog_spec v.time_scale (2 * v.num_units_in_tick) ha1 hd
  rw [hrv] at hl1 hl2
  obtain ⟨e, he⟩ : ∃ e : ℤ, ilog v.time_scale (2 * v.num_units_in_tick) = e + 23 :=
    ⟨ilog v.time_scale (2 * v.num_units_in_tick) - 23, by omega⟩
  rw [he] at hl1 hl2
  rw [show e + 23 + 1 = e + 24 by ring] at hl2
  have h2' : (1 : ℚ) < 2 := by norm_num
  have he1 : e + 23 < 32 := (zpow_lt_zpow_iff_right₀ h2').1 (lt_of_le_of_lt hl1 hr1)
  have he2 : -40 < e + 24 := (zpow_lt_zpow_iff_right₀ h2').1 (lt_of_le_of_lt hr2 hl2)
  have p64 := inFormat_pow binary64 (e + 23) (by decide) (show (-1074 : ℤ) ≤ _ by omega) (show _ ≤ (971 : ℤ) by omega)
  have p32 := inFormat_pow binary32 (e + 23) (by decide) (show (-149 : ℤ) ≤ _ by omega) (show _ ≤ (104 : ℤ) by omega)
  have p64' := inFormat_pow binary64 (e + 24) (by decide) (show (-1074 : ℤ) ≤ _ by omega) (show _ ≤ (971 : ℤ) by omega)
  have p32' := inFormat_pow binary32 (e + 24) (by decide) (show (-149 : ℤ) ≤ _ by omega) (show _ ≤ (104 : ℤ) by omega)
  have hy1 := RoundsTo.mono (RoundsTo.self p64) h2 hl1
  have hy2 := RoundsTo.mono h2 (RoundsTo.self p64') (le_of_lt hl2)
  have hf1 := RoundsTo.mono (RoundsTo.self p32) h3 hy1
  have hf2 := RoundsTo.mono h3 (RoundsTo.self p32') hy2
  have hg1 := RoundsTo.mono (RoundsTo.self p32) h5 hl1
  have hg2 := RoundsTo.mono h5 (RoundsTo.self p32') (le_of_lt hl2)
  obtain ⟨k, hk⟩ := float_multiple h3.1 hf1
  obtain ⟨l, hl⟩ := float_multiple h5.1 hg1
  by_cases hfg : f = g
  · exact ⟨f, h1, by rw [hfg]; exact h5⟩
  have hpe : (0 : ℚ) < 2 ^ e := zpow_pos (by norm_num) _
  have hmid : (f + g) / 2 = ((k + l : ℤ) : ℚ) * 2 ^ (e - 1) := by
    rw [hk, hl, zpow_sub₀ (by norm_num)]; push_cast; ring
  have hpow : (2 : ℚ) ^ (e + 24) = 2 ^ 24 * 2 ^ e := by rw [zpow_add₀ (by norm_num)]; norm_num; ring
  have hkl : 0 ≤ k + l ∧ k + l < 2 ^ 53 := by
    have hpow' : (0 : ℚ) < 2 ^ (e + 23) := zpow_pos (by norm_num) _
    have a1 : (0 : ℚ) < k * 2 ^ e := by rw [← hk]; linarith
    have a2 : (0 : ℚ) < l * 2 ^ e := by rw [← hl]; linarith
    have a3 : (k : ℚ) ≤ 2 ^ 24 := by
      rw [hk, hpow] at hf2; exact le_of_mul_le_mul_right hf2 hpe
    have a4 : (l : ℚ) ≤ 2 ^ 24 := by
      rw [hl, hpow] at hg2; exact le_of_mul_le_mul_right hg2 hpe
    have a5 : (0 : ℚ) < k := pos_of_mul_pos_left a1 (le_of_lt hpe)
    have a6 : (0 : ℚ) < l := pos_of_mul_pos_left a2 (le_of_lt hpe)
    have b1 : 0 < k := by exact_mod_cast a5
    have b2 : 0 < l := by exact_mod_cast a6
    have b3 : k ≤ 2 ^ 24 := by exact_mod_cast a3
    have b4 : l ≤ 2 ^ 24 := by exact_mod_cast a4
    omega
  have m64 : InFormat binary64 ((f + g) / 2) := by
    rw [hmid]
    refine ⟨(k + l).toNat, e - 1, show (k + l).toNat < 2 ^ 53 by omega, show (-1074 : ℤ) ≤ _ by omega,
      show _ ≤ (971 : ℤ) by omega, ?_⟩
    congr 1
    have : ((k + l).toNat : ℤ) = k + l := by omega
    exact_mod_cast this.symm
  have hym : y = (f + g) / 2 := by
    have n1 := h3.2.1 g h5.1
    have n2 := h5.2.1 f h3.1
    rcases lt_or_gt_of_ne hfg with hlt | hlt
    · have c1 : y ≤ (f + g) / 2 := by
        rcases abs_cases (f - y) with ⟨a, b⟩ | ⟨a, b⟩ <;> rcases abs_cases (g - y) with ⟨c, d⟩ | ⟨c, d⟩ <;> linarith
      have c2 : (f + g) / 2 ≤ rate v := by
        rcases abs_cases (f - rate v) with ⟨a, b⟩ | ⟨a, b⟩ <;> rcases abs_cases (g - rate v) with ⟨c, d⟩ | ⟨c, d⟩ <;> linarith
      exact le_antisymm c1 (RoundsTo.mono (RoundsTo.self m64) h2 c2)
    · have c1 : (f + g) / 2 ≤ y := by
        rcases abs_cases (f - y) with ⟨a, b⟩ | ⟨a, b⟩ <;> rcases abs_cases (g - y) with ⟨c, d⟩ | ⟨c, d⟩ <;> linarith
      have c2 : rate v ≤ (f + g) / 2 := by
        rcases abs_cases (f - rate v) with ⟨a, b⟩ | ⟨a, b⟩ <;> rcases abs_cases (g - rate v) with ⟨c, d⟩ | ⟨c, d⟩ <;> linarith
      exact le_antisymm (RoundsTo.mono h2 (RoundsTo.self m64) c2) c1
  rw [hym, hmid] at h4
  have hq := rate_gap v.time_scale v.num_units_in_tick ha2 hb1 hn e (k + l) rfl hl2 h4
  rw [hym, hmid, ← hq] at h3
  exact ⟨f, h1, h3⟩

/-- The input of the unit test, 60000 / (2 * 1001). -/
def exRate : Vui := { timing_info_present_flag := 1, num_units_in_tick := 1001, time_scale := 60000 }

theorem exRate_returned : ReturnedVui exRate :=
  .inl ⟨false, Buf.start [0x08, 0x00, 0x00, 0x1f, 0x48, 0x00, 0x07, 0x53, 0x00, 0x00], 0, _,
    ⟨by decide, by decide, by decide⟩,
    (C25_vui_exact false ⟨by decide, by decide, by decide⟩ 0 exRate _).2
      ⟨by constructor <;> first | decide +kernel | exact (rfl : (none : Option Hrd) = none),
       ⟨List.replicate 6 false, by decide +kernel⟩, rfl⟩⟩

/-- The hypotheses of C61 hold of it, and the result is 15712927 / 2^19 = 29.97003 within 0.00001. -/
example : exRate.timing_info_present_flag = 1 ∧ exRate.num_units_in_tick ≤ 2 ^ 28 ∧
    exRate.getFramerate = .fin 15712927 (-19) := by decide +kernel

example : |(15712927 : ℚ) * 2 ^ (-19 : ℤ) - 29.97003| < 0.00001 := by norm_num [abs_lt]

/-- VUI parameters with more than the timing information. -/
example : ReturnedVui exVui :=
  .inl ⟨false, Buf.start (packBits (encVui exVui ++ List.replicate 7 false)), 0, _, ⟨by decide +kernel, by decide, by decide +kernel⟩,
    (C25_vui_exact false ⟨by decide +kernel, by decide, by decide +kernel⟩ 0 exVui _).2
      ⟨exVui_ok, ⟨(Buf.start (packBits (encVui exVui ++ List.replicate 7 false))).rem.drop (encVui exVui).length, by decide +kernel⟩, rfl⟩⟩

/-- No timing information. -/
example : ReturnedVui {} :=
  .inl ⟨false, Buf.start [0, 0], 0, _, ⟨by decide, by decide, by decide⟩,
    (C25_vui_exact false ⟨by decide, by decide, by decide⟩ 0 {} _).2
      ⟨by constructor <;> first | decide +kernel | exact (rfl : (none : Option Hrd) = none),
       ⟨List.replicate 7 false, by decide +kernel⟩, rfl⟩⟩

/-- A rate next to the middle of two values of `float`, in which rounding twice goes wrong. -/
def exDouble : Vui := { timing_info_present_flag := 1, num_units_in_tick := 4281536075, time_scale := 2716053282 }

/-- C61, what is false without the bound of `C61_nearest`: for these fields the parser returns, the result is not the `float`
nearest to the frame rate. -/
theorem C61_not_nearest : ∃ (v : Vui) (f z : ℚ), ReturnedVui v ∧ v.timing_info_present_flag = 1 ∧ IsVal v.getFramerate f ∧
    InFormat binary32 z ∧ |z - rate v| < |f - rate v| := by
  refine ⟨exDouble, 5321433 * 2 ^ (-24 : ℤ), 10642865 * 2 ^ (-25 : ℤ), ?_, rfl, ⟨10642866, -25, ?_, ?_⟩, ?_, ?_⟩
  · exact .inl ⟨false, Buf.start [15, 249, 152, 114, 93, 15, 29, 121, 16, 0], 0, _, ⟨by decide, by decide, by decide⟩,
      (C25_vui_exact false ⟨by decide, by decide, by decide⟩ 0 exDouble _).2
        ⟨by constructor <;> first | decide +kernel | exact (rfl : (none : Option Hrd) = none),
         ⟨List.replicate 6 false, by decide +kernel⟩, rfl⟩⟩
  · decide +kernel
  · norm_num
  · exact ⟨10642865, -25, by decide, by decide, by decide, by norm_num⟩
  · unfold rate exDouble
    norm_num [abs_lt, abs_of_pos, abs_of_neg]

end H264.Props

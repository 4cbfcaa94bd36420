import Verif.Model.Transfer
import Verif.Num.Real

/-!
# Facts about real powers and logarithms with rational bounds, and the curves over ℝ
-/

namespace CS

/-- comparison of a rational power with a bound, decided on natural powers -/
theorem rpow_lt_iff {x c : ℝ} (hx : 0 ≤ x) (hc : 0 ≤ c) (m n : ℕ) (hn : n ≠ 0) :
    c < x ^ ((m : ℝ) / n) ↔ c ^ n < x ^ m := by
  have hp : (x ^ ((m : ℝ) / n)) ^ n = x ^ m := by
    rw [← Real.rpow_natCast, ← Real.rpow_mul hx, div_mul_cancel₀ _ (by exact_mod_cast hn),
      Real.rpow_natCast]
  rw [← hp]
  exact (pow_lt_pow_iff_left₀ hc (Real.rpow_nonneg hx _) hn).symm

theorem rpow_le_iff {x c : ℝ} (hx : 0 ≤ x) (hc : 0 ≤ c) (m n : ℕ) (hn : n ≠ 0) :
    x ^ ((m : ℝ) / n) ≤ c ↔ x ^ m ≤ c ^ n := by
  rw [← not_lt, ← not_lt, rpow_lt_iff hx hc m n hn]

theorem rpow_inv_cancel {x : ℝ} (hx : 0 ≤ x) (m n : ℕ) (hm : m ≠ 0) (hn : n ≠ 0) :
    (x ^ ((m : ℝ) / n)) ^ ((n : ℝ) / m) = x := by
  have : (m : ℝ) / n * ((n : ℝ) / m) = 1 := by
    have h1 : (m:ℝ) ≠ 0 := by exact_mod_cast hm
    have h2 : (n:ℝ) ≠ 0 := by exact_mod_cast hn
    field_simp
  rw [← Real.rpow_mul hx, this, Real.rpow_one]

theorem rpow_strict {x y : ℝ} (hx : 0 ≤ x) (h : x < y) (m n : ℕ) (hm : m ≠ 0) (hn : n ≠ 0) :
    x ^ ((m : ℝ) / n) < y ^ ((m : ℝ) / n) := by
  apply Real.rpow_lt_rpow hx h
  have h1 : (0:ℝ) < m := by exact_mod_cast Nat.pos_of_ne_zero hm
  have h2 : (0:ℝ) < n := by exact_mod_cast Nat.pos_of_ne_zero hn
  positivity

theorem lt_log10 {y : ℝ} (hy : 0 < y) (p q : ℕ) (hq : q ≠ 0) (h : 1 < 10 ^ p * y ^ q) :
    -((p : ℝ) / q) < Real.logb 10 y := by
  have h1 : 0 < Real.logb 10 (10 ^ p * y ^ q) := Real.logb_pos (by norm_num) h
  rw [Real.logb_mul (by positivity) (by positivity), Real.logb_pow, Real.logb_pow,
    Real.logb_self_eq_one (by norm_num)] at h1
  have hq' : (0:ℝ) < q := by exact_mod_cast Nat.pos_of_ne_zero hq
  rw [← neg_div, div_lt_iff₀ hq']
  linarith [mul_comm (q:ℝ) (Real.logb 10 y)]

theorem log10_lt {y : ℝ} (hy : 0 < y) (p q : ℕ) (hq : q ≠ 0) (h : 10 ^ p * y ^ q < 1) :
    Real.logb 10 y < -((p : ℝ) / q) := by
  have h1 : Real.logb 10 (10 ^ p * y ^ q) < 0 :=
    Real.logb_neg (by norm_num) (by positivity) h
  rw [Real.logb_mul (by positivity) (by positivity), Real.logb_pow, Real.logb_pow,
    Real.logb_self_eq_one (by norm_num)] at h1
  have hq' : (0:ℝ) < q := by exact_mod_cast Nat.pos_of_ne_zero hq
  rw [← neg_div, lt_div_iff₀ hq']
  linarith [mul_comm (q:ℝ) (Real.logb 10 y)]

/-! ### the curves over ℝ -/

theorem enc_srgb (x : ℝ) : encode.srgb_t x =
    if x ≤ 0.0031308 then x * 12.92 else 1.055 * x ^ (((5:ℕ):ℝ)/((12:ℕ):ℝ)) - 0.055 := by
  simp only [encode.srgb_t, flt_lit, flt_le, flt_powf, decide_eq_true_eq]
  rw [show ((1.0:ℚ):ℝ) / ((2.4:ℚ):ℝ) = ((5:ℕ):ℝ)/((12:ℕ):ℝ) by norm_num,
    show ((1.0:ℚ):ℝ) + ((0.055:ℚ):ℝ) = 1.055 by norm_num]
  norm_num only [Rat.cast_ofNat, Rat.cast_div]

theorem dec_srgb (x : ℝ) : decode.srgb_t x =
    if x ≤ 0.040449936 then x / 12.92 else ((x + 0.055) / 1.055) ^ (((12:ℕ):ℝ)/((5:ℕ):ℝ)) := by
  simp only [decode.srgb_t, flt_lit, flt_le, flt_powf, decide_eq_true_eq]
  rw [show ((2.4:ℚ):ℝ) = ((12:ℕ):ℝ)/((5:ℕ):ℝ) by norm_num]
  norm_num only [Rat.cast_ofNat, Rat.cast_div]

theorem enc_bt709 (x : ℝ) : encode.bt709_t x =
    if x ≤ 0.018 then x * 4.5 else 1.099 * x ^ (((9:ℕ):ℝ)/((20:ℕ):ℝ)) - 0.099 := by
  simp only [encode.bt709_t, flt_lit, flt_le, flt_powf, decide_eq_true_eq]
  rw [show ((0.45:ℚ):ℝ) = ((9:ℕ):ℝ)/((20:ℕ):ℝ) by norm_num]
  norm_num only [Rat.cast_ofNat, Rat.cast_div]

theorem dec_bt709 (x : ℝ) : decode.bt709_t x =
    if x ≤ 0.081 then x / 4.5 else ((x + 0.099) / 1.099) ^ (((20:ℕ):ℝ)/((9:ℕ):ℝ)) := by
  simp only [decode.bt709_t, flt_lit, flt_le, flt_powf, decide_eq_true_eq]
  rw [show ((1.0:ℚ):ℝ) / ((0.45:ℚ):ℝ) = ((20:ℕ):ℝ)/((9:ℕ):ℝ) by norm_num]
  norm_num only [Rat.cast_ofNat, Rat.cast_div]

theorem enc_bt2020 (x : ℝ) : encode.bt2020_t x =
    if x < 0.018 then x * 4.5 else 1.099 * x ^ (((9:ℕ):ℝ)/((20:ℕ):ℝ)) - 0.099 := by
  simp only [encode.bt2020_t, flt_lit, flt_lt, flt_powf, decide_eq_true_eq]
  rw [show ((0.45:ℚ):ℝ) = ((9:ℕ):ℝ)/((20:ℕ):ℝ) by norm_num]
  norm_num only [Rat.cast_ofNat, Rat.cast_div]

theorem dec_bt2020 (x : ℝ) : decode.bt2020_t x =
    if x < 0.081 then x / 4.5 else ((x + 0.099) / 1.099) ^ (((20:ℕ):ℝ)/((9:ℕ):ℝ)) := by
  simp only [decode.bt2020_t, flt_lit, flt_lt, flt_powf, decide_eq_true_eq]
  rw [show ((1.0:ℚ):ℝ) / ((0.45:ℚ):ℝ) = ((20:ℕ):ℝ)/((9:ℕ):ℝ) by norm_num]
  norm_num only [Rat.cast_ofNat, Rat.cast_div]

theorem enc_alexa (x : ℝ) : encode.alexa_logc_v3_t x =
    if 0.010591 < x then 0.247190 * Real.logb 10 (5.555556 * x + 0.052272) + 0.385537
    else 5.367655 * x + 0.092809 := by
  simp only [encode.alexa_logc_v3_t, Flt.gt, flt_lit, flt_lt, decide_eq_true_eq]
  show (if _ then _ * Real.logb 10 _ + _ else _) = _
  norm_num only [Rat.cast_ofNat, Rat.cast_div]

theorem dec_alexa (t : ℝ) : decode.alexa_logc_v3_t t =
    if 0.149658 < t then ((10:ℝ) ^ ((t - 0.385537) / 0.247190) - 0.052272) / 5.555556
    else (t - 0.092809) / 5.367655 := by
  simp only [decode.alexa_logc_v3_t, Flt.gt, flt_lit, flt_lt, flt_powf, decide_eq_true_eq]
  norm_num only [Rat.cast_ofNat, Rat.cast_div]

end CS

import Verif.Lemmas.FPArith

/-!
# Rounding errors
Bounds on `|roundQ f q - q|`, used for forward error analysis.
-/

namespace CS

/-- unit round-off `2^-p` -/
def Fmt.u (f : Fmt) : ℚ := 1 / 2 ^ f.p

/-- half the smallest subnormal, the absolute error of gradual underflow -/
def Fmt.eta (f : Fmt) : ℚ := 2 ^ (f.emin - f.p)

theorem Fmt.u_pos (f : Fmt) : 0 < f.u := by unfold Fmt.u; positivity

theorem Fmt.eta_pos (f : Fmt) : 0 < f.eta := two_zpow_pos _

theorem Fmt.u_le (f : Fmt) : f.u ≤ 1 / 4 := by
  unfold Fmt.u
  rw [div_le_div_iff₀ (by positivity) (by norm_num), one_mul, one_mul]
  calc (4:ℚ) = 2 ^ 2 := by norm_num
    _ ≤ 2 ^ f.p := pow_le_pow_right₀ (by norm_num) f.hp

/-- the standard model with gradual underflow -/
theorem roundQ_err_mixed (f : Fmt) (q : ℚ) : |roundQ f q - q| ≤ |q| * f.u + f.eta := by
  by_cases h : 2 ^ f.emin ≤ |q|
  · have := roundQ_relerr f h
    have h2 := f.eta_pos
    unfold Fmt.u
    rw [mul_one_div]
    linarith
  · push Not at h
    by_cases hq : q = 0
    · rw [hq, roundQ_zero]
      simpa using f.eta_pos.le
    have he : qexp f q = f.emin - (f.p - 1) := by
      unfold qexp
      congr 1
      apply max_eq_right
      have hpos : 0 < |q| := abs_pos.2 hq
      have := (Int.lt_zpow_iff_log_lt (b := 2) (by norm_num) hpos (x := f.emin)).1 (by exact_mod_cast h)
      exact this.le
    have := roundQ_err f q
    rw [he] at this
    have e : (2:ℚ) ^ (f.emin - (f.p - 1)) / 2 = f.eta := by
      unfold Fmt.eta
      rw [div_eq_iff (by norm_num), ← zpow_add_one₀ (by norm_num)]
      congr 1; ring
    rw [e] at this
    have h3 : 0 ≤ |q| * f.u := mul_nonneg (abs_nonneg q) f.u_pos.le
    linarith

/-- a rounded number is an integer multiple of the smallest subnormal -/
theorem isRep_multiple {f : Fmt} {q : ℚ} (h : roundQ f q = q) :
    ∃ m : ℤ, q = m * 2 ^ (f.emin - (f.p - 1)) := by
  obtain ⟨m, e, hq, -, he⟩ := roundQ_form f q
  rw [h] at hq
  obtain ⟨k, hk⟩ := Int.le.dest he
  refine ⟨m * 2 ^ k, ?_⟩
  rw [hq, ← hk, zpow_add₀ (by norm_num)]
  push_cast
  rw [zpow_natCast]
  ring

/-- sums and differences have no underflow error -/
theorem roundQ_err_add {f : Fmt} {a b : ℚ} (ha : roundQ f a = a) (hb : roundQ f b = b) :
    |roundQ f (a + b) - (a + b)| ≤ |a + b| * f.u := by
  by_cases h : 2 ^ f.emin ≤ |a + b|
  · have := roundQ_relerr f h
    unfold Fmt.u
    rw [mul_one_div]
    exact this
  · push Not at h
    obtain ⟨m, hm⟩ := isRep_multiple ha
    obtain ⟨n, hn⟩ := isRep_multiple hb
    have hs : a + b = ((m + n : ℤ) : ℚ) * 2 ^ (f.emin - (f.p - 1)) := by
      rw [hm, hn]; push_cast; ring
    have hmn : |m + n| ≤ 2 ^ f.p := by
      have h1 : |((m + n : ℤ) : ℚ)| * 2 ^ (f.emin - (f.p - 1)) < 2 ^ f.emin := by
        rw [hs, abs_mul, abs_of_pos (two_zpow_pos _)] at h; exact h
      have h2 : (2:ℚ) ^ f.emin = 2 ^ ((f.p:ℤ) - 1) * 2 ^ (f.emin - (f.p - 1)) := by
        rw [← zpow_add₀ (by norm_num)]; congr 1; ring
      rw [h2] at h1
      have h3 := lt_of_mul_lt_mul_right h1 (two_zpow_pos _).le
      have h4 : |((m + n : ℤ) : ℚ)| < 2 ^ f.p := by
        refine lt_of_lt_of_le h3 ?_
        rw [← zpow_natCast (2:ℚ) f.p]
        exact zpow_le_zpow_right₀ (by norm_num) (by omega)
      have h5 : (|m + n| : ℤ) < 2 ^ f.p := by exact_mod_cast h4
      exact h5.le
    have := roundQ_eq_self f (m + n) (f.emin - (f.p - 1)) hmn le_rfl
    rw [hs, this]
    simp only [sub_self, abs_zero]
    exact mul_nonneg (abs_nonneg _) f.u_pos.le

theorem isRep_two_pow_emax (f : Fmt) : IsRep f (2 ^ f.emax) := by
  refine ⟨?_, ?_⟩
  · have := roundQ_eq_self f 1 f.emax (by
      have : (1:ℤ) ≤ 2 ^ f.p := one_le_pow₀ (by norm_num)
      simpa using this) (by
      unfold Fmt.emin; have := f.hp; have := f.hpe; omega)
    simpa using this
  · rw [abs_of_pos (by positivity)]
    exact pow_lt_pow_right₀ (by norm_num) (by omega)

/-- no overflow up to `2^emax` -/
theorem roundQ_no_overflow {f : Fmt} {q : ℚ} (h : |q| ≤ 2 ^ f.emax) :
    |roundQ f q| ≤ 2 ^ f.emax := by
  have hr := (isRep_two_pow_emax f).1
  have h1 := roundQ_mono f (le_of_abs_le h)
  have h2 := roundQ_mono f (neg_le_of_abs_le h)
  rw [roundQ_neg] at h2
  rw [hr] at h1 h2
  exact abs_le.2 ⟨h2, h1⟩

theorem roundQ_lt {f : Fmt} {q : ℚ} (h : |q| ≤ 2 ^ f.emax) : |roundQ f q| < 2 ^ (f.emax + 1) :=
  lt_of_le_of_lt (roundQ_no_overflow h) (pow_lt_pow_right₀ (by norm_num) (by omega))

namespace FP
variable {f : Fmt}

theorem round_val (a : FP f) : roundQ f a.val = a.val := (val_rep a).1

/-- addition: exact sum up to `2^emax`, relative error `u` -/
theorem add_err {a b : FP f} (ha : a.isFinite = true) (hb : b.isFinite = true)
    (h : |a.val + b.val| ≤ 2 ^ f.emax) :
    (a + b).isFinite = true ∧ |(a + b).val - (a.val + b.val)| ≤ |a.val + b.val| * f.u := by
  obtain ⟨h1, h2⟩ := add_finite ha hb (roundQ_lt h)
  exact ⟨h1, by rw [h2]; exact roundQ_err_add a.round_val b.round_val⟩

theorem sub_err {a b : FP f} (ha : a.isFinite = true) (hb : b.isFinite = true)
    (h : |a.val - b.val| ≤ 2 ^ f.emax) :
    (a - b).isFinite = true ∧ |(a - b).val - (a.val - b.val)| ≤ |a.val - b.val| * f.u := by
  obtain ⟨h1, h2⟩ := sub_finite ha hb (roundQ_lt h)
  refine ⟨h1, ?_⟩
  rw [h2, sub_eq_add_neg a.val]
  exact roundQ_err_add a.round_val (by rw [roundQ_neg, b.round_val])

theorem mul_err {a b : FP f} (ha : a.isFinite = true) (hb : b.isFinite = true)
    (h : |a.val * b.val| ≤ 2 ^ f.emax) :
    (a * b).isFinite = true ∧ |(a * b).val - a.val * b.val| ≤ |a.val * b.val| * f.u + f.eta := by
  obtain ⟨h1, h2⟩ := mul_finite' ha hb (roundQ_lt h)
  exact ⟨h1, by rw [h2]; exact roundQ_err_mixed f _⟩

theorem div_err [Libm f] {a b : FP f} (ha : a.isFinite = true) (hb : b.isFinite = true)
    (h0 : b.val ≠ 0) (h : |a.val / b.val| ≤ 2 ^ f.emax) :
    (a / b).isFinite = true ∧ |(a / b).val - a.val / b.val| ≤ |a.val / b.val| * f.u + f.eta := by
  obtain ⟨h1, h2⟩ := div_finite' ha hb h0 (roundQ_lt h)
  exact ⟨h1, by rw [h2]; exact roundQ_err_mixed f _⟩

end FP
end CS

import Verif.Lemmas.FPScale

/-! Whole numbers in floating point. -/

namespace CS

variable {f : Fmt}

/-- a float holding the whole number `n` -/
structure Whole (x : FP f) (n : ℕ) : Prop where
  fin : x.isFinite = true
  val : x.val = n

theorem rep_whole [Libm f] (hf : Std f) {n : ℕ} (hn : n ≤ 2 ^ 24) : IsRep f (n : ℚ) :=
  FP.isRep_nat (f := f) n (hn.trans (Nat.pow_le_pow_right (by norm_num) (by have := hf.p24; omega : 24 ≤ f.p)))

theorem Whole.real {x : FP f} {n : ℕ} (h : Whole x n) : (x.val : ℝ) = n := by rw [h.val]; norm_num

theorem Whole.add [Libm f] (hf : Std f) {x y : FP f} {n m : ℕ} (hx : Whole x n) (hy : Whole y m) (h : n + m ≤ 2 ^ 24) :
    Whole (x + y) (n + m) := by
  have r := rep_whole hf h
  have e : x.val + y.val = ((n + m : ℕ) : ℚ) := by rw [hx.val, hy.val]; push_cast; ring
  obtain ⟨a, b⟩ := FP.add_finite hx.fin hy.fin (by rw [e, r.1]; exact r.2)
  exact ⟨a, by rw [b, e, r.1]⟩

theorem Whole.sub [Libm f] (hf : Std f) {x y : FP f} {n m : ℕ} (hx : Whole x n) (hy : Whole y m) (hm : m ≤ n)
    (h : n ≤ 2 ^ 24) : Whole (x - y) (n - m) := by
  have r := rep_whole hf (n := n - m) (by omega)
  have e : x.val - y.val = ((n - m : ℕ) : ℚ) := by rw [hx.val, hy.val, Nat.cast_sub hm]
  obtain ⟨a, b⟩ := FP.sub_finite hx.fin hy.fin (by rw [e, r.1]; exact r.2)
  exact ⟨a, by rw [b, e, r.1]⟩

theorem Whole.mul [Libm f] (hf : Std f) {x y : FP f} {n m : ℕ} (hx : Whole x n) (hy : Whole y m) (h : n * m ≤ 2 ^ 24) :
    Whole (x * y) (n * m) := by
  have r := rep_whole hf h
  have e : x.val * y.val = ((n * m : ℕ) : ℚ) := by rw [hx.val, hy.val]; push_cast; ring
  obtain ⟨a, b⟩ := FP.mul_finite' hx.fin hy.fin (by rw [e, r.1]; exact r.2)
  exact ⟨a, by rw [b, e, r.1]⟩

theorem Whole.ofNat [Libm f] (hf : Std f) (n : ℕ) (h : n ≤ 2 ^ 24) : Whole (Flt.ofNat n : FP f) n := by
  have r := rep_whole hf h
  obtain ⟨a, b⟩ := FP.ofQ_finite (f := f) (q := (n : ℚ)) false (by rw [r.1]; exact r.2)
  exact ⟨a, by show (FP.ofQ f false n).val = _; rw [b, r.1]⟩

theorem Whole.lit [Libm f] (hf : Std f) (n : ℕ) (h0 : 0 < n) (h : n ≤ 2 ^ 24) (q : ℚ) (hq : q = n) :
    Whole (Flt.lit q : FP f) n :=
  ⟨(lit_natural hf n h0 h q hq).1, (lit_natural hf n h0 h q hq).2⟩

theorem Whole.lt {x y : FP f} {n m : ℕ} (hx : Whole x n) (hy : Whole y m) : FP.lt x y = decide (n < m) := by
  rw [FP.lt_finite hx.fin hy.fin, hx.val, hy.val]; simp

theorem Whole.le {x y : FP f} {n m : ℕ} (hx : Whole x n) (hy : Whole y m) : FP.le x y = decide (n ≤ m) := by
  rw [FP.le_finite hx.fin hy.fin, hx.val, hy.val]; simp

theorem Whole.max {x y : FP f} {n m : ℕ} (hx : Whole x n) (hy : Whole y m) : Whole (FP.max x y) (max n m) := by
  unfold FP.max
  rw [FP.isNaN_of_finite hx.fin, FP.isNaN_of_finite hy.fin, hx.lt hy]
  simp only [Bool.false_eq_true, if_false, decide_eq_true_eq]
  split_ifs with h
  · rw [max_eq_right h.le]; exact hy
  · rw [max_eq_left (not_lt.1 h)]; exact hx

theorem Whole.min {x y : FP f} {n m : ℕ} (hx : Whole x n) (hy : Whole y m) : Whole (FP.min x y) (min n m) := by
  unfold FP.min
  rw [FP.isNaN_of_finite hx.fin, FP.isNaN_of_finite hy.fin, hy.lt hx]
  simp only [Bool.false_eq_true, if_false, decide_eq_true_eq]
  split_ifs with h
  · rw [min_eq_right h.le]; exact hy
  · rw [min_eq_left (not_lt.1 h)]; exact hx

/-- the quotient of whole numbers truncates to the whole quotient -/
theorem Whole.div [Libm f] (hf : Std f) {x y : FP f} {n m : ℕ} (hx : Whole x n) (hy : Whole y m) (hm : 0 < m)
    (h : n ≤ 2 ^ 22) (hm2 : m ≤ 2 ^ 22) :
    (x / y).isFinite = true ∧ ⌊(x / y).val⌋ = ((n / m : ℕ) : ℤ) := by
  have hm0 : (0:ℚ) < m := by exact_mod_cast hm
  have hn1 : (1:ℚ) ≤ m := by exact_mod_cast hm
  have hq : (n : ℚ) / m ≤ 2 ^ 22 := by
    rw [div_le_iff₀ hm0]
    have : (n : ℚ) ≤ 2 ^ 22 := by exact_mod_cast h
    nlinarith
  have hq0 : (0:ℚ) ≤ (n : ℚ) / m := by positivity
  obtain ⟨a, b⟩ := FP.div_err hx.fin hy.fin (by rw [hy.val]; exact hm0.ne') (pow_le_emax hf.wide (by
    rw [hx.val, hy.val, abs_of_nonneg hq0]; exact hq.trans (by norm_num)))
  refine ⟨a, ?_⟩
  rw [hx.val, hy.val, abs_of_nonneg hq0] at b
  -- the rounding error is less than the distance to another whole number
  have hu := hf.hu
  have heta : f.eta ≤ 1 / 2 ^ 60 := by
    have := hf.wide.heta
    have h2 : f.u / 2 ^ 124 ≤ 1 / 2 ^ 24 / 2 ^ 124 := by gcongr
    exact this.trans (h2.trans (by norm_num))
  have hb : (n : ℚ) / m * f.u + f.eta < 1 / m := by
    rw [lt_div_iff₀ hm0, add_mul, mul_right_comm, div_mul_cancel₀ _ hm0.ne']
    have e1 : (n : ℚ) * f.u ≤ 2 ^ 22 * (1 / 2 ^ 24) := by
      have : (n : ℚ) ≤ 2 ^ 22 := by exact_mod_cast h
      exact mul_le_mul this hu f.u_pos.le (by norm_num)
    have e2 : f.eta * (m : ℚ) ≤ 1 / 2 ^ 60 * 2 ^ 22 := by
      have : (m : ℚ) ≤ 2 ^ 22 := by exact_mod_cast hm2
      exact mul_le_mul heta this hm0.le (by norm_num)
    norm_num at e1 e2
    linarith
  obtain ⟨b1, b2⟩ := abs_le.1 b
  have hdm : (n : ℚ) = m * (n / m : ℕ) + (n % m : ℕ) := by exact_mod_cast (Nat.div_add_mod n m).symm
  have hqe : (n : ℚ) / m = (n / m : ℕ) + (n % m : ℕ) / m := by
    rw [div_eq_iff hm0.ne', add_mul, div_mul_cancel₀ _ hm0.ne', mul_comm]
    exact hdm
  have hlt : ((n % m : ℕ) : ℚ) / m ≤ 1 - 1 / m := by
    have : ((n % m : ℕ) : ℚ) + 1 ≤ m := by exact_mod_cast Nat.mod_lt n hm
    rw [div_le_iff₀ hm0, sub_mul, div_mul_cancel₀ _ hm0.ne', one_mul]
    linarith
  rw [Int.floor_eq_iff, Int.cast_natCast]
  refine ⟨?_, by linarith⟩
  by_cases hz : n % m = 0
  · have e : (n : ℚ) / m = ((n / m : ℕ) : ℚ) := by rw [hqe]; simp [hz]
    have r := rep_whole hf (n := n / m) ((Nat.div_le_self _ _).trans (h.trans (by norm_num)))
    have e2 : x.val / y.val = ((n / m : ℕ) : ℚ) := by rw [hx.val, hy.val, e]
    obtain ⟨-, d⟩ := FP.div_finite' hx.fin hy.fin (by rw [hy.val]; exact hm0.ne') (by rw [e2, r.1]; exact r.2)
    rw [d, e2, r.1]
  · have : (1:ℚ) / m ≤ ((n % m : ℕ) : ℚ) / m := by
      apply div_le_div_of_nonneg_right _ hm0.le
      exact_mod_cast Nat.one_le_iff_ne_zero.2 hz
    linarith

theorem Whole.toUsize [Libm f] (hf : Std f) {x y : FP f} {n m : ℕ} (hx : Whole x n) (hy : Whole y m) (hm : 0 < m)
    (h : n ≤ 2 ^ 22) (hm2 : m ≤ 2 ^ 22) : FP.toUsize (x / y) = some (n / m) := by
  obtain ⟨a, b⟩ := Whole.div hf hx hy hm h hm2
  generalize x / y = q at *
  have hle : n / m ≤ 2 ^ 22 := (Nat.div_le_self _ _).trans h
  cases q with
  | nan => simp [FP.isFinite] at a
  | pinf => simp [FP.isFinite] at a
  | ninf => simp [FP.isFinite] at a
  | nzero =>
    have : (0:ℤ) = ((n / m : ℕ) : ℤ) := by simpa [FP.val] using b
    simp only [FP.toUsize]
    congr 1; exact_mod_cast this
  | fin q hq =>
    have b' : ⌊q⌋ = ((n / m : ℕ) : ℤ) := b
    have h1 := Int.floor_le q
    have h2 := Int.lt_floor_add_one q
    rw [b', Int.cast_natCast] at h1 h2
    have h3 : ((n / m : ℕ) : ℚ) ≤ 2 ^ 22 := by exact_mod_cast hle
    have h4 : (0:ℚ) ≤ ((n / m : ℕ) : ℚ) := by positivity
    simp only [FP.toUsize]
    rw [if_pos ⟨by linarith, by linarith⟩, b', Int.toNat_natCast]

end CS

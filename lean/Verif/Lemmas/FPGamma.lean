import Verif.Lemmas.FPTransfer

/-!
# Pure power curves in floating point
-/

namespace CS
section gamma
variable {f : Fmt} [Libm f]

/-- a constant rounded once -/
theorem RelF.ofQ (hf : Std f) {q : ℚ} (h1 : 1 / 2 ^ 20 ≤ q) (h2 : q ≤ 2 ^ 20) :
    RelF 1 (FP.ofQ f false q) (q : ℝ) := by
  have hq : 0 < q := lt_of_lt_of_le (by positivity) h1
  obtain ⟨a, b⟩ := ofQ_err (f := f) false (q := q) (pow_le_emax hf.wide (by
    rw [abs_of_pos hq]; exact h2.trans (by norm_num)))
  exact RelF.of_mixed hf a (le_trans (by norm_num) h1) b

theorem RelF.ofQ_one : RelF 0 (FP.ofQ f false 1.0) 1 := by
  have h1 : IsRep f 1 := by simpa using FP.isRep_nat (f := f) 1 Nat.one_le_two_pow
  have e : FP.ofQ f false 1.0 = FP.fin 1 h1 := by
    rw [show (1.0 : ℚ) = 1 by norm_num]
    exact FP.ofQ_isRep h1 one_ne_zero _
  rw [e]
  exact (RelF.exact (f := f) (a := FP.fin 1 h1) rfl (by norm_num [FP.val])).congr (by norm_num [FP.val])

/-- decoding with exponent `g` and encoding with `1/g` -/
theorem gamma_trip (hf : Std f) (hp : PowAccurate f) {g : ℚ} (hg1 : 2 ≤ g) (hg2 : g ≤ 27 / 10)
    {y : FP f} (hy : y.isFinite = true) (h0 : 1 / 2 ^ 17 ≤ y.val) (h1 : y.val ≤ 1) :
    (Flt.powf (Flt.powf y (FP.ofQ f false g)) (FP.ofQ f false 1.0 / FP.ofQ f false g)).isFinite
      = true ∧
    |((Flt.powf (Flt.powf y (FP.ofQ f false g)) (FP.ofQ f false 1.0 / FP.ofQ f false g)).val : ℝ)
      - y.val| ≤ 47 * f.u * y.val := by
  have hy0 : (0:ℝ) < y.val := by
    exact_mod_cast lt_of_lt_of_le (by positivity : (0:ℚ) < 1 / 2 ^ 17) h0
  have h0r : (1:ℝ) / 2 ^ 17 ≤ y.val := by qcast h0
  have h1r : (y.val : ℝ) ≤ 1 := by exact_mod_cast h1
  have g1 : (2:ℝ) ≤ g := by exact_mod_cast hg1
  have g2 : (g:ℝ) ≤ 27 / 10 := by qcast hg2
  have hlog := abs_log_le (X := (y.val : ℝ)) 17 h0r (le_trans h1r (by norm_num))
  have a1 := (RelF.exact hy (by exact_mod_cast hy0)).powf hf hp
    (RelF.ofQ hf (q := g) (le_trans (by norm_num) hg1) (le_trans hg2 (by norm_num))) (N := 36)
    (L := 17 * (6932 / 10000)) le_rfl (by norm_num) (by norm_num) (by norm_num)
    (le_trans (by norm_num) h0r) (by linarith) (by linarith) (by linarith) (by exact_mod_cast hlog)
    (by norm_num; linarith) (by norm_num; linarith)
  have hgi : (1:ℝ) / g ≤ 1 / 2 := one_div_le_one_div_of_le (by norm_num) g1
  have hgi2 : (10:ℝ) / 27 ≤ 1 / g := by
    rw [le_div_iff₀ (by linarith)]; linarith
  have hgg : (g:ℝ) * (1 / g) = 1 := by field_simp
  have hX1 : (1:ℝ) / 2 ^ 51 ≤ (y.val : ℝ) ^ (g:ℝ) := by
    calc (1:ℝ) / 2 ^ 51 = (1 / 2 ^ 17) ^ (3:ℝ) := by
          rw [show (3:ℝ) = ((3:ℕ):ℝ) by norm_num, Real.rpow_natCast]; norm_num
      _ ≤ (y.val : ℝ) ^ (3:ℝ) := Real.rpow_le_rpow (by positivity) h0r (by norm_num)
      _ ≤ _ := Real.rpow_le_rpow_of_exponent_ge hy0 h1r (by linarith)
  have hX2 : (y.val : ℝ) ^ (g:ℝ) ≤ 1 := Real.rpow_le_one hy0.le h1r (by linarith)
  have hlogX : |Real.log ((y.val : ℝ) ^ (g:ℝ))| ≤ g * (17 * (6932 / 10000)) := by
    rw [Real.log_rpow hy0, abs_mul, abs_of_pos (by linarith)]
    exact mul_le_mul_of_nonneg_left (by exact_mod_cast hlog) (by linarith)
  have a2 := (RelF.ofQ_one (f := f)).div hf
    (RelF.ofQ hf (q := g) (le_trans (by norm_num) hg1) (le_trans hg2 (by norm_num)))
    (by norm_num) (by norm_num) (by norm_num) (le_trans (by norm_num) hgi2) (le_trans hgi (by norm_num))
  have a3 := a1.powf hf hp a2 (N := 46) (L := g * (17 * (6932 / 10000))) (by norm_num) (by norm_num)
    (by norm_num) (by norm_num) (le_trans (by norm_num) hX1) (by linarith) (by linarith) (by linarith)
    hlogX (by
      have e : 4 + 1 / (g:ℝ) * 36 + (g * (17 * (6932 / 10000)) + 1 / 1000) *
          (1 / (g:ℝ) * ((0 + 1 + 1) * (1 + 1 / 1000))) =
          4 + 36 * (1 / (g:ℝ)) + (17 * (6932 / 10000)) * (2 * (1 + 1 / 1000)) * (g * (1 / (g:ℝ))) +
          1 / 1000 * (2 * (1 + 1 / 1000)) * (1 / (g:ℝ)) := by ring
      rw [e, hgg]
      norm_num at hgi ⊢
      linarith) (by
      have e : (g * (17 * (6932 / 10000)) + 1 / 1000) * (1 / (g:ℝ) * (1 + 1 / 1000)) =
          (17 * (6932 / 10000)) * (1 + 1 / 1000) * (g * (1 / (g:ℝ))) +
          1 / 1000 * (1 + 1 / 1000) * (1 / (g:ℝ)) := by ring
      rw [e, hgg]
      norm_num at hgi ⊢
      linarith)
  refine ⟨a3.fin, ?_⟩
  have hback : ((y.val : ℝ) ^ (g:ℝ)) ^ (1 / (g:ℝ)) = y.val := by
    rw [← Real.rpow_mul hy0.le, hgg, Real.rpow_one]
  have a4 := a3.err
  rw [hback] at a4
  obtain ⟨s1, s2⟩ := RelF.small hf (n := 46) (by norm_num) (by norm_num)
  refine le_trans (a4.to_abs s1 (le_trans s2 (by norm_num))) ?_
  rw [mul_comm (47 * (f.u : ℝ))]
  refine mul_le_mul_of_nonneg_left ?_ hy0.le
  have hu : (f.u : ℝ) ≤ 1 / 2 ^ 24 := by qcast hf.hu
  have hu0 : (0:ℝ) < (f.u : ℝ) := by exact_mod_cast f.u_pos
  have e : 46 * kap f * (1 + 46 * kap f) ≤ 46 * kap f * (1 + 1 / 2 ^ 13) :=
    mul_le_mul_of_nonneg_left (by linarith) s1
  refine le_trans e ?_
  unfold kap
  norm_num; linarith

/-- zero stays zero -/
theorem gamma_zero (hf : Std f) (hp : PowAccurate f) {g : ℚ} (hg1 : 2 ≤ g) (hg2 : g ≤ 27 / 10)
    {y : FP f} (hy : y.isFinite = true) (h0 : y.val = 0) :
    (Flt.powf (Flt.powf y (FP.ofQ f false g)) (FP.ofQ f false 1.0 / FP.ofQ f false g)).isFinite
      = true ∧
    (Flt.powf (Flt.powf y (FP.ofQ f false g)) (FP.ofQ f false 1.0 / FP.ofQ f false g)).val = 0 := by
  have g1 : (2:ℝ) ≤ g := by exact_mod_cast hg1
  have g2 : (g:ℝ) ≤ 27 / 10 := by qcast hg2
  have hgi : (1:ℝ) / g ≤ 1 / 2 := one_div_le_one_div_of_le (by norm_num) g1
  have hgi2 : (10:ℝ) / 27 ≤ 1 / g := by
    rw [le_div_iff₀ (by linarith)]; linarith
  have a0 := RelF.ofQ hf (q := g) (le_trans (by norm_num) hg1) (le_trans hg2 (by norm_num))
  have a2 := (RelF.ofQ_one (f := f)).div hf a0
    (by norm_num) (by norm_num) (by norm_num) (le_trans (by norm_num) hgi2) (le_trans hgi (by norm_num))
  obtain ⟨b1, b2⟩ := hp.zero y _ hy a0.fin h0 (by have := a0.err.xpos; exact_mod_cast this)
  exact hp.zero _ _ b1 a2.fin b2 (by have := a2.err.xpos; exact_mod_cast this)

end gamma
end CS

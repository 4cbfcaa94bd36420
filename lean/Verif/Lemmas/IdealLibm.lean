import Verif.Lemmas.FPLogC
import Verif.Lemmas.FPSym

/-!
# A library that meets the accuracy assumptions
The accuracy assumptions on the library are met by rounding the exact functions, so the theorems that assume
them are not vacuous.
-/

namespace CS
variable {f : Fmt}

theorem exists_near (x : ℝ) {e : ℝ} (he : 0 < e) : ∃ q : ℚ, |(q : ℝ) - x| ≤ e := by
  obtain ⟨q, h1, h2⟩ := exists_rat_btwn (show x - e < x + e by linarith)
  exact ⟨q, by rw [abs_le]; constructor <;> linarith⟩

theorem exists_rat_near (f : Fmt) {x : ℝ} (hx : x ≠ 0) : ∃ q : ℚ, |(q : ℝ) - x| ≤ |x| * (f.u / 2) := by
  have hu : (0:ℝ) < f.u := by exact_mod_cast f.u_pos
  exact exists_near x (mul_pos (abs_pos.2 hx) (by linarith))

open Classical in
/-- round a real number -/
noncomputable def roundR (f : Fmt) (x : ℝ) : FP f :=
  if hx : x = 0 then .fin 0 (FP.isRep_zero f)
  else FP.ofQ f false (exists_rat_near f hx).choose

theorem roundR_zero : roundR f 0 = .fin 0 (FP.isRep_zero f) := by simp [roundR]

theorem roundR_err (hf : Std f) {x : ℝ} (h : |x| ≤ 2 ^ 101) :
    (roundR f x).isFinite = true ∧ |((roundR f x).val : ℝ) - x| ≤ 2 * f.u * |x| + f.eta := by
  have hu0 : (0:ℝ) < f.u := by exact_mod_cast f.u_pos
  have het : (0:ℝ) < f.eta := by exact_mod_cast f.eta_pos
  by_cases hx : x = 0
  · subst hx
    rw [roundR_zero]
    exact ⟨rfl, by simpa [FP.val] using het.le⟩
  · have hs := (exists_rat_near f hx).choose_spec
    unfold roundR
    rw [dif_neg hx]
    set q := (exists_rat_near f hx).choose
    have hu : (f.u : ℝ) ≤ 1 / 2 ^ 24 := by qcast hf.hu
    have hu' : (f.u : ℝ) / 2 ≤ 1 / 2 := by norm_num at hu; linarith
    have hq1 : |(q : ℝ)| ≤ |x| * (1 + f.u / 2) := by
      have := abs_add_le ((q : ℝ) - x) x
      rw [sub_add_cancel] at this
      linarith
    have hq2 : |(q : ℝ)| ≤ 2 ^ 102 := by
      have : |x| * (1 + (f.u : ℝ) / 2) ≤ 2 ^ 101 * 2 :=
        mul_le_mul h (by linarith) (by linarith) (by positivity)
      refine hq1.trans (this.trans (by norm_num))
    have hq3 : |q| ≤ 2 ^ f.emax := by
      have a : |q| ≤ 2 ^ 102 := by qcast hq2
      have b := hf.wide.hmax
      have c : (2:ℚ) ^ 102 ≤ 2 ^ 126 := pow_le_pow_right₀ (by norm_num) (by norm_num)
      have hp : (0:ℚ) < 2 ^ f.emax := by positivity
      generalize (2:ℚ) ^ f.emax = z at *
      generalize (2:ℚ) ^ 126 = z' at *
      generalize (2:ℚ) ^ 102 = z'' at *
      linarith
    obtain ⟨a, b⟩ := ofQ_err (f := f) false hq3
    refine ⟨a, ?_⟩
    have b' : |((FP.ofQ f false q).val : ℝ) - q| ≤ |(q:ℝ)| * f.u + f.eta := by qcast b
    have t := abs_add_le (((FP.ofQ f false q).val : ℝ) - q) ((q : ℝ) - x)
    rw [sub_add_sub_cancel] at t
    have hx0 := abs_nonneg x
    have e1 : |(q:ℝ)| * f.u ≤ |x| * (1 + 1 / 2) * f.u := by
      refine mul_le_mul_of_nonneg_right (hq1.trans ?_) hu0.le
      exact mul_le_mul_of_nonneg_left (by linarith) hx0
    have e2 : |x| * (1 + 1 / 2) * (f.u : ℝ) + |x| * (f.u / 2) = 2 * f.u * |x| := by ring
    linarith

/-- round the values of an odd function so that the result is odd -/
noncomputable def roundOdd (f : Fmt) (g : ℝ → ℝ) : FP f → FP f
  | .nzero => .nzero
  | .fin q _ => if q < 0 then -(roundR f (g (-q))) else roundR f (g q)
  | _ => .nan

theorem roundOdd_neg {g : ℝ → ℝ} (h0 : g 0 = 0) (x : FP f) : roundOdd f g (-x) = -(roundOdd f g x) := by
  cases x with
  | nan => rfl
  | pinf => rfl
  | ninf => rfl
  | nzero =>
    show roundOdd f g (.fin 0 (FP.isRep_zero f)) = .fin 0 (FP.isRep_zero f)
    simp [roundOdd, h0, roundR_zero]
  | fin q hq =>
    by_cases hz : q = 0
    · subst hz
      have e : -(FP.fin 0 hq : FP f) = .nzero := by show FP.neg _ = _; simp [FP.neg]
      rw [e]
      simp only [roundOdd, lt_irrefl, if_false, Rat.cast_zero, h0, roundR_zero]
      exact e.symm
    · have e : -(FP.fin q hq : FP f) = .fin (-q) (FP.isRep_neg hq) := by show FP.neg _ = _; simp [FP.neg, hz]
      rw [e]
      simp only [roundOdd, Left.neg_neg_iff, Rat.cast_neg, neg_neg]
      rcases lt_or_gt_of_ne hz with h | h
      · rw [if_neg (by linarith), if_pos h, FP.neg_neg']
      · rw [if_pos h, if_neg (by linarith)]

theorem roundOdd_zero {g : ℝ → ℝ} (h0 : g 0 = 0) (x : FP f) (hx : FP.IsZero x) : FP.IsZero (roundOdd f g x) := by
  rcases hx.cases with e | e <;> rw [e]
  · exact ⟨rfl, rfl⟩
  · simp only [roundOdd, lt_irrefl, if_false, Rat.cast_zero, h0, roundR_zero]
    exact ⟨rfl, rfl⟩

/-- the exact functions, rounded; a comparison of floats within two ulps is not needed -/
noncomputable def idealLibm (f : Fmt) : Libm f where
  powf x y := roundR f ((x.val : ℝ) ^ (y.val : ℝ))
  powi x n := roundR f ((x.val : ℝ) ^ n)
  sqrt x := roundR f (Real.sqrt x.val)
  hypot x y := roundR f (Real.sqrt ((x.val : ℝ) ^ 2 + (y.val : ℝ) ^ 2))
  atan2 y x := roundR f (Complex.arg ⟨x.val, y.val⟩)
  sin x := roundOdd f Real.sin x
  cos x := roundR f (Real.cos x.val)
  exp x := roundR f (Real.exp x.val)
  log10 x := roundR f (Real.logb 10 (x.val : ℝ))
  toDeg x := roundOdd f (fun x => x * (180 / Real.pi)) x
  toRad x := roundOdd f (fun x => x * (Real.pi / 180)) x
  ulps2 _ _ := false

theorem ideal_pow (hf : Std f) : @PowAccurate f (idealLibm f) := by
  letI := idealLibm f
  refine ⟨?_, ?_⟩
  · intro x y _ _ _ _ _ h1 h2
    have hp : (0:ℝ) < (x.val : ℝ) ^ (y.val : ℝ) := lt_of_lt_of_le (by positivity) h1
    obtain ⟨a, b⟩ := roundR_err hf (x := (x.val : ℝ) ^ (y.val : ℝ)) (by
      rw [abs_of_pos hp]; exact h2.trans (by norm_num))
    refine ⟨a, le_trans b ?_⟩
    rw [abs_of_pos hp]
    have hu0 : (0:ℝ) < f.u := by exact_mod_cast f.u_pos
    have het : (f.eta : ℝ) ≤ f.u / 2 ^ 124 := by qcast hf.wide.heta
    have h3 : (f.u : ℝ) / 2 ^ 124 ≤ f.u * (x.val : ℝ) ^ (y.val : ℝ) := by
      rw [div_eq_mul_one_div]
      refine mul_le_mul_of_nonneg_left (le_trans ?_ h1) hu0.le
      norm_num
    linarith [mul_pos hu0 hp]
  · intro x y _ _ hx hy
    have : (Flt.powf x y : FP f) = roundR f ((x.val : ℝ) ^ (y.val : ℝ)) := rfl
    rw [this, hx]
    have hy' : (y.val : ℝ) ≠ 0 := by exact_mod_cast hy.ne'
    rw [show ((0:ℚ):ℝ) = 0 by norm_num, Real.zero_rpow hy', roundR_zero]
    exact ⟨rfl, rfl⟩

theorem ideal_log (hf : Std f) : @LogAccurate f (idealLibm f) := by
  letI := idealLibm f
  refine ⟨?_⟩
  intro x _ h1 h2
  have h1r : (1:ℝ) / 2 ^ 10 ≤ x.val := by qcast h1
  have h2r : (x.val : ℝ) ≤ 2 ^ 10 := by qcast h2
  have hl := abs_log_le 10 h1r h2r
  have hl10 : 1 ≤ Real.log 10 := by
    have h := Real.log_two_gt_d9
    have h' : Real.log ((2:ℝ) ^ 3) ≤ Real.log 10 := Real.log_le_log (by norm_num) (by norm_num)
    rw [Real.log_pow] at h'
    norm_num at h' h
    linarith
  have hL : |Real.logb 10 (x.val : ℝ)| ≤ 2 ^ 101 := by
    rw [Real.logb, abs_div, abs_of_pos (by linarith : (0:ℝ) < Real.log 10), div_le_iff₀ (by linarith)]
    refine hl.trans ?_
    norm_num
    linarith
  obtain ⟨a, b⟩ := roundR_err hf hL
  refine ⟨a, le_trans b ?_⟩
  have hu0 : (0:ℝ) < f.u := by exact_mod_cast f.u_pos
  have het : (f.eta : ℝ) ≤ f.u / 2 ^ 124 := by qcast hf.wide.heta
  have h3 : (f.u : ℝ) / 2 ^ 124 ≤ f.u := div_le_self hu0.le (by norm_num)
  have h4 := mul_nonneg hu0.le (abs_nonneg (Real.logb 10 (x.val : ℝ)))
  linarith

end CS

import Verif.Lemmas.FPCiede

/-!
# A library that meets the assumptions on the mathematical functions
The exact functions, rounded, meet `Spec.MathAccurate`, so the theorems that assume it are not vacuous.
-/

namespace CS
variable {f : Fmt}

theorem roundR_nonneg (hf : Std f) {x : ℝ} (h : 0 ≤ x) : 0 ≤ (roundR f x).val := by
  by_cases hx : x = 0
  · subst hx; rw [roundR_zero]; exact le_rfl
  · have hs := (exists_rat_near f hx).choose_spec
    unfold roundR
    rw [dif_neg hx]
    refine FP.val_nonneg_of_sgn (FP.ofQ_sgn ?_)
    set q := (exists_rat_near f hx).choose
    have hu : (f.u : ℝ) ≤ 1 / 2 ^ 24 := by qcast hf.hu
    rw [abs_of_nonneg h] at hs
    have h1 := (abs_le.1 hs).1
    have h2 : x * ((f.u : ℝ) / 2) ≤ x * 1 := mul_le_mul_of_nonneg_left (by norm_num at hu; linarith) h
    have : (0:ℝ) ≤ q := by linarith
    exact_mod_cast this

theorem roundOdd_err (hf : Std f) {g : ℝ → ℝ} (hg : ∀ x, g (-x) = -(g x)) {x : FP f} (hx : x.isFinite = true)
    (h : |g x.val| ≤ 2 ^ 101) :
    (roundOdd f g x).isFinite = true ∧ |((roundOdd f g x).val : ℝ) - g x.val| ≤ 2 * f.u * |g x.val| + f.eta := by
  have h0 : g 0 = 0 := by have := hg 0; simp only [neg_zero] at this; linarith
  cases x with
  | nan => simp [FP.isFinite] at hx
  | pinf => simp [FP.isFinite] at hx
  | ninf => simp [FP.isFinite] at hx
  | nzero =>
    refine ⟨rfl, ?_⟩
    have het : (0:ℝ) < f.eta := by exact_mod_cast f.eta_pos
    show |((FP.nzero : FP f).val : ℝ) - g ((FP.nzero : FP f).val)| ≤ _
    simp only [FP.val_nzero, Rat.cast_zero, h0, abs_zero, sub_zero, mul_zero, zero_add]
    exact het.le
  | fin q hq =>
    simp only [FP.val_fin] at h ⊢
    simp only [roundOdd]
    by_cases hn : q < 0
    · rw [if_pos hn]
      have e : g q = -(g (-q)) := by rw [hg]; ring
      rw [e, abs_neg] at h ⊢
      obtain ⟨a, b⟩ := roundR_err hf h
      refine ⟨by rw [FP.isFinite_neg]; exact a, ?_⟩
      rw [FP.val_neg]
      push_cast
      rw [← abs_neg]
      convert b using 2
      ring
    · rw [if_neg hn]
      exact roundR_err hf h

section
variable (hf : Std f)
include hf

/-- rounding a number that is not too large -/
theorem near_roundR {X e : ℝ} {x : FP f} (hx : x = roundR f X) (h : |X| ≤ 2 ^ 101) (he : 2 * f.u * |X| + f.eta ≤ e) :
    Spec.NearBy e x X := by
  subst hx
  obtain ⟨a, b⟩ := roundR_err hf h
  exact ⟨a, b.trans he⟩

theorem ideal_math (he : f.eta ≤ f.u ^ 2 / 2 ^ 30) : @Spec.MathAccurate f (idealLibm f) := by
  letI := idealLibm f
  obtain ⟨u0, u1, e0, e1⟩ := hf.real_u
  have e2 : (f.eta : ℝ) ≤ f.u / 2 ^ 124 := by qcast hf.wide.heta
  have e3 : (f.eta : ℝ) ≤ f.u := e2.trans (div_le_self u0.le (by norm_num))
  have he' : (f.eta : ℝ) ≤ (f.u : ℝ) ^ 2 / 2 ^ 30 := by qcast he
  have two : ∀ {X : ℝ}, 0 ≤ 2 * (f.u : ℝ) * |X| := fun {X} => mul_nonneg (by linarith) (abs_nonneg X)
  have four : ∀ {X : ℝ}, 2 * (f.u : ℝ) * |X| + f.eta ≤ 4 * f.u * |X| + f.eta := fun {X} => by
    have := two (X := X); nlinarith
  have one : ∀ {X : ℝ}, |X| ≤ 1 → 2 * (f.u : ℝ) * |X| + f.eta ≤ 4 * f.u := fun {X} hX => by
    have := mul_le_mul_of_nonneg_left hX (by linarith : (0:ℝ) ≤ 2 * f.u); linarith
  refine ⟨?_, ?_, ?_, ?_, ?_, ?_, ?_, ?_, ?_, ?_, ?_, ?_⟩
  · intro x hx h0 hle
    refine ⟨roundR_nonneg hf (Real.sqrt_nonneg _), ?_⟩
    have hb : Real.sqrt (x.val : ℝ) ≤ 2 ^ 101 := by
      rw [Real.sqrt_le_left (by norm_num)]
      have : (x.val : ℝ) ≤ 2 ^ 30 := by exact_mod_cast hle
      exact this.trans (by norm_num)
    by_cases hz : x.val = 0
    · have : (Flt.sqrt x : FP f) = roundR f (Real.sqrt x.val) := rfl
      rw [this, hz, Rat.cast_zero, Real.sqrt_zero, roundR_zero]
      exact ⟨rfl, by simp⟩
    · refine near_roundR hf (e := 4 * f.u * Real.sqrt x.val) rfl (by rwa [abs_of_nonneg (Real.sqrt_nonneg _)]) ?_
      rw [abs_of_nonneg (Real.sqrt_nonneg _)]
      -- a positive float is at least twice the underflow error
      have hx1 : f.eta ≤ x.val := by
        by_contra hlt
        exact hz (rep_zero (FP.round_val x) (by rw [abs_of_nonneg h0]; linarith))
      have hx1' : (f.eta : ℝ) ≤ x.val := by exact_mod_cast hx1
      have hs : (f.eta : ℝ) ≤ 2 * f.u * Real.sqrt x.val := by
        have h1 : Real.sqrt f.eta ≤ Real.sqrt x.val := Real.sqrt_le_sqrt hx1'
        have h2 : Real.sqrt (f.eta : ℝ) ≤ f.u := by
          rw [Real.sqrt_le_left u0.le]
          exact he'.trans (div_le_self (sq_nonneg _) (by norm_num))
        calc (f.eta : ℝ) = Real.sqrt f.eta * Real.sqrt f.eta := (Real.mul_self_sqrt e0.le).symm
          _ ≤ f.u * Real.sqrt x.val := mul_le_mul h2 h1 (Real.sqrt_nonneg _) u0.le
          _ ≤ 2 * f.u * Real.sqrt x.val := by nlinarith [mul_nonneg u0.le (Real.sqrt_nonneg (x.val : ℝ))]
      linarith
  · intro x y hx hy hX hY
    refine ⟨roundR_nonneg hf (Real.sqrt_nonneg _), ?_⟩
    have hX' : |(x.val : ℝ)| ≤ 2 ^ 11 := by qcast hX
    have hY' : |(y.val : ℝ)| ≤ 2 ^ 11 := by qcast hY
    have hb : Real.sqrt ((x.val : ℝ) ^ 2 + (y.val : ℝ) ^ 2) ≤ 2 ^ 101 := by
      rw [Real.sqrt_le_left (by norm_num), ← sq_abs (x.val : ℝ), ← sq_abs (y.val : ℝ)]
      have h1 := pow_le_pow_left₀ (abs_nonneg _) hX' 2
      have h2 := pow_le_pow_left₀ (abs_nonneg _) hY' 2
      refine (add_le_add h1 h2).trans (by norm_num)
    have := near_roundR hf (X := Real.sqrt ((x.val : ℝ) ^ 2 + (y.val : ℝ) ^ 2)) rfl
      (by rwa [abs_of_nonneg (Real.sqrt_nonneg _)]) four
    rw [abs_of_nonneg (Real.sqrt_nonneg _)] at this
    exact ⟨this.1, this.2.trans (by linarith)⟩
  · intro x y _ _ hx hy
    show (roundR f (Real.sqrt ((x.val : ℝ) ^ 2 + (y.val : ℝ) ^ 2))).val = 0
    rw [hx, hy]
    simp [roundR_zero]
  · intro x hx hX
    refine ⟨roundR_nonneg hf (sq_nonneg _), ?_⟩
    have hX' : |(x.val : ℝ)| ≤ 2 ^ 12 := by qcast hX
    have := near_roundR hf (X := (x.val : ℝ) ^ 2) rfl (by
      rw [abs_pow]; exact (pow_le_pow_left₀ (abs_nonneg _) hX' 2).trans (by norm_num)) four
    rw [abs_of_nonneg (sq_nonneg _)] at this
    exact this
  · intro x hx h0 hX
    have h0' : (0:ℝ) ≤ x.val := by exact_mod_cast h0
    have hp : (0:ℝ) ≤ (x.val : ℝ) ^ 7 := by positivity
    refine ⟨roundR_nonneg hf hp, ?_⟩
    have hX' : (x.val : ℝ) ≤ 2 ^ 11 := by exact_mod_cast hX
    refine near_roundR hf rfl (by
      rw [abs_of_nonneg hp]; exact (pow_le_pow_left₀ h0' hX' 7).trans (by norm_num)) ?_
    rw [abs_of_nonneg hp]
    have := mul_nonneg u0.le hp
    linarith
  · intro y x hx hy
    have h := near_roundR hf (X := Complex.arg ⟨x.val, y.val⟩) rfl ((Complex.abs_arg_le_pi _).trans (by
      have := Real.pi_lt_d2
      norm_num at this ⊢
      linarith)) four
    exact ⟨_, Or.inl rfl, h.1, h.2.trans (by linarith)⟩
  · intro y x _ _ hy hx
    show (roundR f (Complex.arg ⟨x.val, y.val⟩)).val = 0
    have e : (⟨(x.val : ℝ), (y.val : ℝ)⟩ : ℂ) = ((x.val : ℝ) : ℂ) := by
      rw [hy, Rat.cast_zero]; rfl
    have hx' : (0:ℝ) ≤ x.val := by exact_mod_cast hx.le
    rw [e, Complex.arg_ofReal_of_nonneg hx', roundR_zero]
    rfl
  · intro x hx h
    have h1 := Real.abs_sin_le_one (x.val : ℝ)
    obtain ⟨a, b⟩ := roundOdd_err hf Real.sin_neg hx (h1.trans (by norm_num))
    exact ⟨a, b.trans (one h1)⟩
  · intro x hx h
    have h1 := Real.abs_cos_le_one (x.val : ℝ)
    exact near_roundR hf rfl (h1.trans (by norm_num)) (one h1)
  · intro x hx _ h0
    refine ⟨roundR_nonneg hf (Real.exp_pos _).le, ?_⟩
    have h1 : |Real.exp (x.val : ℝ)| ≤ 1 := by
      rw [abs_of_pos (Real.exp_pos _)]
      exact Real.exp_le_one_iff.2 (by exact_mod_cast h0)
    exact near_roundR hf rfl (h1.trans (by norm_num)) (one h1)
  · intro x hx h
    have hX' : |(x.val : ℝ)| ≤ 4 := by qcast h
    have hp := Real.pi_gt_d2
    obtain ⟨a, b⟩ := roundOdd_err hf (g := fun x => x * (180 / Real.pi)) (fun x => neg_mul _ _) hx (by
      show |(x.val : ℝ) * (180 / Real.pi)| ≤ _
      rw [abs_mul, abs_of_pos (a := 180 / Real.pi) (by positivity)]
      have : 180 / Real.pi ≤ 60 := by rw [div_le_iff₀ Real.pi_pos]; norm_num at hp; linarith
      exact (mul_le_mul hX' this (by positivity) (by norm_num)).trans (by norm_num))
    exact ⟨a, b.trans four⟩
  · intro x hx h
    have hX' : |(x.val : ℝ)| ≤ 2 ^ 12 := by qcast h
    have hp := Real.pi_lt_d2
    obtain ⟨a, b⟩ := roundOdd_err hf (g := fun x => x * (Real.pi / 180)) (fun x => neg_mul _ _) hx (by
      show |(x.val : ℝ) * (Real.pi / 180)| ≤ _
      rw [abs_mul, abs_of_pos (a := Real.pi / 180) (by positivity)]
      have : Real.pi / 180 ≤ 1 := by rw [div_le_iff₀ (by norm_num)]; norm_num at hp; linarith
      exact (mul_le_mul hX' this (by positivity) (by norm_num)).trans (by norm_num))
    exact ⟨a, b.trans four⟩

end
end CS

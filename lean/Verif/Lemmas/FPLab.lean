import Verif.Lemmas.FPSprague
import Verif.Lemmas.LabReal

/-! # Rounding errors of the L*a*b* conversions -/

namespace CS

section
variable {f : Fmt} [Libm f]

theorem scale_one : Scale 1 := ⟨by norm_num, by norm_num⟩

/-- the threshold -/
theorem eps_fp (hf : Std f) : (Flt.lit 216.0 / Flt.lit 24389.0 : FP f).isFinite = true ∧
    |((Flt.lit 216.0 / Flt.lit 24389.0 : FP f).val : ℝ) - 216 / 24389| ≤ 9 / 1000 * f.u := by
  have h : Tr 1 (Flt.lit 216.0 : FP f) 216 216 0 :=
    ⟨lit_fin hf 216 _, by norm_num, by rw [lit_val hf 216 216.0]; norm_num⟩
  have := h.divc hf scale_one (lit_fin hf 24389 24389.0) (lit_val hf 24389 24389.0) (by norm_num)
    (P := 8857 / 10 ^ 6) (K := 9 / 1000)
  refine ⟨this.fin, ?_⟩
  have := this.err
  push_cast at this
  rwa [mul_one] at this

/-- the slope -/
theorem kap_fp (hf : Std f) : (Flt.lit 24389.0 / Flt.lit 27.0 : FP f).isFinite = true ∧
    |((Flt.lit 24389.0 / Flt.lit 27.0 : FP f).val : ℝ) - 24389 / 27| ≤ 9034 / 10 * f.u := by
  have h : Tr 1 (Flt.lit 24389.0 : FP f) 24389 24389 0 :=
    ⟨lit_fin hf 24389 _, by norm_num, by rw [lit_val hf 24389 24389.0]; norm_num⟩
  have := h.divc hf scale_one (lit_fin hf 27 27.0) (lit_val hf 27 27.0) (by norm_num)
    (P := 24389 / 27) (K := 9034 / 10)
  refine ⟨this.fin, ?_⟩
  have := this.err
  push_cast at this
  rwa [mul_one] at this

theorem third_fp (hf : Std f) : RelF 1 (Flt.lit 1.0 / Flt.lit 3.0 : FP f) (1 / 3) := by
  have v1 := lit_val hf 1 1.0
  have v3 := lit_val hf 3 3.0
  have h1 := RelF.exact (lit_fin hf 1 1.0) (by
    have : (0:ℝ) < ((Flt.lit 1.0 : FP f).val : ℝ) := by rw [v1]; norm_num
    exact_mod_cast this)
  have h3 := RelF.exact (lit_fin hf 3 3.0) (by
    have : (0:ℝ) < ((Flt.lit 3.0 : FP f).val : ℝ) := by rw [v3]; norm_num
    exact_mod_cast this)
  rw [v1] at h1
  rw [v3] at h3
  have := h1.div hf h3 le_rfl le_rfl (by norm_num) (by norm_num) (by norm_num)
  refine (this.mono (by norm_num)).congr (by norm_num)

/-- the companding in floating point, at a floating point number -/
theorem labF_err (hf : Std f) (hp : PowAccurate f) {r : FP f} (hr : r.isFinite = true)
    (h1 : -(9 / 100) ≤ (r.val : ℝ)) (h2 : (r.val : ℝ) ≤ 49 / 10) {B : ℝ} (hB : 1 ≤ B) (hrB : labF (r.val : ℝ) ≤ B) :
    (labF r).isFinite = true ∧ |((labF r).val : ℝ) - labF (r.val : ℝ)| ≤ 6 * B * f.u := by
  obtain ⟨u0, u1, u2⟩ := hf.u_bounds
  obtain ⟨e1, e2⟩ := eps_fp hf
  obtain ⟨k1, k2⟩ := kap_fp hf
  have t1 := third_fp hf
  have hu : labF r = if Flt.gt r (Flt.lit 216.0 / Flt.lit 24389.0 : FP f) then
      Flt.powf r (Flt.lit 1.0 / Flt.lit 3.0) else
      ((Flt.lit 24389.0 / Flt.lit 27.0 : FP f) * r + Flt.lit 16.0) / Flt.lit 116.0 := rfl
  rw [hu]
  clear hu
  generalize (Flt.lit 216.0 / Flt.lit 24389.0 : FP f) = ε at *
  generalize (Flt.lit 24389.0 / Flt.lit 27.0 : FP f) = κ at *
  generalize (Flt.lit 1.0 / Flt.lit 3.0 : FP f) = τ at *
  have u9 : (f.u : ℝ) ≤ 1 / 10 ^ 7 := u1.trans (by norm_num)
  obtain ⟨e3, e4⟩ := abs_le.1 e2
  have hgt : Flt.gt r ε = decide (ε.val < r.val) := FP.lt_finite e1 hr
  rw [hgt]
  have hBu : 0 < B * f.u := by positivity
  have hBu1 : (f.u : ℝ) ≤ B * f.u := by nlinarith
  by_cases hb : ε.val < r.val
  · rw [if_pos (by simpa using hb)]
    have hbr : (ε.val : ℝ) < r.val := by exact_mod_cast hb
    have r0 : (88 / 10000 : ℝ) ≤ r.val := by norm_num at e3 u9; linarith
    have rp : (0:ℝ) < r.val := by linarith
    have hx := RelF.exact hr (by exact_mod_cast rp)
    have := hx.powf_wide hf hp t1 le_rfl (by norm_num) (by norm_num) (by norm_num) (by norm_num; linarith)
      (h2.trans (by norm_num)) (by norm_num) (by norm_num)
      (abs_log_le 7 (by norm_num; linarith) (h2.trans (by norm_num))) (N := 563 / 100) (by norm_num) (by norm_num)
    refine ⟨this.fin, ?_⟩
    obtain ⟨s0, s1⟩ := RelF.small (f := f) hf (n := 563 / 100) (by norm_num) (by norm_num)
    have ab := this.err.to_abs s0 (s1.trans (by norm_num))
    set X := (r.val : ℝ) ^ ((1:ℝ) / 3) with hX
    have X0 : 0 < X := Real.rpow_pos_of_pos rp _
    have X3 : X ^ 3 = r.val := by
      rw [hX, ← Real.rpow_natCast, ← Real.rpow_mul rp.le]; norm_num
    have hk : 563 / 100 * kap f * (1 + 563 / 100 * kap f) ≤ 564 / 100 * f.u := by
      have e : 563 / 100 * kap f * (1 + 563 / 100 * kap f) ≤ 563 / 100 * kap f * (1 + 1 / 2 ^ 13) :=
        mul_le_mul_of_nonneg_left (by linarith) s0
      refine e.trans ?_
      unfold kap
      have := mul_le_mul_of_nonneg_right (show (563 / 100 * (1 + 1 / 10 ^ 4) * (1 + 1 / 2 ^ 13) : ℝ) ≤ 564 / 100 by
        norm_num) u0.le
      linarith
    have hXs : |labF (r.val : ℝ) - X| ≤ 72 / 100 * 0 + 1 / 4 * f.u := by
      refine seam_cube (by norm_num) le_rfl (by rw [X3]; simp) ?_ (by positivity) (by linarith) ?_
      · by_contra hc
        have hc' := not_le.1 hc
        have g := mul_pos (show (0:ℝ) < 1 / 4 * f.u by positivity) (show (0:ℝ) < 36 / 841 by norm_num)
        have : X ^ 3 ≤ 216 / 24389 - 36 / 841 * (1 / 4 * f.u) := by
          have h6 : 36 / 841 * (6 / 29 - X) ≤ (6 / 29) ^ 3 - X ^ 3 := by
            have : 0 ≤ (6 / 29 - X) * (6 / 29 * X + X ^ 2) :=
              mul_nonneg (by linarith) (by positivity)
            nlinarith
          norm_num at h6 ⊢; linarith
        rw [X3] at this
        linarith
      · by_contra hc
        have := pow_lt_pow_left₀ (not_le.1 hc) (by norm_num) (show (3:ℕ) ≠ 0 by norm_num)
        rw [X3] at this
        norm_num at this
        linarith
    have hXB : X ≤ B + 1 / 4 * f.u := by
      have := (abs_le.1 hXs).1; linarith
    have h5 : X * (563 / 100 * kap f * (1 + 563 / 100 * kap f)) ≤ (B + 1 / 4 * f.u) * (564 / 100 * f.u) :=
      mul_le_mul hXB hk (by positivity) (by positivity)
    have h6 : (B + 1 / 4 * f.u) * (564 / 100 * (f.u : ℝ)) ≤ 565 / 100 * (B * f.u) := by
      have : (f.u : ℝ) * f.u ≤ 1 / 10 ^ 7 * f.u := mul_le_mul_of_nonneg_right u9 u0.le
      norm_num at this ⊢; nlinarith
    have t := abs_add_le (((Flt.powf r τ : FP f).val : ℝ) - X) (X - labF (r.val : ℝ))
    rw [sub_add_sub_cancel, abs_sub_comm X] at t
    linarith
  · rw [if_neg (by simpa using hb)]
    have hbr : (r.val : ℝ) ≤ ε.val := by exact_mod_cast not_lt.1 hb
    have r1 : (r.val : ℝ) ≤ 9 / 100 := by norm_num at e4 u9; linarith
    obtain ⟨k3, k4⟩ := abs_le.1 k2
    have kb : |(κ.val : ℝ)| ≤ 904 := by
      rw [abs_le]; norm_num at u9; constructor <;> linarith
    have hra : |(r.val : ℝ)| ≤ 9 / 100 := abs_le.2 ⟨by linarith, by linarith⟩
    have s1 : Tr 1 (κ * r) (κ.val * r.val) (814 / 10) (815 / 10) :=
      Tr.mulc hf scale_one k1 rfl (Tr.exact (M := 9 / 100) hr (by linarith)) kb
    have s2 : Tr 1 (κ * r + Flt.lit 16.0) (κ.val * r.val + 16) (974 / 10) 179 := by
      have h16 : Tr 1 (Flt.lit 16.0 : FP f) 16 16 0 :=
        ⟨lit_fin hf 16 _, by norm_num, by rw [lit_val hf 16 16.0]; norm_num⟩
      exact s1.add hf scale_one h16
    have s3 := s2.divc hf scale_one (lit_fin hf 116 116.0) (lit_val hf 116 116.0) (by norm_num)
      (P := 84 / 100) (K := 24 / 10)
    refine ⟨s3.fin, ?_⟩
    have s4 := s3.err
    push_cast at s4
    rw [mul_one] at s4
    have s5 : |(κ.val * r.val + 16) / 116 - (24389 / 27 * (r.val : ℝ) + 16) / 116| ≤ 8 / 10 * f.u := by
      have e : (κ.val * r.val + 16) / 116 - (24389 / 27 * (r.val : ℝ) + 16) / 116
          = (κ.val - 24389 / 27) * r.val / 116 := by ring
      rw [e, abs_div, abs_mul, abs_of_pos (show (0:ℝ) < 116 by norm_num), div_le_iff₀ (by norm_num)]
      have := mul_le_mul k2 hra (abs_nonneg _) (by positivity)
      linarith
    have z6 : (r.val : ℝ) - (116 * ((24389 / 27 * (r.val : ℝ) + 16) / 116) - 16) / (24389 / 27) = 0 := by ring
    have s6 : |labF (r.val : ℝ) - (24389 / 27 * (r.val : ℝ) + 16) / 116| ≤ 841 / 108 * 0 + 1 / 10 * f.u :=
      seam_line (by rw [z6]; simp) (by linarith) (by positivity)
    have t1 := abs_add_le (((κ * r + Flt.lit 16.0 : FP f) / Flt.lit 116.0 : FP f).val - (κ.val * r.val + 16) / 116 : ℝ)
      ((κ.val * r.val + 16) / 116 - (24389 / 27 * (r.val : ℝ) + 16) / 116)
    rw [sub_add_sub_cancel] at t1
    have t2 := abs_add_le (((κ * r + Flt.lit 16.0 : FP f) / Flt.lit 116.0 : FP f).val -
      (24389 / 27 * (r.val : ℝ) + 16) / 116 : ℝ) ((24389 / 27 * (r.val : ℝ) + 16) / 116 - labF (r.val : ℝ))
    rw [sub_add_sub_cancel, abs_sub_comm ((24389 / 27 * (r.val : ℝ) + 16) / 116) (labF _)] at t2
    linarith

/-- the cube in floating point -/
theorem cube_fp (hf : Std f) (hq : PowiAccurate f) {φ : FP f} (hφ : φ.isFinite = true)
    (h : |(φ.val : ℝ)| ≤ 4) : (Flt.powi φ 3).isFinite = true ∧
    |((Flt.powi φ 3).val : ℝ) - (φ.val : ℝ) ^ 3| ≤ 7 * f.u * |(φ.val : ℝ) ^ 3| + 1 / 10 ^ 6 * f.u := by
  obtain ⟨u0, u1, u2⟩ := hf.u_bounds
  obtain ⟨a, b⟩ := hq.near φ 3 hφ (by exact_mod_cast h) (by norm_num)
  refine ⟨a, b.trans ?_⟩
  have e2 : 2 ^ 10 * (f.eta : ℝ) ≤ 2 ^ 10 * (f.u / 2 ^ 124) := mul_le_mul_of_nonneg_left u2 (by positivity)
  have e3 : 2 ^ 10 * ((f.u : ℝ) / 2 ^ 124) ≤ 1 / 10 ^ 6 * f.u := by
    rw [mul_div_assoc', div_le_iff₀ (by positivity), mul_comm (1 / 10 ^ 6 : ℝ), mul_assoc, mul_comm]
    exact mul_le_mul_of_nonneg_left (by norm_num) u0.le
  linarith

/-- where the cube is taken, the result stands for the same L*a*b* coordinate -/
theorem cube_back (hf : Std f) (hq : PowiAccurate f) {φ : FP f} (hφ : φ.isFinite = true) {δ : ℝ}
    (h1 : 6 / 29 - δ ≤ (φ.val : ℝ)) (h2 : (φ.val : ℝ) ≤ 168 / 100) (hd : 0 ≤ δ) (hd1 : δ ≤ 1 / 100) :
    (Flt.powi φ 3).isFinite = true ∧
    |labF ((Flt.powi φ 3).val : ℝ) - (φ.val : ℝ)| ≤ 51 / 10 * f.u + δ := by
  obtain ⟨u0, u1, u2⟩ := hf.u_bounds
  have p0 : (19 / 100 : ℝ) ≤ φ.val := by linarith
  obtain ⟨a, b⟩ := cube_fp hf hq hφ (abs_le.2 ⟨by linarith, by linarith⟩)
  refine ⟨a, ?_⟩
  have c3 : (6 / 1000 : ℝ) ≤ (φ.val : ℝ) ^ 3 := by
    have := pow_le_pow_left₀ (by norm_num) p0 3
    norm_num at this ⊢; linarith
  have := seam_cube (c := ((Flt.powi φ 3).val : ℝ)) (φ := φ.val) (t := 701 / 100 * f.u) (δ := δ)
    (by norm_num at u1 ⊢; linarith) (by positivity) (by
      refine b.trans ?_
      rw [abs_of_pos (by linarith)]
      nlinarith) h1 hd hd1 (by linarith)
  linarith

/-- `x_r` and `z_r` of `lab_to_xyz` -/
def labGx (φ : FP f) : FP f :=
  let epsilon : FP f := Flt.lit 216.0 / Flt.lit 24389.0
  let kappa : FP f := Flt.lit 24389.0 / Flt.lit 27.0
  if Flt.gt (Flt.powi φ 3) epsilon then Flt.powi φ 3 else ((Flt.lit 116.0 * φ) - Flt.lit 16.0) / kappa

/-- a quotient by the slope -/
theorem div_kap (hf : Std f) {κ a : FP f} (k1 : κ.isFinite = true)
    (k2 : |(κ.val : ℝ) - 24389 / 27| ≤ 9034 / 10 * f.u) {X M k : ℝ} (ha : Tr 1 a X M k) (hk : 0 ≤ k)
    (hM : M ≤ 10 ^ 5) (hk2 : k ≤ 10 ^ 5) (hM0 : 0 ≤ M) :
    (a / κ).isFinite = true ∧ |((a / κ).val : ℝ) - X / (24389 / 27)| ≤ (k / 903 + M / 450 + 1 / 10 ^ 8) * f.u := by
  obtain ⟨u0, u1, u2⟩ := hf.u_bounds
  have u9 : (f.u : ℝ) ≤ 1 / 10 ^ 7 := u1.trans (by norm_num)
  obtain ⟨k3, k4⟩ := abs_le.1 k2
  have kl : (9032 / 10 : ℝ) ≤ κ.val := by norm_num at u9; linarith
  have kp : (0:ℝ) < κ.val := by linarith
  have d1 : M / κ.val ≤ M / (9032 / 10) := div_le_div_of_nonneg_left hM0 (by norm_num) kl
  have d2 : k / κ.val ≤ k / (9032 / 10) := div_le_div_of_nonneg_left hk (by norm_num) kl
  have s := ha.divc hf scale_one k1 rfl kp (P := M / (9032 / 10)) (K := rnd (k / (9032 / 10)) (M / (9032 / 10)))
    hk d1 (by rw [div_le_iff₀ (by norm_num)]; norm_num at hM ⊢; linarith)
    (d2.trans (by rw [div_le_iff₀ (by norm_num)]; norm_num at hk2 ⊢; linarith)) (by
      unfold rnd
      have := mul_le_mul_of_nonneg_right d2 (show (0:ℝ) ≤ 1 + 1 / 10 ^ 7 by norm_num)
      linarith)
  refine ⟨s.fin, ?_⟩
  have s4 := s.err
  rw [mul_one] at s4
  have hX := ha.abs
  rw [mul_one] at hX
  have s5 : |X / κ.val - X / (24389 / 27)| ≤ M / 902 * f.u := by
    have e : X / κ.val - X / (24389 / 27) = -(X * (κ.val - 24389 / 27)) / (κ.val * (24389 / 27)) := by
      field_simp; ring
    rw [e, abs_div, abs_neg, abs_mul, abs_of_pos (show (0:ℝ) < κ.val * (24389 / 27) by positivity),
      div_le_iff₀ (by positivity)]
    have a1 := mul_le_mul hX k2 (abs_nonneg _) hM0
    have a2 : M * (9034 / 10 * f.u) ≤ M / 902 * f.u * (9032 / 10 * (24389 / 27)) := by
      have := mul_nonneg hM0 u0.le
      nlinarith
    have a3 : M / 902 * f.u * (9032 / 10 * (24389 / 27)) ≤ M / 902 * f.u * (κ.val * (24389 / 27)) :=
      mul_le_mul_of_nonneg_left (mul_le_mul_of_nonneg_right kl (by norm_num)) (by positivity)
    linarith
  have t1 := abs_add_le (((a / κ).val : ℝ) - X / κ.val) (X / κ.val - X / (24389 / 27))
  rw [sub_add_sub_cancel] at t1
  have e : rnd (k / (9032 / 10)) (M / (9032 / 10)) + M / 902 ≤ k / 903 + M / 450 + 1 / 10 ^ 8 := by
    unfold rnd
    have : k / (9032 / 10) * (1 + 1 / 10 ^ 7) ≤ k / 903 := by
      rw [div_mul_eq_mul_div, div_le_div_iff₀ (by norm_num) (by norm_num)]; nlinarith
    norm_num; linarith
  have := mul_le_mul_of_nonneg_right e u0.le
  linarith

/-- the result of the inverse companding stands for the same L*a*b* coordinate -/
theorem labGx_back (hf : Std f) (hq : PowiAccurate f) {φ : FP f} (hφ : φ.isFinite = true)
    (h1 : -(52 / 100) ≤ (φ.val : ℝ)) (h2 : (φ.val : ℝ) ≤ 168 / 100) :
    (labGx φ).isFinite = true ∧ |labF ((labGx φ).val : ℝ) - φ.val| ≤ 7 * f.u := by
  obtain ⟨u0, u1, u2⟩ := hf.u_bounds
  obtain ⟨e1, e2⟩ := eps_fp hf
  obtain ⟨k1, k2⟩ := kap_fp hf
  unfold labGx
  dsimp only
  generalize (Flt.lit 216.0 / Flt.lit 24389.0 : FP f) = ε at *
  generalize (Flt.lit 24389.0 / Flt.lit 27.0 : FP f) = κ at *
  have u9 : (f.u : ℝ) ≤ 1 / 10 ^ 7 := u1.trans (by norm_num)
  obtain ⟨e3, e4⟩ := abs_le.1 e2
  obtain ⟨c1, c2⟩ := cube_fp hf hq hφ (abs_le.2 ⟨by linarith, by linarith⟩)
  have hgt : Flt.gt (Flt.powi φ 3) ε = decide (ε.val < (Flt.powi φ 3).val) := FP.lt_finite e1 c1
  rw [hgt]
  by_cases hb : ε.val < (Flt.powi φ 3).val
  · rw [if_pos (by simpa using hb)]
    have hbr : (ε.val : ℝ) < (Flt.powi φ 3).val := by exact_mod_cast hb
    obtain ⟨a, b⟩ := cube_back hf hq hφ (δ := 17 / 10 * f.u) (by
      by_contra hc
      have hc' := not_le.1 hc
      have hle : (φ.val : ℝ) ≤ 6 / 29 := by linarith
      have c3 := (cube_le_iff _).2 hle
      have p0 : (0:ℝ) < (φ.val : ℝ) ^ 3 := by
        by_contra hn
        have hn' := not_lt.1 hn
        have c4 := (abs_le.1 c2).2
        rw [abs_of_nonpos hn'] at c4
        have : (0:ℝ) ≤ (1 - 7 * f.u) * -(φ.val : ℝ) ^ 3 :=
          mul_nonneg (by norm_num at u9; linarith) (by linarith)
        norm_num at u9
        nlinarith
      have pp : (0:ℝ) < φ.val := by
        by_contra hn
        have := Odd.pow_nonpos (n := 3) (by decide) (not_lt.1 hn)
        linarith
      rw [abs_of_pos p0] at c2
      have c4 := (abs_le.1 c2).2
      have c5 : 7 * (f.u : ℝ) * (φ.val : ℝ) ^ 3 ≤ 7 * f.u * (216 / 24389) :=
        mul_le_mul_of_nonneg_left c3 (by positivity)
      have c6 : 36 / 841 * (6 / 29 - (φ.val : ℝ)) ≤ (6 / 29) ^ 3 - (φ.val : ℝ) ^ 3 := by
        have : 0 ≤ (6 / 29 - (φ.val : ℝ)) * (6 / 29 * φ.val + (φ.val : ℝ) ^ 2) :=
          mul_nonneg (by linarith) (by positivity)
        nlinarith
      norm_num at c6
      linarith) h2 (by positivity) (by norm_num at u9; linarith)
    exact ⟨a, by linarith⟩
  · rw [if_neg (by simpa using hb)]
    have hbr : ((Flt.powi φ 3).val : ℝ) ≤ ε.val := by exact_mod_cast not_lt.1 hb
    have hup : (φ.val : ℝ) ≤ 6 / 29 + 6 / 10 * f.u := by
      by_contra hc
      have hc' := not_le.1 hc
      have h6 : (6 / 29 : ℝ) ≤ φ.val := by linarith
      have g := cube_ge (φ := 6 / 29) (by norm_num) h6
      have p0 : (0:ℝ) < (φ.val : ℝ) ^ 3 := by have : (0:ℝ) < φ.val := by linarith
                                              positivity
      rw [abs_of_pos p0] at c2
      have c4 := (abs_le.1 c2).1
      norm_num at g
      have c5 : (φ.val : ℝ) ^ 3 ≤ 89 / 10000 := by
        have : 7 * (f.u : ℝ) * (φ.val : ℝ) ^ 3 ≤ 7 * (1 / 10 ^ 7) * (φ.val : ℝ) ^ 3 :=
          mul_le_mul_of_nonneg_right (by linarith) p0.le
        norm_num at this u9; linarith
      have c6 : 7 * (f.u : ℝ) * (φ.val : ℝ) ^ 3 ≤ 7 * f.u * (89 / 10000) :=
        mul_le_mul_of_nonneg_left c5 (by positivity)
      linarith
    have hφa : |(φ.val : ℝ)| ≤ 52 / 100 := abs_le.2 ⟨by linarith, by norm_num at u9; linarith⟩
    have s1 : Tr 1 (Flt.lit 116.0 * φ) (116 * φ.val) (604 / 10) (605 / 10) :=
      Tr.mulc hf scale_one (lit_fin hf 116 116.0) (by rw [lit_val hf 116 116.0]; norm_num)
        (Tr.exact (M := 52 / 100) hφ (by linarith)) (B := 116) (by norm_num)
    have s2 : Tr 1 (Flt.lit 116.0 * φ - Flt.lit 16.0) (116 * φ.val - 16) (764 / 10) 137 := by
      have h16 : Tr 1 (Flt.lit 16.0 : FP f) 16 16 0 :=
        ⟨lit_fin hf 16 _, by norm_num, by rw [lit_val hf 16 16.0]; norm_num⟩
      exact s1.sub hf scale_one h16
    obtain ⟨a, b⟩ := div_kap hf k1 k2 s2 (by norm_num) (by norm_num) (by norm_num) (by norm_num)
    refine ⟨a, ?_⟩
    have := seam_line b hup (by positivity)
    norm_num at this ⊢
    linarith

/-- `y_r` of `lab_to_xyz` -/
def labGy (L : FP f) : FP f :=
  let epsilon : FP f := Flt.lit 216.0 / Flt.lit 24389.0
  let kappa : FP f := Flt.lit 24389.0 / Flt.lit 27.0
  if Flt.gt L (kappa * epsilon) then Flt.powi ((L + Flt.lit 16.0) / Flt.lit 116.0) 3 else L / kappa

/-- `f_y` of `lab_to_xyz` -/
theorem fy_tr (hf : Std f) {L : FP f} (hL : L.isFinite = true) (h1 : -10 ≤ (L.val : ℝ)) (h2 : (L.val : ℝ) ≤ 125) :
    Tr 1 ((L + Flt.lit 16.0) / Flt.lit 116.0) (((L.val : ℝ) + 16) / 116) (1216 / 1000) (244 / 100) := by
  have h16 : Tr 1 (Flt.lit 16.0 : FP f) 16 16 0 :=
    ⟨lit_fin hf 16 _, by norm_num, by rw [lit_val hf 16 16.0]; norm_num⟩
  have s1 : Tr 1 (L + Flt.lit 16.0) ((L.val : ℝ) + 16) 141 (1411 / 10) :=
    (Tr.exact (M := 125) hL (by rw [abs_le]; constructor <;> linarith)).add hf scale_one h16
  exact s1.divc hf scale_one (lit_fin hf 116 116.0) (by rw [lit_val hf 116 116.0]; norm_num) (by norm_num)

theorem labGy_back (hf : Std f) (hq : PowiAccurate f) {L : FP f} (hL : L.isFinite = true)
    (h1 : -10 ≤ (L.val : ℝ)) (h2 : (L.val : ℝ) ≤ 125) :
    (labGy L).isFinite = true ∧ |labF ((labGy L).val : ℝ) - ((L.val : ℝ) + 16) / 116| ≤ 11 * f.u := by
  obtain ⟨u0, u1, u2⟩ := hf.u_bounds
  obtain ⟨e1, e2⟩ := eps_fp hf
  obtain ⟨k1, k2⟩ := kap_fp hf
  have fy := fy_tr hf hL h1 h2
  unfold labGy
  dsimp only
  generalize (Flt.lit 216.0 / Flt.lit 24389.0 : FP f) = ε at *
  generalize (Flt.lit 24389.0 / Flt.lit 27.0 : FP f) = κ at *
  generalize ((L + Flt.lit 16.0) / Flt.lit 116.0 : FP f) = φ at *
  have u9 : (f.u : ℝ) ≤ 1 / 10 ^ 7 := u1.trans (by norm_num)
  obtain ⟨e3, e4⟩ := abs_le.1 e2
  obtain ⟨k3, k4⟩ := abs_le.1 k2
  have kb : |(κ.val : ℝ)| ≤ 904 := by
    rw [abs_le]; norm_num at u9; constructor <;> linarith
  have m1 : Tr 1 (κ * ε) (κ.val * (216 / 24389)) (801 / 100) (162 / 10) :=
    Tr.mulc hf scale_one k1 rfl (⟨e1, by norm_num, by rw [mul_one]; exact e2⟩ :
      Tr 1 ε (216 / 24389) (8857 / 10 ^ 6) (9 / 1000)) kb
  have m2 : |((κ * ε).val : ℝ) - 8| ≤ 25 * f.u := by
    have := m1.err
    rw [mul_one] at this
    have t := abs_add_le (((κ * ε).val : ℝ) - κ.val * (216 / 24389)) (κ.val * (216 / 24389) - 8)
    rw [sub_add_sub_cancel] at t
    have e : (κ.val : ℝ) * (216 / 24389) - 8 = (κ.val - 24389 / 27) * (216 / 24389) := by ring
    rw [e, abs_mul, abs_of_pos (show (0:ℝ) < 216 / 24389 by norm_num)] at t
    linarith
  obtain ⟨m3, m4⟩ := abs_le.1 m2
  have fe := fy.err
  rw [mul_one] at fe
  obtain ⟨f1, f2⟩ := abs_le.1 fe
  have hgt : Flt.gt L (κ * ε) = decide ((κ * ε).val < L.val) := FP.lt_finite m1.fin hL
  rw [hgt]
  by_cases hb : (κ * ε).val < L.val
  · rw [if_pos (by simpa using hb)]
    have hbr : ((κ * ε).val : ℝ) < L.val := by exact_mod_cast hb
    obtain ⟨a, b⟩ := cube_back hf hq fy.fin (δ := 27 / 10 * f.u) (by linarith)
      (by norm_num at u9; linarith) (by positivity) (by norm_num at u9; linarith)
    refine ⟨a, ?_⟩
    have t := abs_add_le (labF ((Flt.powi φ 3).val : ℝ) - φ.val) (φ.val - ((L.val : ℝ) + 16) / 116)
    rw [sub_add_sub_cancel] at t
    linarith
  · rw [if_neg (by simpa using hb)]
    have hbr : (L.val : ℝ) ≤ (κ * ε).val := by exact_mod_cast not_lt.1 hb
    obtain ⟨a, b⟩ := div_kap hf k1 k2 (Tr.exact (M := 10) hL (by
      rw [abs_le]; norm_num at u9; constructor <;> linarith)) (by norm_num) (by norm_num) (by norm_num) (by norm_num)
    refine ⟨a, ?_⟩
    have z6 : 116 * (((L.val : ℝ) + 16) / 116) - 16 = (L.val : ℝ) := by ring
    rw [← z6] at b
    have := seam_line (φ := ((L.val : ℝ) + 16) / 116) (δ := 3 / 10 * f.u) b (by linarith) (by positivity)
    norm_num at this ⊢
    linarith

end
end CS

import Verif.Lemmas.FPDeltaE2

/-!
# The weights of `delta_E_2000` in floating point
-/

namespace CS
variable {f : Fmt} [Libm f]

section
variable (hf : Std f) (hm : Spec.MathAccurate f)
include hf hm

/-- an angle in degrees, in radians -/
theorem rad_near {x : FP f} {X k M : ℝ} (hx : Nr x X k) (hk : k ≤ 2 ^ 20) (hX : |X| ≤ M) (hM1 : 1 ≤ M) (hM : M ≤ 2000) :
    (Flt.toRad x).isFinite = true ∧ |((Flt.toRad x : FP f).val : ℝ) - X * (Real.pi / 180)| ≤ (0.0176 * k + 0.071 * M) * f.u ∧
    |(Flt.toRad x : FP f).val| ≤ 64 := by
  obtain ⟨u0, u1, e1, e0⟩ := u_facts hf
  have k0 := hx.nonneg
  have p1 := Real.pi_gt_d2
  have p2 := Real.pi_lt_d2
  set d := Real.pi / 180 with hd
  have d0 : 0 < d := by rw [hd]; positivity
  have d1 : d ≤ 0.0175 := by rw [hd, div_le_iff₀ (by norm_num)]; norm_num at p2 ⊢; linarith
  clear_value d
  have M0 : 0 ≤ M := (abs_nonneg _).trans hX
  have xb : |(x.val : ℝ)| ≤ M + k * f.u := by
    have := abs_add_le ((x.val : ℝ) - X) X
    rw [sub_add_cancel] at this
    linarith [hx.err]
  have ku : k * f.u ≤ 1 / 16 := by
    calc k * f.u ≤ 2 ^ 20 * (1 / 2 ^ 24) := mul_le_mul hk u1 u0.le (by norm_num)
      _ ≤ _ := by norm_num
  have xq : |x.val| ≤ 2 ^ 12 := by
    have : ((|x.val| : ℚ) : ℝ) ≤ ((2 ^ 12 : ℚ) : ℝ) := by push_cast; norm_num; linarith
    exact_mod_cast this
  obtain ⟨tf, te⟩ := hm.toRad x hx.fin xq
  generalize (Flt.toRad x : FP f) = t at *
  rw [← hd, abs_mul, abs_of_pos d0] at te
  have a1 : |(x.val : ℝ)| * d ≤ (M + k * f.u) * 0.0175 := mul_le_mul xb d1 d0.le (by positivity)
  have a2 : |(x.val : ℝ) * d - X * d| ≤ k * f.u * 0.0175 := by
    rw [← sub_mul, abs_mul, abs_of_pos d0]; exact mul_le_mul hx.err d1 d0.le (by positivity)
  have a3 := mul_le_mul_of_nonneg_left a1 (by linarith : (0:ℝ) ≤ 4 * f.u)
  have a4 : f.u * (k * f.u) ≤ 1 / 2 ^ 24 * (k * f.u) := mul_le_mul_of_nonneg_right u1 (by positivity)
  have a5 := abs_sub_le (t.val : ℝ) (x.val * d) (X * d)
  have ku0 : 0 ≤ k * f.u := by positivity
  have Mu0 : 0 ≤ M * f.u := by positivity
  have key : |(t.val : ℝ) - X * d| ≤ (0.0175 * k + 0.0701 * M) * f.u + 1 / 10000 * (k * f.u) + f.eta := by
    norm_num at a4
    nlinarith
  refine ⟨tf, ?_, ?_⟩
  · have : (f.eta : ℝ) ≤ 1 / 10 ^ 8 * f.u := by norm_num at e1 ⊢; linarith
    have : 1 * f.u ≤ M * f.u := mul_le_mul_of_nonneg_right hM1 u0.le
    nlinarith
  · have h1 := abs_add_le ((t.val : ℝ) - X * d) (X * d)
    rw [sub_add_cancel, abs_mul X, abs_of_pos d0] at h1
    have h2 : |X| * d ≤ 2000 * 0.0175 := mul_le_mul (hX.trans hM) d1 d0.le (by norm_num)
    have h3 : M * f.u ≤ 2000 * (1 / 2 ^ 24) := mul_le_mul hM u1 u0.le (by norm_num)
    have : ((|t.val| : ℚ) : ℝ) ≤ ((64 : ℚ) : ℝ) := by
      push_cast
      norm_num at h3 e1 u1 ⊢
      nlinarith
    exact_mod_cast this

theorem cosd_near {x : FP f} {X k M : ℝ} (hx : Nr x X k) (hk : k ≤ 2 ^ 20) (hX : |X| ≤ M) (hM1 : 1 ≤ M) (hM : M ≤ 2000) :
    Nr (Flt.cos (Flt.toRad x)) (Real.cos (Flt.toRad X)) (0.0176 * k + 0.071 * M + 4) := by
  obtain ⟨t1, t2, t3⟩ := rad_near hf hm hx hk hX hM1 hM
  obtain ⟨c1, c2⟩ := hm.cos _ t1 t3
  refine ⟨c1, ?_⟩
  have a := cos_near ((Flt.toRad x : FP f).val : ℝ) (X * (Real.pi / 180))
  have b := abs_sub_le ((Flt.cos (Flt.toRad x) : FP f).val : ℝ) (Real.cos ((Flt.toRad x : FP f).val : ℝ)) (Real.cos (X * (Real.pi / 180)))
  show |((Flt.cos (Flt.toRad x) : FP f).val : ℝ) - Real.cos (X * (Real.pi / 180))| ≤ _
  linarith

theorem sind_near {x : FP f} {X k M : ℝ} (hx : Nr x X k) (hk : k ≤ 2 ^ 20) (hX : |X| ≤ M) (hM1 : 1 ≤ M) (hM : M ≤ 2000) :
    Nr (Flt.sin (Flt.toRad x)) (Real.sin (Flt.toRad X)) (0.0176 * k + 0.071 * M + 4) := by
  obtain ⟨t1, t2, t3⟩ := rad_near hf hm hx hk hX hM1 hM
  obtain ⟨c1, c2⟩ := hm.sin _ t1 t3
  refine ⟨c1, ?_⟩
  have a := sin_near ((Flt.toRad x : FP f).val : ℝ) (X * (Real.pi / 180))
  have b := abs_sub_le ((Flt.sin (Flt.toRad x) : FP f).val : ℝ) (Real.sin ((Flt.toRad x : FP f).val : ℝ)) (Real.sin (X * (Real.pi / 180)))
  show |((Flt.sin (Flt.toRad x) : FP f).val : ℝ) - Real.sin (X * (Real.pi / 180))| ≤ _
  linarith

theorem T_near {h : FP f} {H : ℝ} (hh : Nr h H 5600) (H0 : 0 ≤ H) (H1 : H ≤ 360) :
    Nr (ciedeT h) (ciedeT H : ℝ) 340 ∧ 0.07 ≤ (ciedeT H : ℝ) ∧ (ciedeT H : ℝ) ≤ 1.93 := by
  have l1 : Nr (Flt.lit 1.0 : FP f) 1 0 := (Nr.whole hf 1.0 (by short)).congr (by norm_num)
  have l2 : Nr (Flt.lit 2.0 : FP f) 2 0 := (Nr.whole hf 2.0 (by short)).congr (by norm_num)
  have l3 : Nr (Flt.lit 3.0 : FP f) 3 0 := (Nr.whole hf 3.0 (by short)).congr (by norm_num)
  have l4 : Nr (Flt.lit 4.0 : FP f) 4 0 := (Nr.whole hf 4.0 (by short)).congr (by norm_num)
  have l30 : Nr (Flt.lit 30.0 : FP f) 30 0 := (Nr.whole hf 30.0 (by short)).congr (by norm_num)
  have l6 : Nr (Flt.lit 6.0 : FP f) 6 0 := (Nr.whole hf 6.0 (by short)).congr (by norm_num)
  have l63 : Nr (Flt.lit 63.0 : FP f) 63 0 := (Nr.whole hf 63.0 (by short)).congr (by norm_num)
  have lit : ∀ {q : ℚ}, 1 / 2 ^ 20 ≤ q → q ≤ 2 ^ 20 → Nr (Flt.lit q : FP f) (q : ℝ) (1.001 * q) := fun h1 h2 => Nr.lit hf h1 h2
  have c17 : Nr (Flt.lit 0.17 : FP f) 0.17 0.171 := ((lit (q := 0.17) (by norm_num) (by norm_num)).mono (by norm_num)).congr (by norm_num)
  have c24 : Nr (Flt.lit 0.24 : FP f) 0.24 0.241 := ((lit (q := 0.24) (by norm_num) (by norm_num)).mono (by norm_num)).congr (by norm_num)
  have c32 : Nr (Flt.lit 0.32 : FP f) 0.32 0.321 := ((lit (q := 0.32) (by norm_num) (by norm_num)).mono (by norm_num)).congr (by norm_num)
  have c20 : Nr (Flt.lit 0.20 : FP f) 0.20 0.201 := ((lit (q := 0.20) (by norm_num) (by norm_num)).mono (by norm_num)).congr (by norm_num)
  have e : (ciedeT H : ℝ) = 1 - 0.17 * Real.cos (Flt.toRad (H - 30)) + 0.24 * Real.cos (Flt.toRad (2 * H))
      + 0.32 * Real.cos (Flt.toRad (3 * H + 6)) - 0.20 * Real.cos (Flt.toRad (4 * H - 63)) := by
    simp only [ciedeT, flt_lit, flt_cos]
    norm_num only [Rat.cast_ofNat, Rat.cast_div, Rat.cast_one]
  have a1 := cosd_near hf hm (M := 330) (Nr.sub₂ hf hh l30 (B := 330) (K := 5931) (abs_le.2 ⟨by linarith, by linarith⟩) (by norm_num) (by norm_num) (by norm_num))
    (by norm_num) (abs_le.2 ⟨by linarith, by linarith⟩) (by norm_num) (by norm_num)
  have a2 := cosd_near hf hm (M := 720) (Nr.mul₂ hf l2 hh (A := 2) (B := 360) (P := 720) (K := 11923) (by norm_num) (abs_le.2 ⟨by linarith, by linarith⟩)
    (abs_le.2 ⟨by linarith, by linarith⟩) (by norm_num) (by norm_num) (by norm_num))
    (by norm_num) (abs_le.2 ⟨by linarith, by linarith⟩) (by norm_num) (by norm_num)
  have m3 := Nr.mul₂ hf l3 hh (A := 3) (B := 360) (P := 1080) (K := 17883) (by norm_num) (abs_le.2 ⟨by linarith, by linarith⟩)
    (abs_le.2 ⟨by linarith, by linarith⟩) (by norm_num) (by norm_num) (by norm_num)
  have a3 := cosd_near hf hm (M := 1086) (Nr.add₂ hf m3 l6 (B := 1086) (K := 18972) (abs_le.2 ⟨by linarith, by linarith⟩) (by norm_num) (by norm_num) (by norm_num))
    (by norm_num) (abs_le.2 ⟨by linarith, by linarith⟩) (by norm_num) (by norm_num)
  have m4 := Nr.mul₂ hf l4 hh (A := 4) (B := 360) (P := 1440) (K := 23844) (by norm_num) (abs_le.2 ⟨by linarith, by linarith⟩)
    (abs_le.2 ⟨by linarith, by linarith⟩) (by norm_num) (by norm_num) (by norm_num)
  have a4 := cosd_near hf hm (M := 1377) (Nr.sub₂ hf m4 l63 (B := 1377) (K := 25225) (abs_le.2 ⟨by linarith, by linarith⟩) (by norm_num) (by norm_num) (by norm_num))
    (by norm_num) (abs_le.2 ⟨by linarith, by linarith⟩) (by norm_num) (by norm_num)
  rw [e]
  unfold ciedeT
  have q1 := Real.abs_cos_le_one (Flt.toRad (H - 30))
  have q2 := Real.abs_cos_le_one (Flt.toRad (2 * H))
  have q3 := Real.abs_cos_le_one (Flt.toRad (3 * H + 6))
  have q4 := Real.abs_cos_le_one (Flt.toRad (4 * H - 63))
  generalize Real.cos (Flt.toRad (H - 30)) = y1 at *
  generalize Real.cos (Flt.toRad (2 * H)) = y2 at *
  generalize Real.cos (Flt.toRad (3 * H + 6)) = y3 at *
  generalize Real.cos (Flt.toRad (4 * H - 63)) = y4 at *
  obtain ⟨q1a, q1b⟩ := abs_le.1 q1
  obtain ⟨q2a, q2b⟩ := abs_le.1 q2
  obtain ⟨q3a, q3b⟩ := abs_le.1 q3
  obtain ⟨q4a, q4b⟩ := abs_le.1 q4
  have b1 := Nr.mul₂ hf c17 a1 (A := 0.17) (B := 1) (P := 0.17) (K := 23) (by norm_num) q1 (abs_le.2 ⟨by linarith, by linarith⟩) (by norm_num) (by norm_num) (by norm_num)
  have b2 := Nr.mul₂ hf c24 a2 (A := 0.24) (B := 1) (P := 0.24) (K := 64.5) (by norm_num) q2 (abs_le.2 ⟨by linarith, by linarith⟩) (by norm_num) (by norm_num) (by norm_num)
  have b3 := Nr.mul₂ hf c32 a3 (A := 0.32) (B := 1) (P := 0.32) (K := 134) (by norm_num) q3 (abs_le.2 ⟨by linarith, by linarith⟩) (by norm_num) (by norm_num) (by norm_num)
  have b4 := Nr.mul₂ hf c20 a4 (A := 0.20) (B := 1) (P := 0.20) (K := 110) (by norm_num) q4 (abs_le.2 ⟨by linarith, by linarith⟩) (by norm_num) (by norm_num) (by norm_num)
  have s1 := Nr.sub₂ hf l1 b1 (B := 1.17) (K := 24.5) (abs_le.2 ⟨by linarith, by linarith⟩) (by norm_num) (by norm_num) (by norm_num)
  have s2 := Nr.add₂ hf s1 b2 (B := 1.41) (K := 90.6) (abs_le.2 ⟨by linarith, by linarith⟩) (by norm_num) (by norm_num) (by norm_num)
  have s3 := Nr.add₂ hf s2 b3 (B := 1.73) (K := 226.5) (abs_le.2 ⟨by linarith, by linarith⟩) (by norm_num) (by norm_num) (by norm_num)
  have s4 := Nr.sub₂ hf s3 b4 (B := 1.93) (K := 340) (abs_le.2 ⟨by linarith, by linarith⟩) (by norm_num) (by norm_num) (by norm_num)
  exact ⟨s4, by linarith, by linarith⟩

omit [Libm f] hm in
/-- a relative agreement is an absolute one -/
theorem Rz.nr {k M : ℝ} {a : FP f} {X : ℝ} (h : Rz k a X) (k0 : 0 ≤ k) (hX : X ≤ M) : Nr a X (k * M) := by
  obtain ⟨u0, u1, e1, e0⟩ := u_facts hf
  refine ⟨h.fin, h.err.trans ?_⟩
  rw [mul_assoc, mul_assoc, mul_comm M]
  exact mul_le_mul_of_nonneg_left (mul_le_mul_of_nonneg_left hX u0.le) k0

theorem SH_near {c h : FP f} {C H : ℝ} (hc : Rz 86.3 c C) (hC : C ≤ 232) (hh : Nr h H 5600) (H0 : 0 ≤ H) (H1 : H ≤ 360) :
    Nr (ciedeSH c h) (ciedeSH C H : ℝ) 1800 ∧ 1 ≤ (ciedeSH C H : ℝ) := by
  obtain ⟨t, t1, t2⟩ := T_near hf hm hh H0 H1
  have e : (ciedeSH C H : ℝ) = 1 + 0.015 * C * ciedeT H := by
    simp only [ciedeSH, flt_lit]
    norm_num only [Rat.cast_ofNat, Rat.cast_div, Rat.cast_one]
  have C0 := hc.pos
  have l1 : Nr (Flt.lit 1.0 : FP f) 1 0 := (Nr.whole hf 1.0 (by short)).congr (by norm_num)
  have c15 : Nr (Flt.lit 0.015 : FP f) 0.015 0.0151 := ((Nr.lit hf (q := 0.015) (by norm_num) (by norm_num)).mono (by norm_num)).congr (by norm_num)
  rw [e]
  unfold ciedeSH
  generalize (ciedeT H : ℝ) = τ at *
  have m := Nr.mul₂ hf c15 (hc.nr hf (by norm_num) hC) (A := 0.015) (B := 232) (P := 3.48) (K := 308) (by norm_num)
    (abs_le.2 ⟨by linarith, by linarith⟩) (abs_le.2 ⟨by linarith, by linarith⟩) (by norm_num) (by norm_num) (by norm_num)
  have x0 : 0 ≤ 0.015 * C * τ := by have := mul_nonneg C0 (by linarith : 0 ≤ τ); linarith
  have x1 : 0.015 * C * τ ≤ 6.72 := by
    have := mul_le_mul (by linarith : 0.015 * C ≤ 3.48) t2 (by linarith) (by norm_num)
    norm_num at this ⊢
    linarith
  have n := Nr.mul₂ hf m t (A := 3.48) (B := 1.93) (P := 6.72) (K := 1785) (abs_le.2 ⟨by linarith, by linarith⟩)
    (abs_le.2 ⟨by linarith, by linarith⟩) (abs_le.2 ⟨by linarith, by linarith⟩) (by norm_num) (by norm_num) (by norm_num)
  have s := Nr.add₂ hf l1 n (B := 7.72) (K := 1800) (abs_le.2 ⟨by linarith, by linarith⟩) (by norm_num) (by norm_num) (by norm_num)
  exact ⟨s, by linarith⟩

omit [Libm f] hf hm in
/-- twice the rotation angle is at most 60 degrees -/
theorem turn_abs {E : ℝ} (E0 : 0 ≤ E) (E1 : E ≤ 1) : |-Real.sin (Flt.toRad (2 * (30 * E)))| ≤ 0.8661 := by
  have ang : (Flt.toRad (2 * (30 * E)) : ℝ) = Real.pi / 3 * E := by
    show 2 * (30 * E) * (Real.pi / 180) = _
    ring
  rw [abs_neg, ang]
  have hp := Real.pi_pos
  have a0 : 0 ≤ Real.pi / 3 * E := by positivity
  have a1 : Real.pi / 3 * E ≤ Real.pi / 3 := mul_le_of_le_one_right (by positivity) E1
  have n0 : 0 ≤ Real.sin (Real.pi / 3 * E) := Real.sin_nonneg_of_nonneg_of_le_pi a0 (by linarith)
  rw [abs_of_nonneg n0]
  have mono := Real.sin_le_sin_of_le_of_le_pi_div_two (x := Real.pi / 3 * E) (y := Real.pi / 3) (by linarith) (by linarith) a1
  rw [Real.sin_pi_div_three] at mono
  have : Real.sqrt 3 ≤ 1.7322 := by rw [Real.sqrt_le_left (by norm_num)]; norm_num
  linarith

omit [Libm f] hf hm in
theorem ciedeRT_form (C H : ℝ) : (ciedeRT C H : ℝ) = -Real.sin (Flt.toRad (2 * (30 * Real.exp (-((H - 275) / 25 * ((H - 275) / 25)))))) *
      (2 * Real.sqrt (C ^ 7 / (C ^ 7 + 25 ^ 7))) := by
  simp only [ciedeRT, flt_lit, flt_powi, flt_sqrt, flt_sin, flt_exp, sqr]
  norm_num only [Rat.cast_ofNat, Rat.cast_div, Rat.cast_one]

omit [Libm f] hf hm in
/-- the rotation term stays clear of 2 -/
theorem RT_abs {C : ℝ} (C0 : 0 ≤ C) (H : ℝ) : |(ciedeRT C H : ℝ)| ≤ 1.7322 := by
  have s0 := Real.sqrt_nonneg (C ^ 7 / (C ^ 7 + 25 ^ 7))
  have s1 : Real.sqrt (C ^ 7 / (C ^ 7 + 25 ^ 7)) ≤ 1 := by
    rw [Real.sqrt_le_one, div_le_one (by positivity)]
    linarith [pow_nonneg C0 7]
  rw [ciedeRT_form, abs_mul]
  have e1 : Real.exp (-((H - 275) / 25 * ((H - 275) / 25))) ≤ 1 := Real.exp_le_one_iff.2 (by nlinarith [mul_self_nonneg ((H - 275) / 25)])
  exact (mul_le_mul (turn_abs (Real.exp_pos _).le e1) (abs_le.2 ⟨by linarith, by linarith⟩ : |2 * Real.sqrt (C ^ 7 / (C ^ 7 + 25 ^ 7))| ≤ 2)
    (abs_nonneg _) (by norm_num)).trans (by norm_num)

/-- the rotation term -/
theorem RT_near (he : f.eta ≤ f.u ^ 2 / 2 ^ 30) {c h : FP f} {C H : ℝ} (hc : Rz 86.3 c C) (hC : C ≤ 232)
    (hh : Nr h H 5600) (H0 : 0 ≤ H) (H1 : H ≤ 360) : Nr (ciedeRT c h) (ciedeRT C H : ℝ) 14600 := by
  obtain ⟨u0, u1, e1, e0⟩ := u_facts hf
  have C0 := hc.pos
  have hr := seventh_ratio_near hf hm he (by norm_num) (by norm_num) hc (hC.trans (by norm_num))
  have s0 := Real.sqrt_nonneg (C ^ 7 / (C ^ 7 + 25 ^ 7))
  have s1 : Real.sqrt (C ^ 7 / (C ^ 7 + 25 ^ 7)) ≤ 1 := by
    rw [Real.sqrt_le_one, div_le_one (by positivity)]
    linarith [pow_nonneg C0 7]
  have l2 : Nr (Flt.lit 2.0 : FP f) 2 0 := (Nr.whole hf 2.0 (by short)).congr (by norm_num)
  have l30 : Nr (Flt.lit 30.0 : FP f) 30 0 := (Nr.whole hf 30.0 (by short)).congr (by norm_num)
  have l25 : Nr (Flt.lit 25.0 : FP f) 25 0 := (Nr.whole hf 25.0 (by short)).congr (by norm_num)
  have l275 : Nr (Flt.lit 275.0 : FP f) 275 0 := (Nr.whole hf 275.0 (by short)).congr (by norm_num)
  have d1 := Nr.sub₂ hf hh l275 (B := 275) (K := 5876) (abs_le.2 ⟨by linarith, by linarith⟩) (by norm_num) (by norm_num) (by norm_num)
  have zb : |(H - 275) / 25| ≤ 11 := abs_le.2 ⟨by linarith, by linarith⟩
  have d2 := Nr.div₂ hf d1 l25 (b0 := 25) (Q := 11) (K := 249) (by norm_num) le_rfl zb (by norm_num) (by norm_num) (by norm_num) (by norm_num)
  rw [ciedeRT_form]
  unfold ciedeRT
  dsimp only
  generalize (H - 275) / 25 = Z at *
  generalize ((h - Flt.lit 275.0) / Flt.lit 25.0 : FP f) = z at *
  have zz : |Z * Z| ≤ 121 := by
    rw [abs_mul]; exact (mul_le_mul zb zb (abs_nonneg _) (by norm_num)).trans (by norm_num)
  have d3 := Nr.mul₂ hf d2 d2 (A := 11) (B := 11) (P := 121) (K := 5600) zb zb zz (by norm_num) (by norm_num) (by norm_num)
  have sq0 : 0 ≤ (z * z).val ∧ (z * z).val ≤ 2 ^ 11 := by
    have zv : |(z.val : ℝ)| ≤ 12 := by
      have h1 := abs_add_le ((z.val : ℝ) - Z) Z
      rw [sub_add_cancel] at h1
      have h2 := d2.err
      norm_num at u1
      linarith
    have zv' : |(z.val : ℝ) * z.val| ≤ 144 := by
      rw [abs_mul]; exact (mul_le_mul zv zv (abs_nonneg _) (by norm_num)).trans (by norm_num)
    obtain ⟨-, ev⟩ := FP.mul_finite' d2.fin d2.fin (roundQ_lt (Nr.small_abs hf (q := z.val * z.val) (by push_cast; exact zv'.trans (by norm_num))))
    constructor
    · rw [ev]; exact roundQ_nonneg f (mul_self_nonneg _)
    · have h1 := (abs_le.1 d3.err).2
      have h2 := (abs_le.1 zz).2
      have : ((z * z).val : ℝ) ≤ ((2 ^ 11 : ℚ) : ℝ) := by push_cast; norm_num at u1 ⊢; linarith
      exact_mod_cast this
  have d4 := d3.neg
  have nv : (-(z * z)).val = -(z * z).val := (FP.neg_finite d3.fin).2
  obtain ⟨x0, x1, x2⟩ := hm.exp (-(z * z)) d4.fin (by rw [nv]; linarith [sq0.2]) (by rw [nv]; linarith [sq0.1])
  have d5 : Nr (Flt.exp (-(z * z))) (Real.exp (-(Z * Z))) 5604 := by
    refine ⟨x1, ?_⟩
    have h1 := exp_near (x := ((-(z * z)).val : ℝ)) (y := -(Z * Z)) (by rw [nv]; push_cast; have := sq0.1; have : (0:ℝ) ≤ (z * z).val := by exact_mod_cast this
                                                                        linarith) (by nlinarith [mul_self_nonneg Z])
    have h2 := d4.err
    have h3 := abs_sub_le ((Flt.exp (-(z * z)) : FP f).val : ℝ) (Real.exp ((-(z * z)).val : ℝ)) (Real.exp (-(Z * Z)))
    linarith
  have ep := Real.exp_pos (-(Z * Z))
  have e1' : Real.exp (-(Z * Z)) ≤ 1 := Real.exp_le_one_iff.2 (by nlinarith [mul_self_nonneg Z])
  unfold sqr
  generalize Real.exp (-(Z * Z)) = E at *
  generalize (Flt.exp (-(z * z)) : FP f) = ε at *
  have d6 := Nr.mul₂ hf l30 d5 (A := 30) (B := 1) (P := 30) (K := 168170) (by norm_num) (abs_le.2 ⟨by linarith, by linarith⟩)
    (abs_le.2 ⟨by linarith, by linarith⟩) (by norm_num) (by norm_num) (by norm_num)
  have d7 := Nr.mul₂ hf l2 d6 (A := 2) (B := 30) (P := 60) (K := 336440) (by norm_num) (abs_le.2 ⟨by linarith, by linarith⟩)
    (abs_le.2 ⟨by linarith, by linarith⟩) (by norm_num) (by norm_num) (by norm_num)
  have d8 := (sind_near hf hm (M := 60) d7 (by norm_num) (abs_le.2 ⟨by linarith, by linarith⟩) (by norm_num) (by norm_num)).neg
  have q2 := Nr.mul₂ hf l2 hr (A := 2) (B := 1) (P := 2) (K := 3027) (by norm_num) (abs_le.2 ⟨by linarith, by linarith⟩)
    (abs_le.2 ⟨by linarith, by linarith⟩) (by norm_num) (by norm_num) (by norm_num)
  have sb : |-Real.sin (Flt.toRad (2 * (30 * E)))| ≤ 0.8661 := turn_abs ep.le e1'
  have pb : |-Real.sin (Flt.toRad (2 * (30 * E))) * (2 * Real.sqrt (C ^ 7 / (C ^ 7 + 25 ^ 7)))| ≤ 1.7322 := by
    rw [abs_mul]
    exact (mul_le_mul sb (abs_le.2 ⟨by linarith, by linarith⟩ : |2 * Real.sqrt (C ^ 7 / (C ^ 7 + 25 ^ 7))| ≤ 2)
      (abs_nonneg _) (by norm_num)).trans (by norm_num)
  exact Nr.mul₂ hf d8 q2 (A := 0.8661) (B := 2) (P := 1.7322) sb (abs_le.2 ⟨by linarith, by linarith⟩) pb
    (by norm_num) (by norm_num) (by norm_num)

end
end CS

import Verif.Props.Ciede

/-!
# The two colour differences bound one another (C122)
-/

namespace CS

/-! ### proofs -/

theorem cos_deltaHue {p q h k : ℝ} (hpq : p * q ≠ 0) :
    Real.cos (deltaHue p q h k * Real.pi / 180) = Real.cos ((k - h) * Real.pi / 180) := by
  simp only [deltaHue, Flt.gt, flt_lit, flt_lt, flt_le, flt_eqb, flt_abs, decide_eq_true_eq]
  norm_num only [Rat.cast_ofNat, Rat.cast_zero]
  rw [if_neg hpq]
  split
  · rfl
  · split
    · rw [show (k - h - 360) * Real.pi / 180 = (k - h) * Real.pi / 180 - 2 * Real.pi by ring, Real.cos_sub_two_pi]
    · rw [show (k - h + 360) * Real.pi / 180 = (k - h) * Real.pi / 180 + 2 * Real.pi by ring, Real.cos_add_two_pi]

/-- the chroma and hue differences are together the distance in the plane of the stretched `a` and `b` -/
theorem ciede_plane (c d : Lab ℝ) : ∃ g, 1 ≤ g ∧ g ≤ 3 / 2 ∧
    (ciede c d).dC ^ 2 + (ciede c d).dH ^ 2 = (g * (d.a - c.a)) ^ 2 + (d.b - c.b) ^ 2 ∧
    (ciede c d).cbar = (Spec.chroma (g * c.a) c.b + Spec.chroma (g * d.a) d.b) / 2 := by
  have e1 : (Flt.lit 1.0 : ℝ) = 1 := by rw [flt_lit]; norm_num
  have e2 : (Flt.lit 2.0 : ℝ) = 2 := by rw [flt_lit]; norm_num
  have hG : 0 ≤ ciedeG ((Flt.hypot c.a c.b + Flt.hypot d.a d.b) / 2 : ℝ) ∧
      ciedeG ((Flt.hypot c.a c.b + Flt.hypot d.a d.b) / 2 : ℝ) ≤ 1 / 2 := by
    have hc : (0:ℝ) ≤ (Flt.hypot c.a c.b + Flt.hypot d.a d.b) / 2 :=
      div_nonneg (add_nonneg (hypot_nonneg _ _) (hypot_nonneg _ _)) (by norm_num)
    generalize ((Flt.hypot c.a c.b + Flt.hypot d.a d.b) / 2 : ℝ) = C at *
    simp only [ciedeG, flt_lit, flt_powi, flt_sqrt]
    norm_num only [Rat.cast_ofNat, Rat.cast_div, Rat.cast_one]
    have h0 : 0 ≤ √(C ^ 7 / (C ^ 7 + 6103515625)) := Real.sqrt_nonneg _
    have h1 : √(C ^ 7 / (C ^ 7 + 6103515625)) ≤ 1 := by
      exact Real.sqrt_le_one.2 (by rw [div_le_one (by positivity)]; linarith)
    constructor <;> linarith
  refine ⟨1 + ciedeG ((Flt.hypot c.a c.b + Flt.hypot d.a d.b) / 2 : ℝ), by linarith, by linarith, ?_, ?_⟩
  · simp only [ciede, e1, e2]
    generalize (1 + ciedeG ((Flt.hypot c.a c.b + Flt.hypot d.a d.b) / 2 : ℝ)) = g
    obtain ⟨i1, i2⟩ := isHue_hueDeg (g * c.a) c.b
    obtain ⟨j1, j2⟩ := isHue_hueDeg (g * d.a) d.b
    simp only [hypot_chroma]
    have sq : ∀ a b : ℝ, Spec.chroma a b ^ 2 = a ^ 2 + b ^ 2 := fun a b => Real.sq_sqrt (by positivity)
    have s1 := sq (g * c.a) c.b
    have s2 := sq (g * d.a) d.b
    have p0 : 0 ≤ Spec.chroma (g * c.a) c.b := Real.sqrt_nonneg _
    have q0 : 0 ≤ Spec.chroma (g * d.a) d.b := Real.sqrt_nonneg _
    generalize Spec.chroma (g * c.a) c.b = p at *
    generalize Spec.chroma (g * d.a) d.b = q at *
    generalize hueDeg c.b (g * c.a) = h at *
    generalize hueDeg d.b (g * d.a) = k at *
    have dot : p * q * (1 - Real.cos (deltaHue p q h k * Real.pi / 180)) =
        p * q - (g * c.a * (g * d.a) + c.b * d.b) := by
      by_cases hpq : p * q = 0
      · rw [hpq]
        rcases mul_eq_zero.1 hpq with h0 | h0
        · rw [h0, zero_mul] at i1 i2; rw [i1, i2]; ring
        · rw [h0, zero_mul] at j1 j2; rw [j1, j2]; ring
      · rw [cos_deltaHue hpq, show (k - h) * Real.pi / 180 = k * Real.pi / 180 - h * Real.pi / 180 by ring,
          Real.cos_sub]
        unfold Spec.cosd Spec.sind at *
        rw [i1, i2, j1, j2]
        ring
    have half : Real.sin (deltaHue p q h k * Real.pi / 180 / 2) ^ 2 =
        (1 - Real.cos (deltaHue p q h k * Real.pi / 180)) / 2 := by
      have := Real.cos_sq (deltaHue p q h k * Real.pi / 180 / 2)
      rw [mul_div_cancel₀ _ (by norm_num : (2:ℝ) ≠ 0)] at this
      rw [Real.sin_sq, this]; ring
    have eH : (2 * Flt.sqrt (p * q) * Flt.sin (Flt.toRad (deltaHue p q h k / 2)) : ℝ) ^ 2 =
        2 * (p * q * (1 - Real.cos (deltaHue p q h k * Real.pi / 180))) := by
      have er : (Flt.sin (Flt.toRad (deltaHue p q h k / 2)) : ℝ) =
          Real.sin (deltaHue p q h k * Real.pi / 180 / 2) := by
        rw [flt_sin]
        congr 1
        show deltaHue p q h k / 2 * (Real.pi / 180) = _
        ring
      rw [er, flt_sqrt, mul_pow, mul_pow, Real.sq_sqrt (by positivity), half]
      ring
    rw [eH, dot]
    nlinarith [s1, s2]
  · simp only [ciede, e1, e2]
    rfl

/-- the rotation term is below √3 -/
theorem ciedeRT_root3 {c : ℝ} (hc : 0 ≤ c) (h : ℝ) : |ciedeRT c h| ≤ 1.7321 := by
  simp only [ciedeRT, flt_lit, flt_powi, flt_sqrt, flt_sin]
  rw [abs_mul, abs_neg]
  norm_num only [Rat.cast_ofNat, Rat.cast_div, Rat.cast_one]
  have he0 : (0:ℝ) < Flt.exp (-sqr ((h - 275) / 25) : ℝ) := Real.exp_pos _
  have he1 : (Flt.exp (-sqr ((h - 275) / 25) : ℝ) : ℝ) ≤ 1 := by
    refine Real.exp_le_one_iff.2 ?_
    have : (0:ℝ) ≤ sqr ((h - 275) / 25) := mul_self_nonneg _
    linarith
  have h1 : |Real.sin (Flt.toRad (2 * (30 * Flt.exp (-sqr ((h - 275) / 25)))) : ℝ)| ≤ √3 / 2 := by
    generalize (Flt.exp (-sqr ((h - 275) / 25) : ℝ) : ℝ) = e at *
    have et : (Flt.toRad (2 * (30 * e)) : ℝ) = e * (Real.pi / 3) := by
      show 2 * (30 * e) * (Real.pi / 180) = _
      ring
    rw [et]
    have hpi := Real.pi_pos
    have k0 : 0 ≤ e * (Real.pi / 3) := by positivity
    have k1 : e * (Real.pi / 3) ≤ Real.pi / 3 := mul_le_of_le_one_left (by positivity) he1
    rw [abs_of_nonneg (Real.sin_nonneg_of_nonneg_of_le_pi k0 (by linarith)), ← Real.sin_pi_div_three]
    exact Real.sin_le_sin_of_le_of_le_pi_div_two (by linarith) (by linarith) k1
  have h3 : √3 ≤ 1.7321 := by
    rw [Real.sqrt_le_left (by norm_num)]; norm_num
  have hs0 : 0 ≤ √(c ^ 7 / (c ^ 7 + 6103515625)) := Real.sqrt_nonneg _
  have hs1 : √(c ^ 7 / (c ^ 7 + 6103515625)) ≤ 1 := by
    exact Real.sqrt_le_one.2 (by rw [div_le_one (by positivity)]; linarith)
  have h2 : |2 * √(c ^ 7 / (c ^ 7 + 6103515625))| ≤ 2 := by
    rw [abs_of_nonneg (by positivity)]; linarith
  calc _ ≤ √3 / 2 * 2 := mul_le_mul h1 h2 (abs_nonneg _) (by positivity)
    _ = √3 := by ring
    _ ≤ _ := h3.trans (by norm_num)

theorem de1976_sq (c d : Lab ℝ) : deltaE1976 c d ^ 2 = (d.L - c.L) ^ 2 + (d.a - c.a) ^ 2 + (d.b - c.b) ^ 2 := by
  unfold deltaE1976
  rw [flt_sqrt, Real.sq_sqrt (by simp only [flt_powi]; positivity)]
  simp only [flt_powi]
  ring

theorem de2000_sq (c d : Lab ℝ) : deltaE2000 c d ^ 2 = ciedeRadicand (ciede c d) := by
  unfold deltaE2000
  rw [flt_sqrt, Real.sq_sqrt (C35_well_defined c d).2.2.2.2.2.2.1]

theorem SL_ge (l : ℝ) : 1 ≤ ciedeSL l := by
  simp only [ciedeSL, flt_lit, flt_powi, flt_sqrt]
  norm_num only [Rat.cast_ofNat, Rat.cast_div, Rat.cast_one]
  have : 0 ≤ 3 / 200 * (l - 50) ^ 2 / √(20 + (l - 50) ^ 2) := by positivity
  linarith

theorem SL_le {l : ℝ} (h0 : 0 ≤ l) (h1 : l ≤ 100) : ciedeSL l ≤ 1.75 := by
  simp only [ciedeSL, flt_lit, flt_powi, flt_sqrt]
  norm_num only [Rat.cast_ofNat, Rat.cast_div, Rat.cast_one]
  have hs : |l - 50| ≤ √(20 + (l - 50) ^ 2) := by
    rw [← Real.sqrt_sq_eq_abs]; exact Real.sqrt_le_sqrt (by linarith)
  have ha : |l - 50| ≤ 50 := abs_le.2 ⟨by linarith, by linarith⟩
  have hp : 0 < √(20 + (l - 50) ^ 2) := Real.sqrt_pos.2 (by positivity)
  have : 3 / 200 * (l - 50) ^ 2 / √(20 + (l - 50) ^ 2) ≤ 3 / 4 := by
    rw [div_le_iff₀ hp]
    have : (l - 50) ^ 2 ≤ 50 * √(20 + (l - 50) ^ 2) := by
      calc (l - 50) ^ 2 = |l - 50| * |l - 50| := by rw [abs_mul_abs_self, sq]
        _ ≤ 50 * √(20 + (l - 50) ^ 2) := mul_le_mul ha hs (abs_nonneg _) (by norm_num)
    linarith
  linarith

theorem ciedeT_le (h : ℝ) : ciedeT h ≤ 1.93 := by
  simp only [ciedeT, flt_lit, flt_cos]
  norm_num only [Rat.cast_ofNat, Rat.cast_div, Rat.cast_one]
  linarith [Real.neg_one_le_cos (Flt.toRad (h - 30)), Real.cos_le_one (Flt.toRad (2 * h)),
    Real.cos_le_one (Flt.toRad (3 * h + 6)), Real.neg_one_le_cos (Flt.toRad (4 * h - 63))]

theorem weights (c h : ℝ) (hc : 0 ≤ c) : 1 ≤ ciedeSC c ∧ ciedeSC c = 1 + 0.045 * c ∧
    1 ≤ ciedeSH c h ∧ ciedeSH c h ≤ 1 + 0.045 * c := by
  have t0 := ciedeT_pos h
  have t1 := ciedeT_le h
  simp only [ciedeSC, ciedeSH, flt_lit]
  norm_num only [Rat.cast_ofNat, Rat.cast_div, Rat.cast_one] at *
  have k0 : 0 ≤ c * ciedeT h := by
    apply mul_nonneg hc; linarith
  have k1 : c * ciedeT h ≤ c * (193 / 100) := mul_le_mul_of_nonneg_left t1 hc
  refine ⟨by linarith, trivial, ?_, ?_⟩ <;> nlinarith

/-- C122 [R]: `delta_E_2000` is at most 2.05 times `delta_E_1976`, for all pairs of colours. So nearby colours are never
reported as far apart, however their hues fall across the 0/360 degree line or the 180 degree switch of the formula. -/
theorem C122_upper (c d : Lab ℝ) : deltaE2000 c d ≤ 2.05 * deltaE1976 c d := by
  have hc := cbar_nonneg c d
  obtain ⟨g, g1, g2, e, -⟩ := ciede_plane c d
  obtain ⟨w1, -, w2, -⟩ := weights (ciede c d).cbar (ciede c d).hbar hc
  have hr := ciedeRT_root3 hc (ciede c d).hbar
  have hl := SL_ge (ciede c d).Lbar
  have hdL : (ciede c d).dL = d.L - c.L := rfl
  have dv : ∀ {x s : ℝ}, 1 ≤ s → (x / s) ^ 2 ≤ x ^ 2 := by
    intro x s hs
    rw [div_pow, div_le_iff₀ (by positivity)]
    have : 1 ≤ s ^ 2 := one_le_pow₀ hs
    nlinarith [sq_nonneg x]
  have key : ciedeRadicand (ciede c d) ≤ (2.05 * deltaE1976 c d) ^ 2 := by
    rw [radicand_form, mul_pow, de1976_sq]
    have x2 := dv (x := (ciede c d).dC) w1
    have y2 := dv (x := (ciede c d).dH) w2
    have z2 := dv (x := (ciede c d).dL) hl
    rw [hdL] at z2 ⊢
    generalize (d.L - c.L) / ciedeSL (ciede c d).Lbar = Z at *
    generalize (ciede c d).dC / ciedeSC (ciede c d).cbar = X at *
    generalize (ciede c d).dH / ciedeSH (ciede c d).cbar (ciede c d).hbar = Y at *
    generalize ciedeRT (ciede c d).cbar (ciede c d).hbar = R at *
    have hxy : R * (X * Y) ≤ 1.7321 * ((X ^ 2 + Y ^ 2) / 2) := by
      refine (le_abs_self _).trans ?_
      rw [abs_mul]
      refine mul_le_mul hr ?_ (abs_nonneg _) (by norm_num)
      rw [abs_le]
      constructor <;> nlinarith [sq_nonneg (X - Y), sq_nonneg (X + Y)]
    have hg : (g * (d.a - c.a)) ^ 2 ≤ 9 / 4 * (d.a - c.a) ^ 2 := by
      rw [mul_pow]
      exact mul_le_mul_of_nonneg_right (by nlinarith) (sq_nonneg _)
    have hb := sq_nonneg (d.b - c.b)
    have ha := sq_nonneg (d.a - c.a)
    have hL := sq_nonneg (d.L - c.L)
    norm_num at hxy ⊢
    nlinarith
  rw [← de2000_sq] at key
  exact (le_abs_self _).trans (abs_le_of_sq_le_sq key (mul_nonneg (by norm_num) (C33_metric c d d).1))

/-- C122 [R]: and conversely: for colours whose mean lightness is between 0 and 100, `delta_E_1976` is at most
2.74 (1.75 + 0.07 C) times `delta_E_2000`, where C is their mean chroma. So a small `delta_E_2000` means that the two colours
are close. -/
theorem C122_lower (c d : Lab ℝ) (h0 : 0 ≤ c.L + d.L) (h1 : c.L + d.L ≤ 200) :
    deltaE1976 c d ≤
      2.74 * (1.75 + 0.07 * ((√(c.a ^ 2 + c.b ^ 2) + √(d.a ^ 2 + d.b ^ 2)) / 2)) * deltaE2000 c d := by
  have hc := cbar_nonneg c d
  obtain ⟨g, g1, g2, e, ec⟩ := ciede_plane c d
  obtain ⟨w1, w2, w3, w4⟩ := weights (ciede c d).cbar (ciede c d).hbar hc
  have hr := ciedeRT_root3 hc (ciede c d).hbar
  have hl := SL_ge (ciede c d).Lbar
  have hLb : (ciede c d).Lbar = (c.L + d.L) / 2 := by
    have e2 : (Flt.lit 2.0 : ℝ) = 2 := by rw [flt_lit]; norm_num
    simp only [ciede, e2]
  have hl' : ciedeSL (ciede c d).Lbar ≤ 1.75 := SL_le (by rw [hLb]; linarith) (by rw [hLb]; linarith)
  have hdL : (ciede c d).dL = d.L - c.L := rfl
  have grow : ∀ a b : ℝ, Spec.chroma (g * a) b ≤ 3 / 2 * √(a ^ 2 + b ^ 2) := by
    intro a b
    unfold Spec.chroma
    rw [show (3 / 2 : ℝ) = √(9 / 4) by
      rw [show (9 / 4 : ℝ) = (3 / 2) ^ 2 by norm_num, Real.sqrt_sq (by norm_num)], ← Real.sqrt_mul (by norm_num)]
    refine Real.sqrt_le_sqrt ?_
    rw [mul_pow]
    have : g ^ 2 ≤ 9 / 4 := by nlinarith
    nlinarith [sq_nonneg a, sq_nonneg b]
  have hcb : 1 + 0.045 * (ciede c d).cbar ≤
      1.75 + 0.07 * ((√(c.a ^ 2 + c.b ^ 2) + √(d.a ^ 2 + d.b ^ 2)) / 2) := by
    rw [ec]
    have := grow c.a c.b
    have := grow d.a d.b
    have := Real.sqrt_nonneg (c.a ^ 2 + c.b ^ 2)
    have := Real.sqrt_nonneg (d.a ^ 2 + d.b ^ 2)
    norm_num
    linarith
  have hK : 1.75 ≤ 1.75 + 0.07 * ((√(c.a ^ 2 + c.b ^ 2) + √(d.a ^ 2 + d.b ^ 2)) / 2) := by
    have := Real.sqrt_nonneg (c.a ^ 2 + c.b ^ 2)
    have := Real.sqrt_nonneg (d.a ^ 2 + d.b ^ 2)
    norm_num
    linarith
  generalize 1.75 + 0.07 * ((√(c.a ^ 2 + c.b ^ 2) + √(d.a ^ 2 + d.b ^ 2)) / 2) = K at *
  have K0 : 0 < K := lt_of_lt_of_le (by norm_num) hK
  have dv : ∀ {x s : ℝ}, 1 ≤ s → s ≤ K → x ^ 2 ≤ K ^ 2 * (x / s) ^ 2 := by
    intro x s hs hsK
    rw [div_pow, ← mul_div_assoc, le_div_iff₀ (by positivity)]
    have : s ^ 2 ≤ K ^ 2 := pow_le_pow_left₀ (by linarith) hsK 2
    nlinarith [sq_nonneg x]
  have key : deltaE1976 c d ^ 2 ≤ (2.74 * K * deltaE2000 c d) ^ 2 := by
    rw [mul_pow, de2000_sq, radicand_form, de1976_sq]
    have x2 := dv (x := (ciede c d).dC) w1 (w2 ▸ hcb)
    have y2 := dv (x := (ciede c d).dH) w3 (w4.trans hcb)
    have z2 := dv (x := (ciede c d).dL) hl (hl'.trans hK)
    rw [hdL] at z2 ⊢
    generalize (d.L - c.L) / ciedeSL (ciede c d).Lbar = Z at *
    generalize (ciede c d).dC / ciedeSC (ciede c d).cbar = X at *
    generalize (ciede c d).dH / ciedeSH (ciede c d).cbar (ciede c d).hbar = Y at *
    generalize ciedeRT (ciede c d).cbar (ciede c d).hbar = R at *
    have hxy : -(1.7321 * ((X ^ 2 + Y ^ 2) / 2)) ≤ R * (X * Y) := by
      refine le_trans (neg_le_neg ?_) (neg_abs_le _)
      rw [abs_mul]
      refine mul_le_mul hr ?_ (abs_nonneg _) (by norm_num)
      rw [abs_le]
      constructor <;> nlinarith [sq_nonneg (X - Y), sq_nonneg (X + Y)]
    have hg : (d.a - c.a) ^ 2 ≤ (g * (d.a - c.a)) ^ 2 := by
      rw [mul_pow]
      exact le_mul_of_one_le_left (sq_nonneg _) (by nlinarith)
    have hform : Z ^ 2 + X ^ 2 + Y ^ 2 ≤ 2.74 ^ 2 * (Z ^ 2 + X ^ 2 + Y ^ 2 + R * (X * Y)) := by
      norm_num at hxy ⊢
      nlinarith [sq_nonneg X, sq_nonneg Y, sq_nonneg Z]
    calc (d.L - c.L) ^ 2 + (d.a - c.a) ^ 2 + (d.b - c.b) ^ 2
        ≤ K ^ 2 * Z ^ 2 + K ^ 2 * X ^ 2 + K ^ 2 * Y ^ 2 := by linarith
      _ = K ^ 2 * (Z ^ 2 + X ^ 2 + Y ^ 2) := by ring
      _ ≤ K ^ 2 * (2.74 ^ 2 * (Z ^ 2 + X ^ 2 + Y ^ 2 + R * (X * Y))) :=
          mul_le_mul_of_nonneg_left hform (by positivity)
      _ = _ := by ring
  exact (le_abs_self _).trans (abs_le_of_sq_le_sq key (mul_nonneg (mul_nonneg (by norm_num) K0.le) (Real.sqrt_nonneg _)))

/-- C122 [R]: between greys `delta_E_2000` is the difference of lightness over a weight between 1 and 1.75 for the mean
lightness, the published one, so it is at most `delta_E_1976`. -/
theorem C122_greys (L M : ℝ) :
    deltaE2000 ⟨L, 0, 0⟩ ⟨M, 0, 0⟩ =
      |M - L| / (1 + 0.015 * ((L + M) / 2 - 50) ^ 2 / √(20 + ((L + M) / 2 - 50) ^ 2)) ∧
    deltaE2000 ⟨L, 0, 0⟩ ⟨M, 0, 0⟩ ≤ deltaE1976 ⟨L, 0, 0⟩ ⟨M, 0, 0⟩ := by
  have e2 : (Flt.lit 2.0 : ℝ) = 2 := by rw [flt_lit]; norm_num
  obtain ⟨g, -, -, e, -⟩ := ciede_plane ⟨L, 0, 0⟩ ⟨M, 0, 0⟩
  have hC : (ciede ⟨L, 0, 0⟩ ⟨M, 0, 0⟩ : Ciede ℝ).dC = 0 := by
    norm_num at e; nlinarith [sq_nonneg (ciede ⟨L, 0, 0⟩ ⟨M, 0, 0⟩ : Ciede ℝ).dH, sq_nonneg (ciede ⟨L, 0, 0⟩ ⟨M, 0, 0⟩ : Ciede ℝ).dC]
  have hH : (ciede ⟨L, 0, 0⟩ ⟨M, 0, 0⟩ : Ciede ℝ).dH = 0 := by
    rw [hC] at e; norm_num at e; exact e
  have hL : (ciede ⟨L, 0, 0⟩ ⟨M, 0, 0⟩ : Ciede ℝ).dL = M - L := rfl
  have hLb : (ciede ⟨L, 0, 0⟩ ⟨M, 0, 0⟩ : Ciede ℝ).Lbar = (L + M) / 2 := by simp only [ciede, e2]
  have hS := SL_ge ((L + M) / 2)
  have eS : ciedeSL ((L + M) / 2) = 1 + 0.015 * ((L + M) / 2 - 50) ^ 2 / √(20 + ((L + M) / 2 - 50) ^ 2) := by
    simp only [ciedeSL, flt_lit, flt_powi, flt_sqrt]
    norm_num only [Rat.cast_ofNat, Rat.cast_div, Rat.cast_one]
  have e1 : deltaE2000 ⟨L, 0, 0⟩ ⟨M, 0, 0⟩ = |M - L| / ciedeSL ((L + M) / 2) := by
    unfold deltaE2000
    rw [radicand_form, hC, hH, hL, hLb, flt_sqrt]
    rw [show ((M - L) / ciedeSL ((L + M) / 2)) ^ 2 + (0 / ciedeSC (ciede ⟨L, 0, 0⟩ ⟨M, 0, 0⟩ : Ciede ℝ).cbar) ^ 2 +
      (0 / ciedeSH (ciede ⟨L, 0, 0⟩ ⟨M, 0, 0⟩ : Ciede ℝ).cbar (ciede ⟨L, 0, 0⟩ ⟨M, 0, 0⟩).hbar) ^ 2 +
      ciedeRT (ciede ⟨L, 0, 0⟩ ⟨M, 0, 0⟩ : Ciede ℝ).cbar (ciede ⟨L, 0, 0⟩ ⟨M, 0, 0⟩).hbar *
        (0 / ciedeSC (ciede ⟨L, 0, 0⟩ ⟨M, 0, 0⟩ : Ciede ℝ).cbar *
          (0 / ciedeSH (ciede ⟨L, 0, 0⟩ ⟨M, 0, 0⟩ : Ciede ℝ).cbar (ciede ⟨L, 0, 0⟩ ⟨M, 0, 0⟩).hbar)) =
      ((M - L) / ciedeSL ((L + M) / 2)) ^ 2 by ring, Real.sqrt_sq_eq_abs, abs_div,
      abs_of_pos (by linarith : 0 < ciedeSL ((L + M) / 2))]
  refine ⟨by rw [e1, eS], ?_⟩
  have h76 : deltaE1976 ⟨L, 0, 0⟩ ⟨M, 0, 0⟩ = |M - L| := by
    have h := de1976_sq ⟨L, 0, 0⟩ ⟨M, 0, 0⟩
    norm_num at h
    rw [← abs_of_nonneg (C33_metric ⟨L, 0, 0⟩ ⟨M, 0, 0⟩ ⟨M, 0, 0⟩).1]
    rcases sq_eq_sq_iff_eq_or_eq_neg.1 h with h | h
    · rw [h]
    · rw [h, abs_neg]
  rw [e1, h76]
  exact div_le_self (abs_nonneg _) hS

/-- C122 [R]: `delta_E_2000` is not a metric, as its triangle inequality fails: black and white are 100 apart, but each is
less than 37 from the grey half way. -/
theorem C122_triangle_counterexample :
    deltaE2000 (⟨0, 0, 0⟩ : Lab ℝ) ⟨100, 0, 0⟩ = 100 ∧ deltaE2000 (⟨0, 0, 0⟩ : Lab ℝ) ⟨50, 0, 0⟩ < 37 ∧
    deltaE2000 (⟨50, 0, 0⟩ : Lab ℝ) ⟨100, 0, 0⟩ < 37 := by
  have hs : √(20 + (25:ℝ) ^ 2) < 25.5 := by
    rw [Real.sqrt_lt' (by norm_num)]; norm_num
  have hp : 0 < √(20 + (25:ℝ) ^ 2) := Real.sqrt_pos.2 (by norm_num)
  have hq : 50 / (1 + 0.015 * (25:ℝ) ^ 2 / √(20 + 25 ^ 2)) < 37 := by
    have : (0.36:ℝ) < 0.015 * 25 ^ 2 / √(20 + 25 ^ 2) := by
      rw [lt_div_iff₀ hp]; norm_num at hs ⊢; linarith
    rw [div_lt_iff₀ (by linarith)]
    norm_num at this ⊢
    linarith
  refine ⟨?_, ?_, ?_⟩
  · rw [(C122_greys 0 100).1]; norm_num
  · rw [(C122_greys 0 50).1]
    rw [show ((0:ℝ) + 50) / 2 - 50 = -25 by norm_num, show |(50:ℝ) - 0| = 50 by norm_num, neg_sq]
    exact hq
  · rw [(C122_greys 50 100).1]
    rw [show ((50:ℝ) + 100) / 2 - 50 = 25 by norm_num, show |(100:ℝ) - 50| = 50 by norm_num]
    exact hq

/-- Not vacuous: the lightness hypotheses of C122_lower hold for two saturated colours, where the bound says
`delta_E_1976` is at most 26 times `delta_E_2000`. -/
example : deltaE1976 (⟨50, 80, 60⟩ : Lab ℝ) ⟨60, 60, 80⟩ ≤ 26 * deltaE2000 (⟨50, 80, 60⟩ : Lab ℝ) ⟨60, 60, 80⟩ := by
  have h := C122_lower ⟨50, 80, 60⟩ ⟨60, 60, 80⟩ (by norm_num) (by norm_num)
  refine h.trans ?_
  have e1 : √((80:ℝ) ^ 2 + 60 ^ 2) = 100 := by
    rw [show ((80:ℝ) ^ 2 + 60 ^ 2) = 100 ^ 2 by norm_num, Real.sqrt_sq (by norm_num)]
  have e2 : √((60:ℝ) ^ 2 + 80 ^ 2) = 100 := by
    rw [show ((60:ℝ) ^ 2 + 80 ^ 2) = 100 ^ 2 by norm_num, Real.sqrt_sq (by norm_num)]
  dsimp only
  rw [e1, e2]
  exact mul_le_mul_of_nonneg_right (by norm_num) (Real.sqrt_nonneg _)

end CS

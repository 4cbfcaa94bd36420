import Verif.Lemmas.FPTransfer
import Mathlib.Analysis.Convex.SpecificFunctions.Basic

/-!
# Encoding a decoded value
-/

namespace CS
section srgb
variable {f : Fmt} [Libm f]

theorem srgb_inner {y : ℝ} (hy : 0 ≤ y) :
    1.055 * (((y + 0.055) / 1.055) ^ (2.4 : ℝ)) ^ (1 / 2.4 : ℝ) = y + 0.055 := by
  rw [← Real.rpow_mul (by positivity), show (2.4 : ℝ) * (1 / 2.4) = 1 by norm_num, Real.rpow_one]
  field_simp

/-- the seam: the power curve at the decoding threshold is above the encoding threshold -/
theorem srgb_seam : (0.0031308 : ℝ) ≤ ((0.040449936 + 0.055) / 1.055) ^ (2.4 : ℝ) := by
  have h : (((0.040449936 + 0.055) / 1.055 : ℝ) ^ (2.4 : ℝ)) ^ (5 : ℕ) =
      ((0.040449936 + 0.055) / 1.055 : ℝ) ^ (12 : ℕ) := by
    rw [← Real.rpow_natCast, ← Real.rpow_mul (by norm_num), ← Real.rpow_natCast]
    norm_num
  by_contra hc
  have hc' := not_le.1 hc
  have h0 : (0:ℝ) ≤ ((0.040449936 + 0.055) / 1.055) ^ (2.4 : ℝ) := by positivity
  have := pow_lt_pow_left₀ hc' h0 (n := 5) (by norm_num)
  rw [h] at this
  norm_num at this

/-- `|encode (decode y) - y| ≤ 24 u`, both on the power branch -/
theorem srgb_pow_pow (hf : Std f) (hp : PowAccurate f) {y : FP f} (hy : y.isFinite = true)
    (h0 : (FP.lit 0.040449936 : FP f).val < y.val) (h1 : y.val ≤ 1)
    (h2 : (FP.lit 0.0031308 : FP f).val < (decode.srgb_t y).val) :
    (encode.srgb_t (decode.srgb_t y)).isFinite = true ∧
    |((encode.srgb_t (decode.srgb_t y)).val : ℝ) - y.val| ≤ 24 * f.u := by
  have hd := srgb_dec_pow hf hp hy h0 h1
  have hl := RelF.litE hf (q := 0.040449936) (by norm_num) (by norm_num)
  have hy0 : (0:ℝ) < y.val := by exact_mod_cast lt_trans (lit_pos hl) h0
  have hy1 : (y.val : ℝ) ≤ 1 := by exact_mod_cast h1
  have hu0 : (0:ℝ) < f.u := by exact_mod_cast f.u_pos
  have hD1 : (((y.val : ℝ) + 0.055) / 1.055) ^ (2.4 : ℝ) ≤ 1 := by
    refine Real.rpow_le_one (by positivity) ?_ (by norm_num)
    rw [div_le_one (by norm_num)]; linarith
  obtain ⟨sm0, sm1⟩ := RelF.small hf (n := 21) (by norm_num) (by norm_num)
  have hd1 : (decode.srgb_t y).val ≤ 7 / 5 := by
    have := (abs_le.1 (hd.err.to_abs sm0 (le_trans sm1 (by norm_num)))).2
    have : ((decode.srgb_t y).val : ℝ) ≤ 7 / 5 := by
      have hpos := hd.err.pos
      have h3 : 21 * kap f * (1 + 21 * kap f) ≤ 1 / 4 := by norm_num at sm1 ⊢; nlinarith
      have h4 := mul_le_mul hD1 h3 (by positivity) (by norm_num)
      linarith
    qcast this
  obtain ⟨z, e, hz⟩ := srgb_enc_pow hf hp hd.fin h2 hd1
  have r1 := hd.err.rpow (a := 1 / 2.4) (by norm_num)
  have r2 : RelF 21.1 z ((y.val : ℝ) + 0.055) := by
    refine ⟨hz.fin, ?_⟩
    have r3 := hz.err.trans ((RelE.refl (t := 0) (X := 1.055) (by norm_num) le_rfl).mul r1)
    rw [srgb_inner hy0.le] at r3
    refine r3.mono ?_
    have := kap_pos f
    norm_num; linarith
  obtain ⟨s1, s2⟩ := r2.sub_abs hf (RelF.litE hf (q := 0.055) (by norm_num) (by norm_num))
    (by norm_num) (by norm_num) (by norm_num) (by norm_num) (by norm_num; linarith) (by norm_num)
  rw [e]
  refine ⟨s1, ?_⟩
  have e1 : (y.val : ℝ) + 0.055 - ((0.055 : ℚ) : ℝ) = y.val := by norm_num
  rw [e1, abs_of_pos hy0] at s2
  refine le_trans s2 ?_
  have : (((y.val : ℝ) + 0.055) * 21.1 + ((0.055 : ℚ) : ℝ) * 1 + y.val) ≤ 23.4 := by
    norm_num; linarith
  calc _ ≤ (23.4 : ℝ) * (f.u * (1 + 1 / 1000)) := mul_le_mul_of_nonneg_right this (by positivity)
    _ ≤ _ := by norm_num; linarith

/-- decoding lands just below the encoding threshold although the code was above the decoding one -/
theorem srgb_pow_lin (hf : Std f) (hp : PowAccurate f) {y x : FP f} {δ : ℝ} (hy : y.isFinite = true)
    (h0 : (FP.lit 0.040449936 : FP f).val < y.val) (h1 : y.val ≤ 1) (hx : x.isFinite = true)
    (hδ0 : 0 ≤ δ) (hδ : δ ≤ 1 / 1000)
    (hd : |(x.val : ℝ) - (decode.srgb_t y).val| ≤ δ)
    (h2 : x.val ≤ (FP.lit 0.0031308 : FP f).val) :
    (encode.srgb_t x).isFinite = true ∧
    |((encode.srgb_t x).val : ℝ) - y.val| ≤ 16 * f.u + 14 * δ := by
  have hD := srgb_dec_pow hf hp hy h0 h1
  have hl := RelF.litE hf (q := 0.040449936) (by norm_num) (by norm_num)
  have ly := lit_abs hf (q := 0.040449936) (by norm_num) (by norm_num)
  have lx := lit_abs hf (q := 0.0031308) (by norm_num) (by norm_num)
  have hu : (f.u : ℝ) ≤ 1 / 2 ^ 24 := by qcast hf.hu
  have hu0 : (0:ℝ) < f.u := by exact_mod_cast f.u_pos
  have hy0 : (0.040449936 : ℝ) * (1 - f.u * (1 + 1 / 2 ^ 20)) ≤ y.val := by
    have a : ((FP.lit 0.040449936 : FP f).val : ℝ) < y.val := by exact_mod_cast h0
    have b := (abs_le.1 ly).1
    generalize ((FP.lit 0.040449936 : FP f).val : ℝ) = z at *
    norm_num at b ⊢
    linarith
  have hxr : (x.val : ℝ) ≤ 0.0031308 * (1 + f.u * (1 + 1 / 2 ^ 20)) := by
    have a : (x.val : ℝ) ≤ ((FP.lit 0.0031308 : FP f).val : ℝ) := by exact_mod_cast h2
    have b := (abs_le.1 lx).2
    generalize ((FP.lit 0.0031308 : FP f).val : ℝ) = z at *
    norm_num at b ⊢
    linarith
  have hyp : (0:ℝ) < y.val := by norm_num at hu hy0; nlinarith
  set d := ((decode.srgb_t y).val : ℝ) with hdd
  set D := (((y.val : ℝ) + 0.055) / 1.055) ^ (2.4 : ℝ) with hDD
  obtain ⟨sm0, sm1⟩ := RelF.small hf (n := 21) (by norm_num) (by norm_num)
  have hDp := hD.err.pos
  have ed := abs_le.1 (hD.err.to_abs sm0 (le_trans sm1 (by norm_num)))
  have tk : 21 * kap f * (1 + 21 * kap f) ≤ 21.1 * f.u := by
    have e : 21 * kap f * (1 + 21 * kap f) = f.u * (21 * (1 + 1 / 10 ^ 4) * (1 + 21 * kap f)) := by
      unfold kap; ring
    rw [e, mul_comm (21.1 : ℝ)]
    refine mul_le_mul_of_nonneg_left ?_ hu0.le
    norm_num at sm1 ⊢; linarith
  obtain ⟨g1, g2⟩ := abs_le.1 hd
  -- lower bound of D: the curve is increasing
  have hDlo : (0.0031308 : ℝ) * (1 - 4 * f.u) ≤ D := by
    have e1 : (0.040449936 + 0.055) / 1.055 * (1 - f.u * (1 + 1 / 2 ^ 20)) ≤
        ((y.val : ℝ) + 0.055) / 1.055 := by
      rw [div_mul_eq_mul_div, div_le_div_iff_of_pos_right (by norm_num)]
      norm_num at hy0 hu ⊢; nlinarith
    have t0 : 0 ≤ 1 - (f.u : ℝ) * (1 + 1 / 2 ^ 20) := by norm_num at hu ⊢; linarith
    have e2 := Real.rpow_le_rpow (by positivity) e1 (by norm_num : (0:ℝ) ≤ 2.4)
    rw [Real.mul_rpow (by norm_num) t0] at e2
    have e3 : 1 - 4 * (f.u : ℝ) ≤ (1 - f.u * (1 + 1 / 2 ^ 20)) ^ (2.4 : ℝ) := by
      have := one_add_mul_self_le_rpow_one_add (s := -((f.u : ℝ) * (1 + 1 / 2 ^ 20)))
        (by norm_num at hu ⊢; linarith) (p := (2.4 : ℝ)) (by norm_num)
      rw [← sub_eq_add_neg] at this
      refine le_trans ?_ this
      norm_num; linarith
    refine le_trans (mul_le_mul srgb_seam e3 (by norm_num at hu ⊢; linarith) (by positivity)) e2
  -- upper bound of D
  have hDhi : D ≤ (0.0031308 : ℝ) * (1 + 22.2 * f.u) + δ * (1 + 1 / 1000) := by
    have a : D * (1 - 21.1 * f.u) ≤ 0.0031308 * (1 + f.u * (1 + 1 / 2 ^ 20)) + δ := by
      have := mul_le_mul_of_nonneg_left tk hDp.le
      nlinarith [ed.1]
    have p1 : 0 < 1 - 21.1 * (f.u : ℝ) := by norm_num at hu ⊢; linarith
    have b : (0.0031308 * (1 + f.u * (1 + 1 / 2 ^ 20)) + δ) ≤
        (0.0031308 * (1 + 22.2 * f.u) + δ * (1 + 1 / 1000)) * (1 - 21.1 * f.u) := by
      norm_num at hu ⊢; nlinarith
    exact le_of_mul_le_mul_right (le_trans a b) p1
  -- upper bound of y through the Lipschitz bound for the inverse
  have hinv := srgb_inner hyp.le
  rw [← hDD] at hinv
  have hyhi : (y.val : ℝ) - 12.92 * D ≤ 1 * f.u + δ := by
    by_cases hcase : D ≤ 0.0031308
    · have : D ≤ ((0.040449936 + 0.055) / 1.055 : ℝ) ^ (2.4 : ℝ) := le_trans hcase srgb_seam
      rw [hDD, Real.rpow_le_rpow_iff (by positivity) (by norm_num) (by norm_num),
        div_le_div_iff_of_pos_right (by norm_num)] at this
      norm_num at this hDlo ⊢; linarith
    · have hc := (not_le.1 hcase).le
      have lip := rpow_lip (r := 1 / 2.4) (c := 0.0031) (K := 12.5) (a := D) (b := 0.0031308)
        (by norm_num) (by norm_num) (by norm_num) (by
          have e : (0.0031 : ℝ) ^ (1 / 2.4 - 1 : ℝ) ≤ 30 := by
            have h12 : ((0.0031 : ℝ) ^ (1 / 2.4 - 1 : ℝ)) ^ (12:ℕ) = ((0.0031 : ℝ) ^ (7:ℕ))⁻¹ := by
              rw [← Real.rpow_natCast, ← Real.rpow_mul (by norm_num), ← Real.rpow_natCast,
                ← Real.rpow_neg (by norm_num)]
              norm_num
            refine le_of_pow_le_pow_left₀ (n := 12) (by norm_num) (by norm_num) ?_
            rw [h12]; norm_num
          calc _ ≤ (1 / 2.4 : ℝ) * 30 := mul_le_mul_of_nonneg_left e (by norm_num)
            _ ≤ _ := by norm_num)
        (le_trans (by norm_num) hc) (by norm_num)
      have l2 := (abs_le.1 lip).2
      rw [abs_of_nonneg (by linarith)] at l2
      have l3 : 1.055 * (0.0031308 : ℝ) ^ (1 / 2.4 : ℝ) ≤ 0.040449936 + 0.055 := by
        have := Real.rpow_le_rpow (by norm_num) srgb_seam (by norm_num : (0:ℝ) ≤ 1 / 2.4)
        have h3 := srgb_inner (y := 0.040449936) (by norm_num)
        linarith
      norm_num at l2 l3 hinv hDhi ⊢
      linarith
  -- the linear branch of the encoder
  have hxd : D - 1 * f.u - δ ≤ x.val := by
    have := mul_le_mul_of_nonneg_left tk hDp.le
    have hD1 : D ≤ 1 / 100 := by norm_num at hDhi hu hδ ⊢; linarith
    have e2 : D * (21.1 * f.u) ≤ 1 / 100 * (21.1 * f.u) := mul_le_mul_of_nonneg_right hD1 (by positivity)
    norm_num at e2 this ⊢
    linarith [ed.1]
  obtain ⟨e1, e2⟩ := srgb_enc_lin hf hx (by
    have : (-1 / 100 : ℝ) ≤ x.val := by norm_num at hxd hDlo hu hδ ⊢; linarith
    qcast this) h2
  refine ⟨e1, ?_⟩
  obtain ⟨e3, e4⟩ := abs_le.1 e2
  generalize ((encode.srgb_t x).val : ℝ) = w at *
  rw [abs_le]
  norm_num at e3 e4 hxd hxr hyhi hy0 hDlo hu ⊢
  constructor <;> linarith

/-- both on the linear branch -/
theorem srgb_lin_lin (hf : Std f) {y x : FP f} {δ : ℝ} (hy : y.isFinite = true)
    (h0 : 0 ≤ y.val) (h1 : y.val ≤ (FP.lit 0.040449936 : FP f).val) (hx : x.isFinite = true)
    (hδ : δ ≤ 1 / 1000)
    (hd : |(x.val : ℝ) - (decode.srgb_t y).val| ≤ δ)
    (h2 : x.val ≤ (FP.lit 0.0031308 : FP f).val) :
    (encode.srgb_t x).isFinite = true ∧
    |((encode.srgb_t x).val : ℝ) - y.val| ≤ f.u + 13 * δ := by
  obtain ⟨_, a1, a2, a3⟩ := srgb_dec_lin hf hy h0 h1
  have hu : (f.u : ℝ) ≤ 1 / 2 ^ 24 := by qcast hf.hu
  have hu0 : (0:ℝ) < f.u := by exact_mod_cast f.u_pos
  have h0r : (0:ℝ) ≤ y.val := by exact_mod_cast h0
  have hd0 : (0:ℝ) ≤ (decode.srgb_t y).val := by exact_mod_cast a2
  obtain ⟨g1, g2⟩ := abs_le.1 hd
  obtain ⟨g3, g4⟩ := abs_le.1 a3
  obtain ⟨e1, e2⟩ := srgb_enc_lin hf hx (by
    have : (-1 / 100 : ℝ) ≤ x.val := by norm_num at hδ ⊢; linarith
    qcast this) h2
  refine ⟨e1, ?_⟩
  obtain ⟨e3, e4⟩ := abs_le.1 e2
  have hδ0 : 0 ≤ δ := le_trans (abs_nonneg _) hd
  generalize ((encode.srgb_t x).val : ℝ) = w at *
  generalize ((decode.srgb_t y).val : ℝ) = d at *
  rw [abs_le]
  norm_num at e3 e4 g3 g4 hu ⊢
  constructor <;> linarith

/-- decoding the linear part never crosses the encoding threshold, if the threshold itself does not -/
theorem srgb_lin_stays (hf : Std f)
    (hseam : ((FP.lit 0.040449936 : FP f) / FP.lit 12.92).val ≤ (FP.lit 0.0031308 : FP f).val)
    {y : FP f} (hy : y.isFinite = true) (h0 : 0 ≤ y.val)
    (h1 : y.val ≤ (FP.lit 0.040449936 : FP f).val) :
    (decode.srgb_t y).val ≤ (FP.lit 0.0031308 : FP f).val := by
  have hl := RelF.litE hf (q := 0.040449936) (by norm_num) (by norm_num)
  have hd := RelF.litE hf (q := 12.92) (by norm_num) (by norm_num)
  have hwq : 0 < (FP.lit 12.92 : FP f).val := lit_pos hd
  have hlq : 0 < (FP.lit 0.040449936 : FP f).val := lit_pos hl
  have key : ∀ t : FP f, t.isFinite = true → 0 ≤ t.val → t.val ≤ (FP.lit 0.040449936 : FP f).val →
      (t / FP.lit 12.92 : FP f).val = roundQ f (t.val / (FP.lit 12.92 : FP f).val) := by
    intro t ht ht0 ht1
    refine (FP.div_finite' ht hd.fin hwq.ne' (roundQ_lt (pow_le_emax hf.wide ?_))).2
    have w1 : (1:ℚ) ≤ (FP.lit 12.92 : FP f).val := by
      have := (abs_le.1 (hf.lit 12.92 (by norm_num) (by norm_num)).2).1
      have hu := hf.hu
      generalize (FP.lit 12.92 : FP f).val = z at *
      norm_num at this hu; linarith
    have w2 : (FP.lit 0.040449936 : FP f).val ≤ 1 := by
      have := (abs_le.1 (hf.lit 0.040449936 (by norm_num) (by norm_num)).2).2
      have hu := hf.hu
      generalize (FP.lit 0.040449936 : FP f).val = z at *
      norm_num at this hu; linarith
    rw [abs_of_nonneg (div_nonneg ht0 hwq.le), div_le_iff₀ hwq]
    nlinarith
  rw [(srgb_dec_lin hf hy h0 h1).1, key y hy h0 h1]
  refine le_trans ?_ hseam
  rw [key _ hl.fin hlq.le le_rfl]
  exact roundQ_mono f (div_le_div_of_nonneg_right h1 hwq.le)

/-- encoding a decoded sRGB component gives it back up to 24 roundings -/
theorem srgb_roundtrip (hf : Std f) (hp : PowAccurate f)
    (hseam : ((FP.lit 0.040449936 : FP f) / FP.lit 12.92).val ≤ (FP.lit 0.0031308 : FP f).val)
    {y : FP f} (hy : y.isFinite = true) (h0 : 0 ≤ y.val) (h1 : y.val ≤ 1) :
    (encode.srgb_t (decode.srgb_t y)).isFinite = true ∧
    |((encode.srgb_t (decode.srgb_t y)).val : ℝ) - y.val| ≤ 24 * f.u := by
  have hu0 : (0:ℝ) < f.u := by exact_mod_cast f.u_pos
  rcases le_or_gt y.val (FP.lit 0.040449936 : FP f).val with h | h
  · obtain ⟨_, a1, a2, a3⟩ := srgb_dec_lin hf hy h0 h
    obtain ⟨e1, e2⟩ := srgb_lin_lin hf hy h0 h a1 (δ := 0) (by norm_num) (by simp)
      (srgb_lin_stays hf hseam hy h0 h)
    exact ⟨e1, by linarith⟩
  · rcases le_or_gt (decode.srgb_t y).val (FP.lit 0.0031308 : FP f).val with h' | h'
    · obtain ⟨e1, e2⟩ := srgb_pow_lin hf hp hy h h1 (srgb_dec_pow hf hp hy h h1).fin (δ := 0) le_rfl
        (by norm_num) (by simp) h'
      exact ⟨e1, by linarith⟩
    · exact srgb_pow_pow hf hp hy h h1 h'

end srgb
end CS

import Verif.Lemmas.FPTransfer2
import Verif.Lemmas.FPLogC

/-!
# Encoding a value close to a decoded one
-/

namespace CS
section srgb
variable {f : Fmt} [Libm f]

/-- the power branch of the encoder has slope at most 12.5 before the factor 1.055 -/
theorem srgb_lip {a b : ℝ} (ha : 0.0031 ≤ a) (hb : 0.0031 ≤ b) :
    |a ^ (1 / 2.4 : ℝ) - b ^ (1 / 2.4 : ℝ)| ≤ 12.5 * |a - b| := by
  refine rpow_lip (c := 0.0031) (by norm_num) (by norm_num) (by norm_num) ?_ ha hb
  have e : (0.0031 : ℝ) ^ (1 / 2.4 - 1 : ℝ) ≤ 30 := by
    have h12 : ((0.0031 : ℝ) ^ (1 / 2.4 - 1 : ℝ)) ^ (12:ℕ) = ((0.0031 : ℝ) ^ (7:ℕ))⁻¹ := by
      rw [← Real.rpow_natCast, ← Real.rpow_mul (by norm_num), ← Real.rpow_natCast,
        ← Real.rpow_neg (by norm_num)]
      norm_num
    refine le_of_pow_le_pow_left₀ (n := 12) (by norm_num) (by norm_num) ?_
    rw [h12]; norm_num
  calc _ ≤ (1 / 2.4 : ℝ) * 30 := mul_le_mul_of_nonneg_left e (by norm_num)
    _ ≤ _ := by norm_num

/-- the power branch of the encoder in absolute terms -/
theorem srgb_enc_abs (hf : Std f) (hp : PowAccurate f) {x : FP f} (hx : x.isFinite = true)
    (h0 : (FP.lit 0.0031308 : FP f).val < x.val) (h1 : x.val ≤ 7 / 5) :
    (encode.srgb_t x).isFinite = true ∧
    |((encode.srgb_t x).val : ℝ) - (1.055 * (x.val : ℝ) ^ (1 / 2.4 : ℝ) - 0.055)| ≤ 21 * f.u := by
  obtain ⟨z, e, hz⟩ := srgb_enc_pow hf hp hx h0 h1
  have hl := RelF.litE hf (q := 0.0031308) (by norm_num) (by norm_num)
  have hx0 : (0:ℝ) < x.val := by exact_mod_cast lt_trans (lit_pos hl) h0
  have hx1 : (x.val : ℝ) ≤ 7 / 5 := by qcast h1
  have hu0 : (0:ℝ) < f.u := by exact_mod_cast f.u_pos
  have hP : (x.val : ℝ) ^ (1 / 2.4 : ℝ) ≤ 7 / 5 := by
    rcases le_total (x.val : ℝ) 1 with h | h
    · exact le_trans (Real.rpow_le_one hx0.le h (by norm_num)) (by norm_num)
    · refine le_trans ?_ hx1
      calc _ ≤ (x.val : ℝ) ^ (1 : ℝ) := Real.rpow_le_rpow_of_exponent_le h (by norm_num)
        _ = _ := Real.rpow_one _
  have hP0 : 0 ≤ (x.val : ℝ) ^ (1 / 2.4 : ℝ) := Real.rpow_nonneg hx0.le _
  obtain ⟨s1, s2⟩ := hz.sub_abs hf (RelF.litE hf (q := 0.055) (by norm_num) (by norm_num))
    (by norm_num) (by norm_num) (by norm_num) (by norm_num) (by norm_num at hP ⊢; linarith)
    (by norm_num)
  rw [e]
  refine ⟨s1, ?_⟩
  have e1 : (((0.055 : ℚ) : ℝ)) = 0.055 := by norm_num
  rw [e1] at s2
  refine le_trans s2 ?_
  generalize (x.val : ℝ) ^ (1 / 2.4 : ℝ) = P at *
  have ha : |1.055 * P - 0.055| ≤ 1.5 := by rw [abs_le]; norm_num at hP ⊢; constructor <;> linarith
  have : (1.055 * P * 12.3 + 0.055 * 1 + |1.055 * P - 0.055|) ≤ 20.9 := by
    norm_num at hP ha ⊢; linarith
  calc _ ≤ (20.9 : ℝ) * (f.u * (1 + 1 / 1000)) := mul_le_mul_of_nonneg_right this (by positivity)
    _ ≤ _ := by norm_num; linarith

/-- both on the power branch -/
theorem srgb_pow_pow_near (hf : Std f) (hp : PowAccurate f) {y x : FP f} {δ : ℝ}
    (hy : y.isFinite = true) (h0 : (FP.lit 0.040449936 : FP f).val < y.val) (h1 : y.val ≤ 1)
    (hx : x.isFinite = true) (hδ : δ ≤ 1 / 1000)
    (hd : |(x.val : ℝ) - (decode.srgb_t y).val| ≤ δ)
    (h2 : (FP.lit 0.0031308 : FP f).val < x.val) :
    (encode.srgb_t x).isFinite = true ∧
    |((encode.srgb_t x).val : ℝ) - y.val| ≤ 310 * f.u + 14 * δ := by
  have hD := srgb_dec_pow hf hp hy h0 h1
  have hl := RelF.litE hf (q := 0.040449936) (by norm_num) (by norm_num)
  have ly := lit_abs hf (q := 0.040449936) (by norm_num) (by norm_num)
  have lx := lit_abs hf (q := 0.0031308) (by norm_num) (by norm_num)
  obtain ⟨hu, hu0, _⟩ := u_tiny hf
  have hδ0 : 0 ≤ δ := le_trans (abs_nonneg _) hd
  have hy0 : (0.0404 : ℝ) ≤ y.val := by
    have a : ((FP.lit 0.040449936 : FP f).val : ℝ) < y.val := by exact_mod_cast h0
    have b := (abs_le.1 ly).1
    generalize ((FP.lit 0.040449936 : FP f).val : ℝ) = z at *
    norm_num at b hu ⊢
    linarith
  have hxl : (0.0031 : ℝ) ≤ x.val := by
    have a : ((FP.lit 0.0031308 : FP f).val : ℝ) < x.val := by exact_mod_cast h2
    have b := (abs_le.1 lx).1
    generalize ((FP.lit 0.0031308 : FP f).val : ℝ) = z at *
    norm_num at b hu ⊢
    linarith
  have hyp : (0:ℝ) < y.val := lt_of_lt_of_le (by norm_num) hy0
  have hy1 : (y.val : ℝ) ≤ 1 := by exact_mod_cast h1
  have hD1 : (((y.val : ℝ) + 0.055) / 1.055) ^ (2.4 : ℝ) ≤ 1 := by
    refine Real.rpow_le_one (by positivity) ?_ (by norm_num)
    rw [div_le_one (by norm_num)]; linarith
  have hD0 : (0.0031 : ℝ) ≤ (((y.val : ℝ) + 0.055) / 1.055) ^ (2.4 : ℝ) := by
    have e1 : ((0.0404 : ℝ) + 0.055) / 1.055 ≤ ((y.val : ℝ) + 0.055) / 1.055 := by
      rw [div_le_div_iff_of_pos_right (by norm_num)]; linarith
    refine le_trans ?_ (Real.rpow_le_rpow (by norm_num) e1 (by norm_num))
    have h : (((0.0404 + 0.055) / 1.055 : ℝ) ^ (2.4 : ℝ)) ^ (5 : ℕ) =
        ((0.0404 + 0.055) / 1.055 : ℝ) ^ (12 : ℕ) := by
      rw [← Real.rpow_natCast, ← Real.rpow_mul (by norm_num), ← Real.rpow_natCast]
      norm_num
    refine le_of_pow_le_pow_left₀ (n := 5) (by norm_num) (by positivity) ?_
    rw [h]; norm_num
  have hinv := srgb_inner hyp.le
  set D := (((y.val : ℝ) + 0.055) / 1.055) ^ (2.4 : ℝ) with hDD
  set d := ((decode.srgb_t y).val : ℝ) with hdd
  obtain ⟨sm0, sm1⟩ := RelF.small hf (n := 21) (by norm_num) (by norm_num)
  have ed := abs_le.1 (hD.err.to_abs sm0 (le_trans sm1 (by norm_num)))
  have tk : 21 * kap f * (1 + 21 * kap f) ≤ 21.1 * f.u := by
    have e : 21 * kap f * (1 + 21 * kap f) = f.u * (21 * (1 + 1 / 10 ^ 4) * (1 + 21 * kap f)) := by
      unfold kap; ring
    rw [e, mul_comm (21.1 : ℝ)]
    refine mul_le_mul_of_nonneg_left ?_ hu0.le
    norm_num at sm1 ⊢; linarith
  have tD : D * (21 * kap f * (1 + 21 * kap f)) ≤ 1 * (21.1 * f.u) :=
    mul_le_mul hD1 tk (by positivity) (by norm_num)
  obtain ⟨g1, g2⟩ := abs_le.1 hd
  have hxD : |(x.val : ℝ) - D| ≤ δ + 21.1 * f.u := by
    rw [abs_le]; constructor <;> linarith [ed.1, ed.2]
  obtain ⟨k1, k2⟩ := abs_le.1 hxD
  have hx1 : x.val ≤ 7 / 5 := by
    have : (x.val : ℝ) ≤ 7 / 5 := by norm_num at hu k2 ⊢; linarith
    qcast this
  obtain ⟨s1, s2⟩ := srgb_enc_abs hf hp hx h2 hx1
  refine ⟨s1, ?_⟩
  have lip := srgb_lip hxl hD0
  obtain ⟨l1, l2⟩ := abs_le.1 lip
  obtain ⟨e3, e4⟩ := abs_le.1 s2
  have m : 12.5 * |(x.val : ℝ) - D| ≤ 12.5 * (δ + 21.1 * f.u) :=
    mul_le_mul_of_nonneg_left hxD (by norm_num)
  generalize ((encode.srgb_t x).val : ℝ) = w at *
  generalize (x.val : ℝ) ^ (1 / 2.4 : ℝ) = P at *
  generalize D ^ (1 / 2.4 : ℝ) = Q at *
  generalize |(x.val : ℝ) - D| = A at *
  rw [abs_le]
  norm_num at e3 e4 l1 l2 m hinv ⊢
  constructor <;> linarith

/-- the encoding threshold lies on the power branch at the decoding threshold, almost -/
theorem srgb_seam_low : (0.0404499 : ℝ) + 0.055 ≤ 1.055 * (0.0031308 : ℝ) ^ (1 / 2.4 : ℝ) := by
  have h : ((0.0031308 : ℝ) ^ (1 / 2.4 : ℝ)) ^ (12 : ℕ) = (0.0031308 : ℝ) ^ (5 : ℕ) := by
    rw [← Real.rpow_natCast, ← Real.rpow_mul (by norm_num), ← Real.rpow_natCast]
    norm_num
  have : ((0.0404499 : ℝ) + 0.055) / 1.055 ≤ (0.0031308 : ℝ) ^ (1 / 2.4 : ℝ) := by
    refine le_of_pow_le_pow_left₀ (n := 12) (by norm_num) (by positivity) ?_
    rw [h]; norm_num
  rw [div_le_iff₀ (by norm_num)] at this
  linarith

theorem srgb_seam_high : 1.055 * (0.0031308 : ℝ) ^ (1 / 2.4 : ℝ) ≤ 0.040449936 + 0.055 := by
  have := Real.rpow_le_rpow (by norm_num) srgb_seam (by norm_num : (0:ℝ) ≤ 1 / 2.4)
  have h3 := srgb_inner (y := 0.040449936) (by norm_num)
  linarith

/-- decoded on the linear branch, encoded on the power branch -/
theorem srgb_lin_pow (hf : Std f) (hp : PowAccurate f) {y x : FP f} {δ : ℝ} (hy : y.isFinite = true)
    (h0 : 0 ≤ y.val) (h1 : y.val ≤ (FP.lit 0.040449936 : FP f).val) (hx : x.isFinite = true)
    (hδ : δ ≤ 1 / 1000)
    (hd : |(x.val : ℝ) - (decode.srgb_t y).val| ≤ δ)
    (h2 : (FP.lit 0.0031308 : FP f).val < x.val) :
    (encode.srgb_t x).isFinite = true ∧
    |((encode.srgb_t x).val : ℝ) - y.val| ≤ 30 * f.u + 14 * δ + 4 / 10 ^ 8 := by
  obtain ⟨_, a1, a2, a3⟩ := srgb_dec_lin hf hy h0 h1
  have ly := lit_abs hf (q := 0.040449936) (by norm_num) (by norm_num)
  have lx := lit_abs hf (q := 0.0031308) (by norm_num) (by norm_num)
  obtain ⟨hu, hu0, _⟩ := u_tiny hf
  have hδ0 : 0 ≤ δ := le_trans (abs_nonneg _) hd
  have hyr : (y.val : ℝ) ≤ 0.040449936 + f.u := by
    have a : (y.val : ℝ) ≤ ((FP.lit 0.040449936 : FP f).val : ℝ) := by exact_mod_cast h1
    have b := (abs_le.1 ly).2
    generalize ((FP.lit 0.040449936 : FP f).val : ℝ) = z at *
    norm_num at b hu ⊢
    linarith
  have hxl : (0.0031308 : ℝ) - f.u / 100 ≤ x.val := by
    have a : ((FP.lit 0.0031308 : FP f).val : ℝ) < x.val := by exact_mod_cast h2
    have b := (abs_le.1 lx).1
    generalize ((FP.lit 0.0031308 : FP f).val : ℝ) = z at *
    norm_num at b hu ⊢
    linarith
  obtain ⟨g1, g2⟩ := abs_le.1 hd
  obtain ⟨g3, g4⟩ := abs_le.1 a3
  have hxy : |(x.val : ℝ) - y.val / 12.92| ≤ δ + f.u / 100 := by
    rw [abs_le]; constructor <;> linarith
  obtain ⟨k1, k2⟩ := abs_le.1 hxy
  have hx1 : x.val ≤ 7 / 5 := by
    have : (x.val : ℝ) ≤ 7 / 5 := by norm_num at hu k2 hyr ⊢; linarith
    qcast this
  obtain ⟨s1, s2⟩ := srgb_enc_abs hf hp hx h2 hx1
  refine ⟨s1, ?_⟩
  have lip := srgb_lip (a := x.val) (b := 0.0031308) (by norm_num at hu hxl ⊢; linarith) (by norm_num)
  obtain ⟨l1, l2⟩ := abs_le.1 lip
  obtain ⟨e3, e4⟩ := abs_le.1 s2
  have q1 := srgb_seam_low
  have q2 := srgb_seam_high
  have m1 : |(x.val : ℝ) - 0.0031308| ≤ (x.val - 0.0031308) + f.u / 50 := by
    rw [abs_le]; constructor <;> linarith
  -- the encoder is increasing
  have mono : (0.0031308 : ℝ) ^ (1 / 2.4 : ℝ) - 12.5 * (f.u / 100) ≤ (x.val : ℝ) ^ (1 / 2.4 : ℝ) := by
    rcases le_total (0.0031308 : ℝ) x.val with h | h
    · have := Real.rpow_le_rpow (by norm_num) h (by norm_num : (0:ℝ) ≤ 1 / 2.4)
      linarith
    · have : |(x.val : ℝ) - 0.0031308| ≤ f.u / 100 := by rw [abs_le]; constructor <;> linarith
      linarith
  generalize ((encode.srgb_t x).val : ℝ) = w at *
  generalize (x.val : ℝ) ^ (1 / 2.4 : ℝ) = P at *
  generalize (0.0031308 : ℝ) ^ (1 / 2.4 : ℝ) = Q at *
  generalize |(x.val : ℝ) - 0.0031308| = A at *
  rw [abs_le]
  norm_num at e3 e4 l1 l2 m1 q1 q2 k1 k2 hyr hxl mono ⊢
  constructor <;> linarith

/-- encoding a value within `δ` of the decoded component gives the component to within 14 δ -/
theorem srgb_close (hf : Std f) (hp : PowAccurate f) {y x : FP f} {δ : ℝ} (hy : y.isFinite = true)
    (h0 : 0 ≤ y.val) (h1 : y.val ≤ 1) (hx : x.isFinite = true) (hδ : δ ≤ 1 / 1000)
    (hd : |(x.val : ℝ) - (decode.srgb_t y).val| ≤ δ) :
    (encode.srgb_t x).isFinite = true ∧
    |((encode.srgb_t x).val : ℝ) - y.val| ≤ 310 * f.u + 14 * δ + 4 / 10 ^ 8 := by
  obtain ⟨hu, hu0, _⟩ := u_tiny hf
  have hδ0 : 0 ≤ δ := le_trans (abs_nonneg _) hd
  rcases le_or_gt y.val (FP.lit 0.040449936 : FP f).val with h | h <;>
    rcases le_or_gt x.val (FP.lit 0.0031308 : FP f).val with h' | h'
  · obtain ⟨e1, e2⟩ := srgb_lin_lin hf hy h0 h hx hδ hd h'
    exact ⟨e1, by linarith⟩
  · obtain ⟨e1, e2⟩ := srgb_lin_pow hf hp hy h0 h hx hδ hd h'
    exact ⟨e1, by linarith⟩
  · obtain ⟨e1, e2⟩ := srgb_pow_lin hf hp hy h h1 hx hδ0 hδ hd h'
    exact ⟨e1, by linarith⟩
  · obtain ⟨e1, e2⟩ := srgb_pow_pow_near hf hp hy h h1 hx hδ hd h'
    exact ⟨e1, by linarith⟩

end srgb
end CS

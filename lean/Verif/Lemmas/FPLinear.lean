import Verif.Lemmas.BtClose
import Verif.Lemmas.FPNear

/-!
# Encoding a linear value and decoding it again
-/

namespace CS

/-- powers above 1 are Lipschitz on a bounded interval -/
theorem rpow_lip_up {M K a b r : ℝ} (hr : 1 ≤ r) (hK : r * M ^ (r - 1) ≤ K)
    (ha0 : 0 ≤ a) (ha : a ≤ M) (hb0 : 0 ≤ b) (hb : b ≤ M) : |a ^ r - b ^ r| ≤ K * |a - b| := by
  have := Convex.norm_image_sub_le_of_norm_hasDerivWithin_le (f := fun x : ℝ => x ^ r)
    (f' := fun x => r * x ^ (r - 1)) (s := Set.Icc 0 M) (C := K) (x := b) (y := a)
    (fun x _ => (Real.hasDerivAt_rpow_const (Or.inr hr)).hasDerivWithinAt)
    (fun x hx => by
      rw [Real.norm_eq_abs, abs_of_nonneg (mul_nonneg (by linarith) (Real.rpow_nonneg hx.1 _))]
      refine le_trans (mul_le_mul_of_nonneg_left ?_ (by linarith)) hK
      exact Real.rpow_le_rpow hx.1 hx.2 (by linarith))
    (convex_Icc 0 M) ⟨hb0, hb⟩ ⟨ha0, ha⟩
  simpa [Real.norm_eq_abs] using this

section
variable {f : Fmt} [Libm f]

theorem lin_val (hf : Std f) {x : FP f} {q : ℚ} (hx : x.isFinite = true) (h0 : 0 ≤ x.val) (h1 : x.val ≤ 1)
    (hq1 : 1 ≤ q) (hq2 : q ≤ 16) :
    (x * FP.lit q : FP f).val = roundQ f (x.val * (FP.lit q : FP f).val) := by
  have hl := Nr.lit hf (q := q) (le_trans (by norm_num) hq1) (le_trans hq2 (by norm_num))
  have q1 : (1:ℝ) ≤ q := by exact_mod_cast hq1
  have q2 : (q:ℝ) ≤ 16 := by exact_mod_cast hq2
  have x0 : (0:ℝ) ≤ x.val := by exact_mod_cast h0
  have x1 : (x.val : ℝ) ≤ 1 := by exact_mod_cast h1
  refine (FP.mul_finite' hx hl.fin (roundQ_lt (Nr.small_abs hf (q := x.val * (FP.lit q : FP f).val) ?_))).2
  have b1 := hl.abs_le hf (A := 16) (by rw [abs_of_nonneg (by linarith)]; exact q2) (by norm_num; linarith)
  push_cast
  rw [abs_mul, abs_of_nonneg x0]
  have : |((FP.lit q : FP f).val : ℝ)| ≤ 32 := b1.trans (by norm_num; linarith)
  have := mul_le_mul x1 this (abs_nonneg _) (by norm_num)
  exact this.trans (by norm_num)

/-- multiplying by a constant, near zero too -/
theorem lin_mul (hf : Std f) {x : FP f} {q : ℚ} (hx : x.isFinite = true) (h0 : 0 ≤ x.val)
    {M : ℝ} (h1 : (x.val : ℝ) ≤ M) (hM : M ≤ 1) (hq1 : 1 ≤ q) (hq2 : q ≤ 16) :
    Nr (x * FP.lit q) (x.val * q) (2.001 * M * q + 1 / 100) ∧ 0 ≤ (x * FP.lit q : FP f).val := by
  have hl := Nr.lit hf (q := q) (le_trans (by norm_num) hq1) (le_trans hq2 (by norm_num))
  have q1 : (1:ℝ) ≤ q := by exact_mod_cast hq1
  have q2 : (q:ℝ) ≤ 16 := by exact_mod_cast hq2
  have x0 : (0:ℝ) ≤ x.val := by exact_mod_cast h0
  have M0 : 0 ≤ M := x0.trans h1
  have xm : (x.val : ℝ) * q ≤ M * q := mul_le_mul_of_nonneg_right h1 (by linarith)
  have mq : M * q ≤ 16 := by nlinarith
  have mq0 : 0 ≤ M * q := by positivity
  have h2 := (Nr.exact hx).mul hf hl (A := M) (B := q) (P := M * q) (K := 2.001 * M * q + 1 / 100)
    (by rwa [abs_of_nonneg x0]) (by rw [abs_of_nonneg (by linarith)])
    (by rw [abs_of_nonneg (by positivity)]; exact xm) (by norm_num; linarith) (by norm_num; linarith) (by norm_num; linarith)
  refine ⟨h2, ?_⟩
  have lp := lit_pos (RelF.litE hf (q := q) (le_trans (by norm_num) hq1) (le_trans hq2 (by norm_num)))
  rw [lin_val hf hx h0 (by have := h1.trans hM; exact_mod_cast this) hq1 hq2]
  exact roundQ_nonneg f (mul_nonneg h0 lp.le)

theorem lin_mono (hf : Std f) {x t : FP f} {q : ℚ} (hx : x.isFinite = true) (h0 : 0 ≤ x.val) (ht : t.isFinite = true)
    (hxt : x.val ≤ t.val) (h1 : t.val ≤ 1) (hq1 : 1 ≤ q) (hq2 : q ≤ 16) :
    (x * FP.lit q : FP f).val ≤ (t * FP.lit q : FP f).val := by
  have lp := lit_pos (RelF.litE hf (q := q) (le_trans (by norm_num) hq1) (le_trans hq2 (by norm_num)))
  rw [lin_val hf hx h0 (hxt.trans h1) hq1 hq2, lin_val hf ht (h0.trans hxt) h1 hq1 hq2]
  exact roundQ_mono f (mul_le_mul_of_nonneg_right hxt lp.le)

/-- multiplying by a constant and dividing by it -/
theorem lin_trip (hf : Std f) {x : FP f} {q : ℚ} (hx : x.isFinite = true) (h0 : 0 ≤ x.val)
    {M : ℝ} (h1 : (x.val : ℝ) ≤ M) (hM : M ≤ 1) (hq1 : 1 ≤ q) (hq2 : q ≤ 16) :
    Nr (x * FP.lit q / FP.lit q) (x.val : ℝ) (4.1 * M + 1 / 20) := by
  obtain ⟨h2, _⟩ := lin_mul hf hx h0 h1 hM hq1 hq2
  have hl := Nr.lit hf (q := q) (le_trans (by norm_num) hq1) (le_trans hq2 (by norm_num))
  have q1 : (1:ℝ) ≤ q := by exact_mod_cast hq1
  have q2 : (q:ℝ) ≤ 16 := by exact_mod_cast hq2
  have x0 : (0:ℝ) ≤ x.val := by exact_mod_cast h0
  have M0 : 0 ≤ M := x0.trans h1
  have e : (x.val : ℝ) * q / q = x.val := by field_simp
  have s : (2.001 * M * q + 1 / 100 + M * (1.001 * q)) / q ≤ 3.002 * M + 1 / 100 := by
    rw [div_le_iff₀ (by linarith)]
    have : (1:ℝ) / 100 ≤ 1 / 100 * q := by linarith
    linarith
  have h3 := h2.div hf hl (b0 := q) (Q := M) (K := 4.1 * M + 1 / 20) (by linarith) le_rfl
    (by rw [e, abs_of_nonneg x0]; exact h1) (by norm_num; linarith) (by norm_num; linarith)
    (s.trans (by norm_num; linarith))
    (by norm_num at s ⊢; linarith)
  rw [e] at h3
  exact h3

/-- sRGB decoding, power branch, a little above 1 too -/
theorem srgb_dec_pow' (hf : Std f) (hp : PowAccurate f) {y : FP f} (hy : y.isFinite = true)
    (h0 : (FP.lit 0.040449936 : FP f).val < y.val) (h1 : (y.val : ℝ) ≤ 1.01) :
    RelF 21 (decode.srgb_t y) ((((y.val : ℝ) + 0.055) / 1.055) ^ (2.4 : ℝ)) := by
  have hl := RelF.litE hf (q := 0.040449936) (by norm_num) (by norm_num)
  have e : decode.srgb_t y = Flt.powf ((y + FP.lit 0.055) / FP.lit 1.055) (FP.lit 2.4) := by
    unfold decode.srgb_t
    have : Flt.le y (Flt.lit 0.040449936) = false := by
      show FP.le y (FP.lit 0.040449936) = false
      rw [FP.le_finite hy hl.fin]; simpa using h0
    rw [this]; rfl
  have ly := lit_abs hf (q := 0.040449936) (by norm_num) (by norm_num)
  have hu : (f.u : ℝ) ≤ 1 / 2 ^ 24 := by qcast hf.hu
  have hu0 : (0:ℝ) < f.u := by exact_mod_cast f.u_pos
  have hyl : (0.0404 : ℝ) ≤ y.val := by
    have : ((FP.lit 0.040449936 : FP f).val : ℝ) < y.val := by exact_mod_cast h0
    have := (abs_le.1 ly).1
    norm_num at this hu ⊢
    linarith
  have hyp : 0 < y.val := by
    have : (0:ℝ) < y.val := by linarith
    exact_mod_cast this
  have a1 := ((RelF.exact hy hyp).mono (n := 1) (by norm_num)).add hf
    (RelF.litE hf (q := 0.055) (by norm_num) (by norm_num)) (by norm_num) (by norm_num)
    (by norm_num at h1 ⊢; linarith)
  have a2 := a1.div hf (RelF.litE hf (q := 1.055) (by norm_num) (by norm_num)) (by norm_num)
    (by norm_num) (by norm_num) (by norm_num at h1 ⊢; linarith) (by norm_num at h1 ⊢; linarith)
  have a3 := a2.powf hf hp (RelF.litE hf (q := 2.4) (by norm_num) (by norm_num)) (N := 21)
    (L := 4 * (6932 / 10000)) (by norm_num) (by norm_num) (by norm_num) (by norm_num)
    (by norm_num at h1 ⊢; linarith) (by norm_num at h1 ⊢; linarith) (by norm_num) (by norm_num)
    (by
      have := abs_log_le (X := ((y.val : ℝ) + ((0.055 : ℚ) : ℝ)) / ((1.055 : ℚ) : ℝ)) 4
        (by norm_num at h1 ⊢; linarith) (by norm_num at h1 ⊢; linarith)
      exact_mod_cast this)
    (by norm_num) (by norm_num)
  rw [e]
  exact a3.congr (by norm_num)

/-- the sRGB power curve is Lipschitz -/
theorem srgb_curve_lip {a b : ℝ} (ha0 : 0 ≤ a) (ha : a ≤ 1.01) (hb0 : 0 ≤ b) (hb : b ≤ 1.01) :
    |((a + 0.055) / 1.055) ^ (2.4 : ℝ) - ((b + 0.055) / 1.055) ^ (2.4 : ℝ)| ≤ 2.35 * |a - b| := by
  have h := rpow_lip_up (M := 1.01) (K := 2.45) (a := (a + 0.055) / 1.055) (b := (b + 0.055) / 1.055)
    (r := 2.4) (by norm_num) ?_ (by positivity) (by norm_num at ha ⊢; linarith) (by positivity)
    (by norm_num at hb ⊢; linarith)
  · rw [← sub_div, abs_div, abs_of_pos (by norm_num : (0:ℝ) < 1.055), add_sub_add_right_eq_sub] at h
    refine h.trans ?_
    rw [mul_div_assoc', div_le_iff₀ (by norm_num)]
    nlinarith [abs_nonneg (a - b)]
  · have e : (1.01 : ℝ) ^ (2.4 - 1 : ℝ) ≤ 1.02 := by
      have h5 : ((1.01 : ℝ) ^ (2.4 - 1 : ℝ)) ^ (5:ℕ) = (1.01 : ℝ) ^ (7:ℕ) := by
        rw [← Real.rpow_natCast, ← Real.rpow_mul (by norm_num), ← Real.rpow_natCast]; norm_num
      refine le_of_pow_le_pow_left₀ (n := 5) (by norm_num) (by norm_num) ?_
      rw [h5]; norm_num
    calc _ ≤ (2.4 : ℝ) * 1.02 := mul_le_mul_of_nonneg_left e (by norm_num)
      _ ≤ _ := by norm_num

/-- encoding undone by the power curve -/
theorem srgb_inner' {x : ℝ} (hx : 0 ≤ x) :
    ((1.055 * x ^ (1 / 2.4 : ℝ) - 0.055 + 0.055) / 1.055) ^ (2.4 : ℝ) = x := by
  rw [show (1.055 * x ^ (1 / 2.4 : ℝ) - 0.055 + 0.055) / 1.055 = x ^ (1 / 2.4 : ℝ) by ring,
    ← Real.rpow_mul hx, show (1 / 2.4 : ℝ) * 2.4 = 1 by norm_num, Real.rpow_one]

theorem srgb_seam_up : ((0.040449936 + 0.055) / 1.055 : ℝ) ^ (2.4 : ℝ) ≤ 0.0031308023 := by
  have h : (((0.040449936 + 0.055) / 1.055 : ℝ) ^ (2.4 : ℝ)) ^ (5 : ℕ) =
      ((0.040449936 + 0.055) / 1.055 : ℝ) ^ (12 : ℕ) := by
    rw [← Real.rpow_natCast, ← Real.rpow_mul (by norm_num), ← Real.rpow_natCast]
    norm_num
  refine le_of_pow_le_pow_left₀ (n := 5) (by norm_num) (by norm_num) ?_
  rw [h]; norm_num

/-- encoding a linear sRGB component and decoding it -/
theorem srgb_linear (hf : Std f) (hp : PowAccurate f)
    (hseam : ((FP.lit 0.0031308 : FP f) * FP.lit 12.92).val ≤ (FP.lit 0.040449936 : FP f).val)
    {x : FP f} (hx : x.isFinite = true) (h0 : 0 ≤ x.val) (h1 : x.val ≤ 1) :
    (decode.srgb_t (encode.srgb_t x)).isFinite = true ∧
    |((decode.srgb_t (encode.srgb_t x)).val : ℝ) - x.val| ≤ 75 * f.u + 6 / 10 ^ 9 := by
  have hl := RelF.litE hf (q := 0.0031308) (by norm_num) (by norm_num)
  have hl2 := RelF.litE hf (q := 0.040449936) (by norm_num) (by norm_num)
  obtain ⟨u0, u1, _, _⟩ := u_facts hf
  have lx := abs_le.1 (lit_abs hf (q := 0.0031308) (by norm_num) (by norm_num))
  have ly := abs_le.1 (lit_abs hf (q := 0.040449936) (by norm_num) (by norm_num))
  have x0 : (0:ℝ) ≤ x.val := by exact_mod_cast h0
  have x1 : (x.val : ℝ) ≤ 1 := by exact_mod_cast h1
  rcases le_or_gt x.val (FP.lit 0.0031308 : FP f).val with h | h
  · have hr : (x.val : ℝ) ≤ (FP.lit 0.0031308 : FP f).val := by exact_mod_cast h
    have e : encode.srgb_t x = x * FP.lit 12.92 := by
      unfold encode.srgb_t
      have : Flt.le x (Flt.lit 0.0031308) = true := by
        show FP.le x (FP.lit 0.0031308) = true
        rw [FP.le_finite hx hl.fin]; simpa using h
      rw [this]; rfl
    have xm : (x.val : ℝ) ≤ 0.004 := by
      have := lx.2
      norm_num at this u1 ⊢; linarith
    have tq : (FP.lit 0.0031308 : FP f).val ≤ 1 := by
      have : ((FP.lit 0.0031308 : FP f).val : ℝ) ≤ 1 := by
        have := lx.2
        norm_num at this u1 ⊢; linarith
      exact_mod_cast this
    obtain ⟨b1, b2⟩ := lin_mul hf (q := 12.92) hx h0 xm (by norm_num) (by norm_num) (by norm_num)
    have b3 := (lin_mono hf (q := 12.92) hx h0 hl.fin h tq (by norm_num) (by norm_num)).trans hseam
    have e2 := (srgb_dec_lin hf b1.fin b2 b3).1
    rw [e, e2]
    have t := lin_trip hf (q := 12.92) hx h0 xm (by norm_num) (by norm_num) (by norm_num)
    refine ⟨t.fin, t.err.trans ?_⟩
    norm_num; linarith
  · obtain ⟨a1, a2⟩ := srgb_enc_abs hf hp hx h (h1.trans (by norm_num))
    have hr : ((FP.lit 0.0031308 : FP f).val : ℝ) < x.val := by exact_mod_cast h
    have xl : (0.0031308 : ℝ) - f.u / 100 ≤ x.val := by
      have := lx.1
      norm_num at this u1 ⊢; linarith
    set Y : ℝ := 1.055 * (x.val : ℝ) ^ (1 / 2.4 : ℝ) - 0.055 with hY
    have Yx : ((Y + 0.055) / 1.055) ^ (2.4 : ℝ) = x.val := srgb_inner' x0
    have Y1 : Y ≤ 1 := by
      have : (x.val : ℝ) ^ (1 / 2.4 : ℝ) ≤ 1 := Real.rpow_le_one x0 x1 (by norm_num)
      rw [hY]; norm_num at this ⊢; linarith
    have Yl : (0.0404499 : ℝ) - f.u / 7 ≤ Y := by
      have h2 := srgb_seam_low
      rcases le_or_gt (0.0031308 : ℝ) x.val with hc | hc
      · have := Real.rpow_le_rpow (by norm_num) hc (by norm_num : (0:ℝ) ≤ 1 / 2.4)
        rw [hY]; linarith
      · have := srgb_lip (a := 0.0031308) (b := x.val) (by norm_num) (by norm_num at u1 xl ⊢; linarith)
        have h3 := (abs_le.1 this).2
        rw [abs_of_pos (by linarith)] at h3
        rw [hY]; norm_num at h3 xl h2 ⊢; linarith
    have Y0 : 0 ≤ Y := by norm_num at Yl u1; linarith
    generalize hy : encode.srgb_t x = y at *
    obtain ⟨a3, a4⟩ := abs_le.1 a2
    have yu : (y.val : ℝ) ≤ 1.01 := by norm_num at u1 ⊢; linarith
    have yl : (0.04 : ℝ) ≤ y.val := by norm_num at u1 Yl ⊢; linarith
    rcases le_or_gt y.val (FP.lit 0.040449936 : FP f).val with k | k
    · obtain ⟨_, c1, _, c2⟩ := srgb_dec_lin hf a1 (by
        have : (0:ℝ) ≤ y.val := by linarith
        exact_mod_cast this) k
      refine ⟨c1, ?_⟩
      have kr : (y.val : ℝ) ≤ 0.040449936 + f.u / 20 := by
        have h3 : (y.val : ℝ) ≤ (FP.lit 0.040449936 : FP f).val := by exact_mod_cast k
        have := ly.2
        norm_num at this u1 ⊢; linarith
      have Yu : Y ≤ 0.040449936 + 21.1 * f.u := by norm_num at kr a3 ⊢; linarith
      have xu : (x.val : ℝ) ≤ 0.0031308023 + 50 * f.u := by
        rcases le_or_gt Y 0.040449936 with hc | hc
        · have h4 := Real.rpow_le_rpow (z := 2.4) (div_nonneg (by linarith : 0 ≤ Y + 0.055) (by norm_num))
            (div_le_div_of_nonneg_right (by linarith : Y + 0.055 ≤ 0.040449936 + 0.055) (by norm_num : (0:ℝ) ≤ 1.055))
            (by norm_num)
          rw [Yx] at h4
          linarith [srgb_seam_up]
        · have h4 := srgb_curve_lip (a := Y) (b := 0.040449936) (by linarith) (by linarith) (by norm_num) (by norm_num)
          rw [Yx, abs_of_pos (sub_pos.2 hc)] at h4
          have h5 := (abs_le.1 h4).2
          have := srgb_seam_up
          norm_num at h5 this Yu ⊢; linarith
      obtain ⟨c3, c4⟩ := abs_le.1 c2
      rw [abs_le]
      constructor <;> norm_num at c3 c4 kr Yl a3 xu xl ⊢ <;> linarith
    · have d := (srgb_dec_pow' hf hp a1 k yu)
      have dl := srgb_curve_lip (a := y.val) (b := Y) (by linarith) yu (by norm_num at Yl u1; linarith) (by linarith)
      rw [Yx] at dl
      have dv : (((y.val : ℝ) + 0.055) / 1.055) ^ (2.4 : ℝ) ≤ 1.01 := by
        have h5 := (abs_le.1 (dl.trans (mul_le_mul_of_nonneg_left a2 (by norm_num)))).2
        norm_num at h5 u1 ⊢; linarith
      have n := Nr.of_rel hf d (by norm_num) (by norm_num) dv
      refine ⟨n.fin, ?_⟩
      have h6 := abs_add_le ((decode.srgb_t y).val - (((y.val : ℝ) + 0.055) / 1.055) ^ (2.4 : ℝ))
        ((((y.val : ℝ) + 0.055) / 1.055) ^ (2.4 : ℝ) - x.val)
      rw [sub_add_sub_cancel] at h6
      have h7 := n.err
      have h8 := dl.trans (mul_le_mul_of_nonneg_left a2 (by norm_num))
      generalize (((y.val : ℝ) + 0.055) / 1.055) ^ (2.4 : ℝ) = D at *
      norm_num at h7 h8 ⊢; linarith

/-- the unit in the last place of a binade -/
theorem qexp_binade {q : ℚ} {k : ℤ} (hk : f.emin ≤ k) (h1 : (2:ℚ) ^ k ≤ q) (h2 : q < 2 ^ (k + 1)) :
    qexp f q = k - (f.p - 1) := by
  have h0 : 0 < q := lt_of_lt_of_le (by positivity) h1
  have e : Int.log 2 |q| = k := by
    rw [abs_of_pos h0]
    have a : k ≤ Int.log 2 q := (Int.zpow_le_iff_le_log (by norm_num) h0).1 (by exact_mod_cast h1)
    have b : Int.log 2 q < k + 1 := (Int.lt_zpow_iff_log_lt (by norm_num) h0).1 (by exact_mod_cast h2)
    omega
  unfold qexp
  rw [e, max_eq_left hk]

/-- floats between 1/64 and 1/32 stay distinct when multiplied by 4.5 -/
theorem step_gap (hf : Std f) {a b : ℚ} (ha : IsRep f a) (hb : IsRep f b) (h1 : 1 / 64 ≤ a) (h2 : b < 1 / 32)
    (hb2 : 9 / 2 * b < 1 / 8) (hab : a < b) : roundQ f (a * (9 / 2)) < roundQ f (b * (9 / 2)) := by
  have hE : f.emin ≤ -6 := by
    have := hf.wide.hmax
    unfold Fmt.emin
    by_contra hc
    have hm : f.emax ≤ 6 := by omega
    have : (2:ℚ) ^ f.emax ≤ 2 ^ 6 := pow_le_pow_right₀ (by norm_num) hm
    have h3 := hf.wide.hmax
    norm_num at this h3
    linarith
  have ea := qexp_binade (f := f) (q := a) (k := -6) hE (by norm_num at h1 ⊢; exact h1) (by norm_num at h2 ⊢; linarith)
  have eb := qexp_binade (f := f) (q := b) (k := -6) hE (by norm_num at h1 ⊢; linarith) (by norm_num at h2 ⊢; linarith)
  have ea' := qexp_binade (f := f) (q := a * (9 / 2)) (k := -4) (by omega) (by norm_num at h1 ⊢; linarith)
    (by norm_num at hb2 ⊢; linarith)
  have eb' := qexp_binade (f := f) (q := b * (9 / 2)) (k := -4) (by omega) (by norm_num at h1 ⊢; linarith)
    (by norm_num at hb2 ⊢; linarith)
  have ra := ha.1
  have rb := hb.1
  unfold roundQ at ra rb ⊢
  rw [ea] at ra
  rw [eb] at rb
  rw [ea', eb']
  set U : ℚ := 2 ^ (-6 - ((f.p : ℤ) - 1)) with hU
  have U0 : 0 < U := by positivity
  have e4 : (2:ℚ) ^ (-4 - ((f.p : ℤ) - 1)) = 4 * U := by
    rw [hU, show (-4 - ((f.p : ℤ) - 1)) = 2 + (-6 - ((f.p : ℤ) - 1)) by ring, zpow_add₀ (by norm_num)]
    norm_num
  rw [e4]
  generalize rne (a / U) = m at *
  generalize rne (b / U) = n at *
  have hmn : m < n := by
    by_contra hc
    have : (n:ℚ) ≤ m := by exact_mod_cast not_lt.1 hc
    have := mul_le_mul_of_nonneg_right this U0.le
    linarith
  have hmn' : (m:ℚ) + 1 ≤ n := by exact_mod_cast hmn
  have x1 := abs_le.1 (rne_err (a * (9 / 2) / (4 * U)))
  have x2 := abs_le.1 (rne_err (b * (9 / 2) / (4 * U)))
  have d1 : a * (9 / 2) / (4 * U) = 9 / 8 * m := by rw [← ra]; field_simp; ring
  have d2 : b * (9 / 2) / (4 * U) = 9 / 8 * n := by rw [← rb]; field_simp; ring
  rw [d1] at x1 ⊢
  rw [d2] at x2 ⊢
  refine mul_lt_mul_of_pos_right ?_ (by positivity)
  linarith [x1.2, x2.1]

/-- BT encoding, power branch, in units of rounding -/
theorem bt_enc_nr (hf : Std f) (hp : PowAccurate f) {A B x : FP f} (hA : RelF 1 A 1.099)
    (hB : RelF 13 B 0.099) (hx : x.isFinite = true) (h0 : (0.0179 : ℝ) ≤ x.val) (h1 : (x.val : ℝ) ≤ 1) :
    Nr (A * Flt.powf x (FP.lit 0.45) - B) (1.099 * (x.val : ℝ) ^ (0.45 : ℝ) - 0.099) 11.1 := by
  have xp : 0 < x.val := by
    have : (0:ℝ) < x.val := lt_of_lt_of_le (by norm_num) h0
    exact_mod_cast this
  have a2 := (RelF.exact hx xp).powf hf hp (RelF.litE hf (q := 0.45) (by norm_num) (by norm_num)) (N := 5.9)
    (L := 6 * (6932 / 10000)) le_rfl (by norm_num) (by norm_num) (by norm_num)
    (by norm_num at h0 ⊢; linarith) (by norm_num at h1 ⊢; linarith) (by norm_num) (by norm_num)
    (by
      have := abs_log_le (X := (x.val : ℝ)) 6 (by norm_num at h0 ⊢; linarith) (by norm_num at h1 ⊢; linarith)
      exact_mod_cast this)
    (by norm_num) (by norm_num)
  have e : ((0.45 : ℚ) : ℝ) = (0.45 : ℝ) := by norm_num
  rw [e] at a2
  have b2 : (x.val : ℝ) ^ (0.45 : ℝ) ≤ 1 := Real.rpow_le_one (by exact_mod_cast xp.le) h1 (by norm_num)
  have b1 : (0.15 : ℝ) ≤ (x.val : ℝ) ^ (0.45 : ℝ) := by
    apply le_pow45 (by norm_num at h0; linarith) (by norm_num)
    calc (0.15:ℝ) ^ 20 ≤ (0.0179:ℝ) ^ 9 := by norm_num
      _ ≤ _ := pow_le_pow_left₀ (by norm_num) h0 9
  have a4 := hA.mul hf a2 (by norm_num) (by norm_num) (by norm_num)
    (by norm_num at b1 ⊢; linarith) (by norm_num at b2 ⊢; linarith)
  have n1 := Nr.of_rel hf a4 (A := 1.099) (by norm_num) (by norm_num) (by norm_num at b2 ⊢; linarith)
  have n2 := Nr.of_rel hf hB (A := 0.099) (by norm_num) (by norm_num) le_rfl
  refine n1.sub hf n2 (B := 1) ?_ (by norm_num) (by norm_num) (by norm_num)
  rw [abs_le]
  norm_num at b1 b2 ⊢
  constructor <;> linarith

/-- BT decoding, power branch, a little above 1 too -/
theorem bt_dec' (hf : Std f) (hp : PowAccurate f) {A B y : FP f} (hA : RelF 1 A 1.099)
    (hB : RelF 13 B 0.099) (hy : y.isFinite = true) (h0 : (0.08 : ℝ) ≤ y.val) (h1 : (y.val : ℝ) ≤ 1.01) :
    RelF 50 (Flt.powf ((y + B) / A) (FP.lit 1.0 / FP.lit 0.45))
      ((((y.val : ℝ) + 0.099) / 1.099) ^ (1 / 0.45 : ℝ)) := by
  have hyp : 0 < y.val := by
    have : (0:ℝ) < y.val := by norm_num at h0; linarith
    exact_mod_cast this
  have a1 := ((RelF.exact hy hyp).mono (n := 13) (by norm_num)).add hf hB (by norm_num) (by norm_num)
    (by norm_num at h1 ⊢; linarith)
  have a2 := a1.div hf hA (by norm_num)
    (by norm_num) (by norm_num) (by norm_num at h0 ⊢; linarith) (by norm_num at h1 ⊢; linarith)
  have a3 := (RelF.one (f := f)).div hf (RelF.litE hf (q := 0.45) (by norm_num) (by norm_num))
    (by norm_num) (by norm_num) (by norm_num) (by norm_num) (by norm_num)
  have a4 := a2.powf hf hp a3 (N := 50)
    (L := 3 * (6932 / 10000)) (by norm_num) (by norm_num) (by norm_num) (by norm_num)
    (by norm_num at h0 ⊢; linarith) (by norm_num at h1 ⊢; linarith) (by norm_num) (by norm_num)
    (by
      have := abs_log_le (X := ((y.val : ℝ) + 0.099) / 1.099) 3
        (by norm_num at h0 ⊢; linarith) (by norm_num at h1 ⊢; linarith)
      exact_mod_cast this)
    (by norm_num) (by norm_num)
  exact a4.congr (by norm_num)

/-- the BT power curve is Lipschitz -/
theorem bt_curve_lip {a b : ℝ} (ha0 : 0 ≤ a) (ha : a ≤ 1.01) (hb0 : 0 ≤ b) (hb : b ≤ 1.01) :
    |((a + 0.099) / 1.099) ^ (1 / 0.45 : ℝ) - ((b + 0.099) / 1.099) ^ (1 / 0.45 : ℝ)| ≤ 2.1 * |a - b| := by
  have h := rpow_lip_up (M := 1.01) (K := 2.3) (a := (a + 0.099) / 1.099) (b := (b + 0.099) / 1.099)
    (r := 1 / 0.45) (by norm_num) ?_ (by positivity) (by norm_num at ha ⊢; linarith) (by positivity)
    (by norm_num at hb ⊢; linarith)
  · rw [← sub_div, abs_div, abs_of_pos (by norm_num : (0:ℝ) < 1.099), add_sub_add_right_eq_sub] at h
    refine h.trans ?_
    rw [mul_div_assoc', div_le_iff₀ (by norm_num)]
    nlinarith [abs_nonneg (a - b)]
  · have e : (1.01 : ℝ) ^ (1 / 0.45 - 1 : ℝ) ≤ 1.03 := by
      have h9 : ((1.01 : ℝ) ^ (1 / 0.45 - 1 : ℝ)) ^ (9:ℕ) = (1.01 : ℝ) ^ (11:ℕ) := by
        rw [← Real.rpow_natCast, ← Real.rpow_mul (by norm_num), ← Real.rpow_natCast]; norm_num
      refine le_of_pow_le_pow_left₀ (n := 9) (by norm_num) (by norm_num) ?_
      rw [h9]; norm_num
    calc _ ≤ (1 / 0.45 : ℝ) * 1.03 := mul_le_mul_of_nonneg_left e (by norm_num)
      _ ≤ _ := by norm_num

theorem bt_inner' {x : ℝ} (hx : 0 ≤ x) :
    ((1.099 * x ^ (0.45 : ℝ) - 0.099 + 0.099) / 1.099) ^ (1 / 0.45 : ℝ) = x := by
  rw [show (1.099 * x ^ (0.45 : ℝ) - 0.099 + 0.099) / 1.099 = x ^ (0.45 : ℝ) by ring,
    ← Real.rpow_mul hx, show (0.45 : ℝ) * (1 / 0.45) = 1 by norm_num, Real.rpow_one]

/-- power branch there and back -/
theorem bt_pow_linear (hf : Std f) (hp : PowAccurate f) {A B x : FP f} (hA : RelF 1 A 1.099)
    (hB : RelF 13 B 0.099) (hx : x.isFinite = true) (h0 : (0.01799 : ℝ) ≤ x.val) (h1 : (x.val : ℝ) ≤ 1) :
    (A * Flt.powf x (FP.lit 0.45) - B).isFinite = true ∧
    (0.0811 : ℝ) ≤ (A * Flt.powf x (FP.lit 0.45) - B).val ∧
    Nr (Flt.powf ((A * Flt.powf x (FP.lit 0.45) - B + B) / A) (FP.lit 1.0 / FP.lit 0.45)) (x.val : ℝ) 75 := by
  have n := bt_enc_nr hf hp hA hB hx (le_trans (by norm_num) h0) h1
  generalize A * Flt.powf x (FP.lit 0.45) - B = y at *
  obtain ⟨u0, u1, _, _⟩ := u_facts hf
  have x0 : (0:ℝ) ≤ x.val := le_trans (by norm_num) h0
  set Y : ℝ := 1.099 * (x.val : ℝ) ^ (0.45 : ℝ) - 0.099 with hY
  have Yx : ((Y + 0.099) / 1.099) ^ (1 / 0.45 : ℝ) = x.val := bt_inner' x0
  have Y1 : Y ≤ 1 := by
    have := Real.rpow_le_one x0 h1 (by norm_num : (0:ℝ) ≤ 0.45)
    rw [hY]; norm_num at this ⊢; linarith
  have Yl : (0.08115 : ℝ) ≤ Y := by
    have : (0.16395 : ℝ) ≤ (x.val : ℝ) ^ (0.45 : ℝ) := by
      apply le_pow45 x0 (by norm_num)
      calc (0.16395:ℝ) ^ 20 ≤ (0.01799:ℝ) ^ 9 := by norm_num
        _ ≤ _ := pow_le_pow_left₀ (by norm_num) h0 9
    rw [hY]; norm_num at this ⊢; linarith
  obtain ⟨a3, a4⟩ := abs_le.1 n.err
  have yu : (y.val : ℝ) ≤ 1.01 := by norm_num at u1 a4 ⊢; linarith
  have yl : (0.0811 : ℝ) ≤ y.val := by norm_num at u1 Yl a3 ⊢; linarith
  refine ⟨n.fin, yl, ?_⟩
  have d := bt_dec' hf hp hA hB n.fin (le_trans (by norm_num) yl) yu
  have dl := bt_curve_lip (a := y.val) (b := Y) (le_trans (by norm_num) yl) yu (le_trans (by norm_num) Yl)
    (le_trans Y1 (by norm_num))
  rw [Yx] at dl
  have h8 := dl.trans (mul_le_mul_of_nonneg_left n.err (by norm_num))
  have dv : (((y.val : ℝ) + 0.099) / 1.099) ^ (1 / 0.45 : ℝ) ≤ 1.01 := by
    have h5 := (abs_le.1 h8).2
    generalize (((y.val : ℝ) + 0.099) / 1.099) ^ (1 / 0.45 : ℝ) = D at *
    norm_num at h5 u1 ⊢; linarith
  have m := Nr.of_rel hf d (by norm_num) (by norm_num) dv
  refine ⟨m.fin, ?_⟩
  have h7 := m.err
  generalize (Flt.powf ((y + B) / A) (FP.lit 1.0 / FP.lit 0.45)) = z at *
  generalize (((y.val : ℝ) + 0.099) / 1.099) ^ (1 / 0.45 : ℝ) = D at *
  have h6 := abs_add_le (z.val - D) (D - x.val)
  rw [sub_add_sub_cancel] at h6
  norm_num at h7 h8 ⊢; linarith

/-- encoding a linear BT.709 component and decoding it -/
theorem bt709_linear (hf : Std f) (hp : PowAccurate f) {x : FP f} (hx : x.isFinite = true) (h0 : 0 ≤ x.val)
    (h1 : x.val ≤ 1) : Nr (decode.bt709_t (encode.bt709_t x)) (x.val : ℝ) 75 := by
  obtain ⟨t1, t2, t3⟩ := bt_threshold hf
  obtain ⟨s1, s2, s3⟩ := lit_between hf (q := 0.018) (lo := 0.017999) (hi := 0.018001) (by norm_num)
    (by norm_num) (by norm_num) (by norm_num)
  have hA := (RelF.litE hf (q := 1.099) (by norm_num) (by norm_num)).congr (Y := 1.099) (by norm_num)
  have hB := ((RelF.litE hf (q := 0.099) (by norm_num) (by norm_num)).mono (n := 13) (by norm_num)).congr
    (Y := 0.099) (by norm_num)
  have x1 : (x.val : ℝ) ≤ 1 := by exact_mod_cast h1
  have hle : Flt.le x (FP.lit 0.018) = decide (x.val ≤ (FP.lit 0.018 : FP f).val) := by
    rw [FP.flt_le, FP.le_finite hx s1]
  by_cases h : x.val ≤ (FP.lit 0.018 : FP f).val
  · have hr : (x.val : ℝ) ≤ (FP.lit 0.018 : FP f).val := by exact_mod_cast h
    have e : encode.bt709_t x = x * FP.lit 4.5 := by
      unfold encode.bt709_t
      simp only [FP.flt_lit, hle, h, decide_true, if_true]
    have xm : (x.val : ℝ) ≤ 0.019 := by norm_num at s3 ⊢; linarith
    have tq : (FP.lit 0.018 : FP f).val ≤ 1 := by
      have : ((FP.lit 0.018 : FP f).val : ℝ) ≤ 1 := by norm_num at s3 ⊢; linarith
      exact_mod_cast this
    obtain ⟨b1, _⟩ := lin_mul hf (q := 4.5) hx h0 xm (by norm_num) (by norm_num) (by norm_num)
    have b3 := lin_mono hf (q := 4.5) hx h0 s1 h tq (by norm_num) (by norm_num)
    have e2 : decode.bt709_t (x * FP.lit 4.5) = x * FP.lit 4.5 / FP.lit 4.5 := by
      unfold decode.bt709_t
      simp only [FP.flt_lit, FP.flt_le, FP.le_finite b1.fin t1, b3, decide_true, if_true]
    rw [e, e2]
    exact (lin_trip hf (q := 4.5) hx h0 xm (by norm_num) (by norm_num) (by norm_num)).mono (by norm_num)
  · have hr : ((FP.lit 0.018 : FP f).val : ℝ) ≤ x.val := by exact_mod_cast (not_le.1 h).le
    have e : encode.bt709_t x = FP.lit 1.099 * Flt.powf x (FP.lit 0.45) - FP.lit 0.099 := by
      unfold encode.bt709_t
      simp only [FP.flt_lit, hle, h, decide_false, if_false, Bool.false_eq_true]
    obtain ⟨y1, y2, y3⟩ := bt_pow_linear hf hp hA hB hx (by norm_num at s2 ⊢; linarith) x1
    rw [e]
    generalize (FP.lit 1.099 * Flt.powf x (FP.lit 0.45) - FP.lit 0.099 : FP f) = y at *
    have hy : ¬ y.val ≤ (FP.lit 0.018 * FP.lit 4.5 : FP f).val := by
      have : ((FP.lit 0.018 * FP.lit 4.5 : FP f).val : ℝ) < y.val :=
        lt_of_le_of_lt t3 (lt_of_lt_of_le (by norm_num) y2)
      exact not_le.2 (by exact_mod_cast this)
    have e2 : decode.bt709_t y = Flt.powf ((y + FP.lit 0.099) / FP.lit 1.099) (FP.lit 1.0 / FP.lit 0.45) := by
      unfold decode.bt709_t
      simp only [FP.flt_lit, FP.flt_le, FP.le_finite y1 t1, hy, decide_false, if_false, Bool.false_eq_true]
    rw [e2]
    exact y3

/-- encoding a linear BT.2020 component and decoding it -/
theorem bt2020_linear (hf : Std f) (hp : PowAccurate f) (h45 : (FP.lit 4.5 : FP f).val = 9 / 2)
    {x : FP f} (hx : x.isFinite = true) (h0 : 0 ≤ x.val)
    (h1 : x.val ≤ 1) : Nr (decode.bt2020_t (encode.bt2020_t x)) (x.val : ℝ) 75 := by
  obtain ⟨t1, t2, t3⟩ := bt_threshold hf
  obtain ⟨s1, s2, s3⟩ := lit_between hf (q := 0.018) (lo := 0.017999) (hi := 0.018001) (by norm_num)
    (by norm_num) (by norm_num) (by norm_num)
  have hA := (RelF.litE hf (q := 1.099) (by norm_num) (by norm_num)).congr (Y := 1.099) (by norm_num)
  have hB := bt2020_beta hf
  have x1 : (x.val : ℝ) ≤ 1 := by exact_mod_cast h1
  have hlt : Flt.lt x (FP.lit 0.018) = decide (x.val < (FP.lit 0.018 : FP f).val) := by
    rw [FP.flt_lt, FP.lt_finite hx s1]
  by_cases h : x.val < (FP.lit 0.018 : FP f).val
  · have hr : (x.val : ℝ) < (FP.lit 0.018 : FP f).val := by exact_mod_cast h
    have e : encode.bt2020_t x = x * FP.lit 4.5 := by
      unfold encode.bt2020_t
      simp only [FP.flt_lit, hlt, h, decide_true, if_true]
    have xm : (x.val : ℝ) ≤ 0.019 := by norm_num at s3 ⊢; linarith
    have tq : (FP.lit 0.018 : FP f).val ≤ 1 := by
      have : ((FP.lit 0.018 : FP f).val : ℝ) ≤ 1 := by norm_num at s3 ⊢; linarith
      exact_mod_cast this
    obtain ⟨b1, _⟩ := lin_mul hf (q := 4.5) hx h0 xm (by norm_num) (by norm_num) (by norm_num)
    have b3 : (x * FP.lit 4.5 : FP f).val < (FP.lit 0.018 * FP.lit 4.5 : FP f).val := by
      rcases lt_or_ge x.val (1 / 64) with hs | hs
      · have hs' : (x.val : ℝ) < 1 / 64 := by
          have := (Rat.cast_lt (K := ℝ)).2 hs
          push_cast at this
          exact this
        obtain ⟨c1, c2⟩ := abs_le.1 b1.err
        obtain ⟨u0, u1, _, _⟩ := u_facts hf
        have : ((x * FP.lit 4.5 : FP f).val : ℝ) < (FP.lit 0.018 * FP.lit 4.5 : FP f).val := by
          refine lt_of_lt_of_le ?_ t2
          generalize ((x * FP.lit 4.5 : FP f).val : ℝ) = z at *
          norm_num at c2 u1 hs' ⊢; linarith
        exact_mod_cast this
      · rw [lin_val hf hx h0 h1 (by norm_num) (by norm_num), lin_val hf s1 (h0.trans h.le) tq (by norm_num) (by norm_num),
          h45]
        have l3 : (FP.lit 0.018 : FP f).val ≤ 0.0181 := by
          have : ((FP.lit 0.018 : FP f).val : ℝ) ≤ ((0.0181 : ℚ) : ℝ) := by norm_num at s3 ⊢; linarith
          exact_mod_cast this
        norm_num at l3
        exact step_gap hf (FP.val_rep _) (FP.val_rep _) hs (by linarith) (by linarith) h
    have e2 : decode.bt2020_t (x * FP.lit 4.5) = x * FP.lit 4.5 / FP.lit 4.5 := by
      unfold decode.bt2020_t
      simp only [FP.flt_lit, FP.flt_lt, FP.lt_finite b1.fin t1, b3, decide_true, if_true]
    rw [e, e2]
    exact (lin_trip hf (q := 4.5) hx h0 xm (by norm_num) (by norm_num) (by norm_num)).mono (by norm_num)
  · have hr : ((FP.lit 0.018 : FP f).val : ℝ) ≤ x.val := by exact_mod_cast (not_lt.1 h)
    have e : encode.bt2020_t x = FP.lit 1.099 * Flt.powf x (FP.lit 0.45) - (FP.lit 1.099 - FP.lit 1.0) := by
      unfold encode.bt2020_t
      simp only [FP.flt_lit, hlt, h, decide_false, if_false, Bool.false_eq_true]
    obtain ⟨y1, y2, y3⟩ := bt_pow_linear hf hp hA hB hx (by norm_num at s2 ⊢; linarith) x1
    rw [e]
    generalize (FP.lit 1.099 * Flt.powf x (FP.lit 0.45) - (FP.lit 1.099 - FP.lit 1.0) : FP f) = y at *
    have hy : ¬ y.val < (FP.lit 0.018 * FP.lit 4.5 : FP f).val := by
      have : ((FP.lit 0.018 * FP.lit 4.5 : FP f).val : ℝ) < y.val :=
        lt_of_le_of_lt t3 (lt_of_lt_of_le (by norm_num) y2)
      exact not_lt.2 (by exact_mod_cast this.le)
    have e2 : decode.bt2020_t y =
        Flt.powf ((y + (FP.lit 1.099 - FP.lit 1.0)) / FP.lit 1.099) (FP.lit 1.0 / FP.lit 0.45) := by
      unfold decode.bt2020_t
      simp only [FP.flt_lit, FP.flt_lt, FP.lt_finite y1 t1, hy, decide_false, if_false, Bool.false_eq_true]
    rw [e2]
    exact y3

/-- encoding with exponent `1/g` and decoding with `g` -/
theorem gamma_linear (hf : Std f) (hp : PowAccurate f) {g : ℚ} (hg1 : 2 ≤ g) (hg2 : g ≤ 27 / 10)
    {y : FP f} (hy : y.isFinite = true) (h0 : 1 / 2 ^ 17 ≤ y.val) (h1 : y.val ≤ 1) :
    (Flt.powf (Flt.powf y (FP.ofQ f false 1.0 / FP.ofQ f false g)) (FP.ofQ f false g)).isFinite
      = true ∧
    |((Flt.powf (Flt.powf y (FP.ofQ f false 1.0 / FP.ofQ f false g)) (FP.ofQ f false g)).val : ℝ)
      - y.val| ≤ 63 * f.u * y.val := by
  have hy0 : (0:ℝ) < y.val := by
    exact_mod_cast lt_of_lt_of_le (by positivity : (0:ℚ) < 1 / 2 ^ 17) h0
  have h0r : (1:ℝ) / 2 ^ 17 ≤ y.val := by qcast h0
  have h1r : (y.val : ℝ) ≤ 1 := by exact_mod_cast h1
  have g1 : (2:ℝ) ≤ g := by exact_mod_cast hg1
  have g2 : (g:ℝ) ≤ 27 / 10 := by qcast hg2
  have hlog := abs_log_le (X := (y.val : ℝ)) 17 h0r (le_trans h1r (by norm_num))
  have hgi : (1:ℝ) / g ≤ 1 / 2 := one_div_le_one_div_of_le (by norm_num) g1
  have hgi2 : (10:ℝ) / 27 ≤ 1 / g := by
    rw [le_div_iff₀ (by linarith)]; linarith
  have hgg : (1 / g) * (g:ℝ) = 1 := by field_simp
  have a0 := RelF.ofQ hf (q := g) (le_trans (by norm_num) hg1) (le_trans hg2 (by norm_num))
  have a2 := (RelF.ofQ_one (f := f)).div hf a0
    (by norm_num) (by norm_num) (by norm_num) (le_trans (by norm_num) hgi2) (le_trans hgi (by norm_num))
  have a1 := (RelF.exact hy (by exact_mod_cast hy0)).powf hf hp a2 (N := 4 + 23.62 * (1 / g))
    (L := 17 * (6932 / 10000)) le_rfl (by norm_num) (by norm_num) (by norm_num)
    (le_trans (by norm_num) h0r) (by linarith) (by linarith) (by linarith) (by exact_mod_cast hlog)
    (by
      have : (17 * (6932 / 10000) + 1 / 1000) * ((0 + 1 + 1) * (1 + 1 / 1000)) ≤ (23.62 : ℝ) := by norm_num
      have := mul_le_mul_of_nonneg_right this (by linarith : (0:ℝ) ≤ 1 / g)
      linarith) (by norm_num at hgi ⊢; linarith)
  have hX2 : (y.val : ℝ) ^ (1 / (g:ℝ)) ≤ 1 := Real.rpow_le_one hy0.le h1r (by linarith)
  have hX1 : (1:ℝ) / 2 ^ 17 ≤ (y.val : ℝ) ^ (1 / (g:ℝ)) := by
    refine h0r.trans ?_
    have := Real.rpow_le_rpow_of_exponent_ge hy0 h1r (by linarith : 1 / (g:ℝ) ≤ 1)
    rwa [Real.rpow_one] at this
  have hlogX : |Real.log ((y.val : ℝ) ^ (1 / (g:ℝ)))| ≤ (1 / g) * (17 * (6932 / 10000)) := by
    rw [Real.log_rpow hy0, abs_mul, abs_of_pos (by linarith)]
    exact mul_le_mul_of_nonneg_left (by exact_mod_cast hlog) (by linarith)
  have a3 := a1.powf hf hp a0 (N := 62) (L := (1 / g) * (17 * (6932 / 10000))) (by linarith) (by linarith)
    (by norm_num) (by norm_num) (le_trans (by norm_num) hX1) (by linarith) (by linarith) (by linarith)
    hlogX (by
      have e : 4 + (g:ℝ) * (4 + 23.62 * (1 / g)) + (1 / g * (17 * (6932 / 10000)) + 1 / 1000) *
          ((g:ℝ) * (1 * (1 + 1 / 1000))) =
          4 + 4 * g + 23.62 * (1 / g * g) + (17 * (6932 / 10000)) * (1 + 1 / 1000) * (1 / g * g) +
          1 / 1000 * (1 + 1 / 1000) * g := by ring
      rw [e, hgg]
      norm_num at g2 ⊢
      linarith) (by
      have e : (1 / g * (17 * (6932 / 10000)) + 1 / 1000) * ((g:ℝ) * (1 + 1 / 1000)) =
          (17 * (6932 / 10000)) * (1 + 1 / 1000) * (1 / g * g) +
          1 / 1000 * (1 + 1 / 1000) * g := by ring
      rw [e, hgg]
      norm_num at g2 ⊢
      linarith)
  refine ⟨a3.fin, ?_⟩
  have hback : ((y.val : ℝ) ^ (1 / (g:ℝ))) ^ (g:ℝ) = y.val := by
    rw [← Real.rpow_mul hy0.le, hgg, Real.rpow_one]
  have a4 := a3.err
  rw [hback] at a4
  obtain ⟨s1, s2⟩ := RelF.small hf (n := 62) (by norm_num) (by norm_num)
  refine le_trans (a4.to_abs s1 (le_trans s2 (by norm_num))) ?_
  rw [mul_comm (63 * (f.u : ℝ))]
  refine mul_le_mul_of_nonneg_left ?_ hy0.le
  have hu : (f.u : ℝ) ≤ 1 / 2 ^ 24 := by qcast hf.hu
  have hu0 : (0:ℝ) < (f.u : ℝ) := by exact_mod_cast f.u_pos
  have e : 62 * kap f * (1 + 62 * kap f) ≤ 62 * kap f * (1 + 1 / 2 ^ 13) :=
    mul_le_mul_of_nonneg_left (by linarith) s1
  refine le_trans e ?_
  unfold kap
  norm_num; linarith

end
end CS

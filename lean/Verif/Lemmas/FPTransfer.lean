import Verif.Lemmas.FPRel
import Verif.Lemmas.Quant
import Verif.Model.Transfer
import Mathlib.Analysis.Calculus.MeanValue
import Mathlib.Analysis.SpecialFunctions.Pow.Deriv

/-!
# Floating-point error of the transfer functions
-/

namespace CS

theorem RelF.one {f : Fmt} : RelF 0 (FP.lit 1.0 : FP f) 1 := by
  have e : (1.0 : ℚ) = 1 := by norm_num
  rw [e, FP.lit_one]
  have := RelF.exact (f := f) (a := FP.fin 1 (by
    simpa using FP.isRep_nat (f := f) 1 Nat.one_le_two_pow)) rfl (by norm_num [FP.val])
  exact this.congr (by norm_num [FP.val])

/-- the difference of two approximations, in absolute terms -/
theorem RelF.sub_abs {f : Fmt} (hf : Std f) {m n : ℝ} {a b : FP f} {X Y : ℝ} (ha : RelF m a X)
    (hb : RelF n b Y) (hm : 0 ≤ m) (hn : 0 ≤ n) (hm1 : m ≤ 1024) (hn1 : n ≤ 1024)
    (hX : X ≤ 2 ^ 50) (hY : Y ≤ 2 ^ 50) :
    (a - b).isFinite = true ∧
    |((a - b).val : ℝ) - (X - Y)| ≤ (X * m + Y * n + |X - Y|) * (f.u * (1 + 1 / 1000)) := by
  obtain ⟨sm0, sm1⟩ := RelF.small hf hm hm1
  obtain ⟨sn0, sn1⟩ := RelF.small hf hn hn1
  have hXp := ha.err.pos
  have hYp := hb.err.pos
  have ea := ha.err.to_abs sm0 (le_trans sm1 (by norm_num))
  have eb := hb.err.to_abs sn0 (le_trans sn1 (by norm_num))
  have hu0 : (0:ℝ) < f.u := by exact_mod_cast f.u_pos
  have hu : (f.u : ℝ) ≤ 1 / 2 ^ 24 := by qcast hf.hu
  have ta : X * (m * kap f * (1 + m * kap f)) ≤ X * m * (f.u * (1 + 1 / 2000)) := by
    have : m * kap f * (1 + m * kap f) ≤ m * (f.u * (1 + 1 / 2000)) := by
      have e : m * kap f * (1 + m * kap f) = m * (f.u * ((1 + 1 / 10 ^ 4) * (1 + m * kap f))) := by
        unfold kap; ring
      rw [e]
      refine mul_le_mul_of_nonneg_left (mul_le_mul_of_nonneg_left ?_ hu0.le) hm
      norm_num at sm1 ⊢; linarith
    calc _ ≤ X * (m * (f.u * (1 + 1 / 2000))) := mul_le_mul_of_nonneg_left this hXp.le
      _ = _ := by ring
  have tb : Y * (n * kap f * (1 + n * kap f)) ≤ Y * n * (f.u * (1 + 1 / 2000)) := by
    have : n * kap f * (1 + n * kap f) ≤ n * (f.u * (1 + 1 / 2000)) := by
      have e : n * kap f * (1 + n * kap f) = n * (f.u * ((1 + 1 / 10 ^ 4) * (1 + n * kap f))) := by
        unfold kap; ring
      rw [e]
      refine mul_le_mul_of_nonneg_left (mul_le_mul_of_nonneg_left ?_ hu0.le) hn
      norm_num at sn1 ⊢; linarith
    calc _ ≤ Y * (n * (f.u * (1 + 1 / 2000))) := mul_le_mul_of_nonneg_left this hYp.le
      _ = _ := by ring
  obtain ⟨ba1, ba2⟩ := ha.err.bounds sm0 (le_trans sm1 (by norm_num))
  obtain ⟨bb1, bb2⟩ := hb.err.bounds sn0 (le_trans sn1 (by norm_num))
  have hab : |a.val - b.val| ≤ (2:ℚ) ^ 61 := by
    have : |(a.val : ℝ) - b.val| ≤ 2 ^ 61 := by
      norm_num at hX hY ⊢
      rw [abs_le]; constructor <;> linarith
    qcast this
  obtain ⟨s1, s2⟩ := FP.sub_err ha.fin hb.fin (pow_le_emax hf.wide hab)
  refine ⟨s1, ?_⟩
  have s3 : |((a - b).val : ℝ) - ((a.val : ℝ) - b.val)| ≤ |(a.val : ℝ) - b.val| * f.u := by qcast s2
  have t1 := abs_sub_abs_le_abs_sub ((a.val : ℝ) - b.val) (X - Y)
  have e1 : (a.val : ℝ) - b.val - (X - Y) = (a.val - X) + -(b.val - Y) := by ring
  have t2 : |(a.val : ℝ) - b.val - (X - Y)| ≤ X * m * (f.u * (1 + 1 / 2000)) +
      Y * n * (f.u * (1 + 1 / 2000)) := by
    rw [e1]
    refine le_trans (abs_add_le _ _) ?_
    rw [abs_neg]; linarith
  have t3 : |((a - b).val : ℝ) - (X - Y)| ≤ |((a - b).val : ℝ) - ((a.val : ℝ) - b.val)| +
      |(a.val : ℝ) - b.val - (X - Y)| := by
    have := abs_add_le (((a - b).val : ℝ) - ((a.val : ℝ) - b.val)) ((a.val : ℝ) - b.val - (X - Y))
    rwa [sub_add_sub_cancel] at this
  set S := X * m * (f.u * (1 + 1 / 2000)) + Y * n * (f.u * (1 + 1 / 2000)) with hS
  have hS0 : 0 ≤ S := by positivity
  have t4 : |(a.val : ℝ) - b.val| * f.u ≤ (|X - Y| + S) * f.u :=
    mul_le_mul_of_nonneg_right (by linarith) hu0.le
  have t5 : S * f.u ≤ S * (1 / 2 ^ 24) := mul_le_mul_of_nonneg_left hu hS0
  have t6 : (X * m + Y * n + |X - Y|) * (f.u * (1 + 1 / 1000)) =
      S * ((1 + 1 / 1000) / (1 + 1 / 2000)) + |X - Y| * f.u * (1 + 1 / 1000) := by
    rw [hS]; field_simp
  rw [t6]
  have t7 : 0 ≤ |X - Y| * f.u := by positivity
  norm_num at t5 ⊢
  nlinarith

/-- `x^(5/12)` is Lipschitz away from zero -/
theorem rpow_lip {c K a b r : ℝ} (hr0 : 0 ≤ r) (hr : r ≤ 1) (hc : 0 < c) (hK : r * c ^ (r - 1) ≤ K)
    (ha : c ≤ a) (hb : c ≤ b) : |a ^ r - b ^ r| ≤ K * |a - b| := by
  have := Convex.norm_image_sub_le_of_norm_hasDerivWithin_le (f := fun x : ℝ => x ^ r)
    (f' := fun x => r * x ^ (r - 1)) (s := Set.Ici c) (C := K) (x := b) (y := a)
    (fun x hx => ((Real.hasDerivAt_rpow_const (Or.inl
      (lt_of_lt_of_le hc hx).ne')).hasDerivWithinAt))
    (fun x hx => by
      have hx' : c ≤ x := hx
      have hxp : 0 < x := lt_of_lt_of_le hc hx'
      rw [Real.norm_eq_abs, abs_of_nonneg (mul_nonneg hr0 (Real.rpow_nonneg hxp.le _))]
      refine le_trans (mul_le_mul_of_nonneg_left ?_ hr0) hK
      exact Real.rpow_le_rpow_of_nonpos hc hx' (by linarith))
    (convex_Ici c) hb ha
  simpa [Real.norm_eq_abs] using this

section srgb
variable {f : Fmt} [Libm f]

theorem lit_pos {f : Fmt} {q : ℚ} (h : RelF 1 (FP.lit q : FP f) (q:ℝ)) : 0 < (FP.lit q : FP f).val := by
  have := h.err.xpos
  exact_mod_cast this

/-- value of a literal, in absolute terms -/
theorem lit_abs (hf : Std f) {q : ℚ} (h1 : 1 / 2 ^ 20 ≤ q) (h2 : q ≤ 2 ^ 20) :
    |((FP.lit q : FP f).val : ℝ) - q| ≤ q * (f.u * (1 + 1 / 2 ^ 20)) := by
  have := (hf.lit q h1 h2).2
  qcast this

/-- sRGB decoding, power branch -/
theorem srgb_dec_pow (hf : Std f) (hp : PowAccurate f) {y : FP f} (hy : y.isFinite = true)
    (h0 : (FP.lit 0.040449936 : FP f).val < y.val) (h1 : y.val ≤ 1) :
    RelF 21 (decode.srgb_t y) ((((y.val : ℝ) + 0.055) / 1.055) ^ (2.4 : ℝ)) := by
  have hl := RelF.litE hf (q := 0.040449936) (by norm_num) (by norm_num)
  have e : decode.srgb_t y = Flt.powf ((y + FP.lit 0.055) / FP.lit 1.055) (FP.lit 2.4) := by
    unfold decode.srgb_t
    have : Flt.le y (Flt.lit 0.040449936) = false := by
      show FP.le y (FP.lit 0.040449936) = false
      rw [FP.le_finite hy hl.fin]; simpa using h0
    rw [this]; rfl
  have ly := lit_abs hf (q := 0.040449936) (by norm_num) (by norm_num)
  have hu : (f.u : ℝ) ≤ 1 / 2 ^ 24 := by qcast hf.hu
  have hu0 : (0:ℝ) < f.u := by exact_mod_cast f.u_pos
  have hyl : (0.0404 : ℝ) ≤ y.val := by
    have : ((FP.lit 0.040449936 : FP f).val : ℝ) < y.val := by exact_mod_cast h0
    have := (abs_le.1 ly).1
    norm_num at this hu ⊢
    linarith
  have hyr : (y.val : ℝ) ≤ 1 := by exact_mod_cast h1
  have hyp : 0 < y.val := by
    have : (0:ℝ) < y.val := by linarith
    exact_mod_cast this
  have a1 := ((RelF.exact hy hyp).mono (n := 1) (by norm_num)).add hf
    (RelF.litE hf (q := 0.055) (by norm_num) (by norm_num)) (by norm_num) (by norm_num)
    (by norm_num; linarith)
  have a2 := a1.div hf (RelF.litE hf (q := 1.055) (by norm_num) (by norm_num)) (by norm_num)
    (by norm_num) (by norm_num) (by norm_num; linarith) (by norm_num; linarith)
  have a3 := a2.powf hf hp (RelF.litE hf (q := 2.4) (by norm_num) (by norm_num)) (N := 21)
    (L := 4 * (6932 / 10000)) (by norm_num) (by norm_num) (by norm_num) (by norm_num)
    (by norm_num; linarith) (by norm_num; linarith) (by norm_num) (by norm_num)
    (by
      have := abs_log_le (X := ((y.val : ℝ) + ((0.055 : ℚ) : ℝ)) / ((1.055 : ℚ) : ℝ)) 4
        (by norm_num; linarith) (by norm_num; linarith)
      exact_mod_cast this)
    (by norm_num) (by norm_num)
  rw [e]
  exact a3.congr (by norm_num)

/-- sRGB decoding, linear branch -/
theorem srgb_dec_lin (hf : Std f) {y : FP f} (hy : y.isFinite = true) (h0 : 0 ≤ y.val)
    (h1 : y.val ≤ (FP.lit 0.040449936 : FP f).val) :
    decode.srgb_t y = y / FP.lit 12.92 ∧ (decode.srgb_t y).isFinite = true ∧
    0 ≤ (decode.srgb_t y).val ∧ |((decode.srgb_t y).val : ℝ) - y.val / 12.92| ≤ f.u / 100 := by
  have hl := RelF.litE hf (q := 0.040449936) (by norm_num) (by norm_num)
  have hd := RelF.litE hf (q := 12.92) (by norm_num) (by norm_num)
  have e : decode.srgb_t y = y / FP.lit 12.92 := by
    unfold decode.srgb_t
    have : Flt.le y (Flt.lit 0.040449936) = true := by
      show FP.le y (FP.lit 0.040449936) = true
      rw [FP.le_finite hy hl.fin]; simpa using h1
    rw [this]; rfl
  have ly := lit_abs hf (q := 0.040449936) (by norm_num) (by norm_num)
  have ld := lit_abs hf (q := 12.92) (by norm_num) (by norm_num)
  have hu : (f.u : ℝ) ≤ 1 / 2 ^ 24 := by qcast hf.hu
  have hu0 : (0:ℝ) < f.u := by exact_mod_cast f.u_pos
  have hyl : (y.val : ℝ) ≤ 0.041 := by
    have : (y.val : ℝ) ≤ (FP.lit 0.040449936 : FP f).val := by exact_mod_cast h1
    have := (abs_le.1 ly).2
    norm_num at this hu ⊢
    linarith
  have h0r : (0:ℝ) ≤ y.val := by exact_mod_cast h0
  set w := ((FP.lit 12.92 : FP f).val : ℝ) with hw
  have lw := abs_le.1 ld
  have hw1 : (12.9 : ℝ) ≤ w := by
    have := lw.1; norm_num at this hu ⊢; linarith
  have hwq : 0 < (FP.lit 12.92 : FP f).val := lit_pos hd
  have hq : (y.val : ℝ) / w ≤ 0.0032 := by
    rw [div_le_iff₀ (by linarith)]; norm_num at hyl hw1 ⊢; linarith
  have hq0 : 0 ≤ (y.val : ℝ) / w := div_nonneg h0r (by linarith)
  have hqq : |y.val / (FP.lit 12.92 : FP f).val| ≤ (2:ℚ) ^ 61 := by
    have : |(y.val : ℝ) / w| ≤ 2 ^ 61 := by
      rw [abs_of_nonneg hq0]; norm_num at hq ⊢; linarith
    rw [hw] at this
    qcast this
  obtain ⟨s1, s2⟩ := FP.div_err hy hd.fin hwq.ne' (pow_le_emax hf.wide hqq)
  have s3 : |((y / FP.lit 12.92 : FP f).val : ℝ) - y.val / w| ≤ |(y.val : ℝ) / w| * f.u + f.eta := by
    rw [hw]; qcast s2
  rw [e]
  refine ⟨rfl, s1, ?_, ?_⟩
  · obtain ⟨_, h⟩ := FP.div_finite' hy hd.fin hwq.ne' (roundQ_lt (pow_le_emax hf.wide hqq))
    rw [h]
    exact roundQ_nonneg f (div_nonneg h0 hwq.le)
  · rw [abs_of_nonneg hq0] at s3
    have het : (f.eta : ℝ) ≤ f.u / 2 ^ 124 := by qcast hf.wide.heta
    have het' : (f.u : ℝ) / 2 ^ 124 ≤ f.u / 10 ^ 4 :=
      div_le_div_of_nonneg_left hu0.le (by norm_num) (by norm_num)
    have h3 : |(y.val : ℝ) / w - y.val / 12.92| ≤ 0.0032 * (f.u * (1 + 1 / 1000)) := by
      have e : (y.val : ℝ) / w - y.val / 12.92 = (y.val / w) * ((12.92 - w) / 12.92) := by
        field_simp
      rw [e, abs_mul, abs_of_nonneg hq0]
      refine mul_le_mul hq ?_ (abs_nonneg _) (by norm_num)
      rw [abs_div, abs_of_pos (by norm_num : (0:ℝ) < 12.92), div_le_iff₀ (by norm_num), abs_sub_comm]
      have e4 : ((12.92 : ℚ) : ℝ) = 12.92 := by norm_num
      rw [e4] at ld
      refine le_trans ld ?_
      norm_num
      nlinarith
    have h4 := abs_add_le (((y / FP.lit 12.92 : FP f).val : ℝ) - y.val / w) ((y.val : ℝ) / w - y.val / 12.92)
    rw [sub_add_sub_cancel] at h4
    have h5 : (y.val : ℝ) / w * f.u ≤ 0.0032 * f.u := mul_le_mul_of_nonneg_right hq hu0.le
    generalize ((y / FP.lit 12.92 : FP f).val : ℝ) = z at *
    generalize (y.val : ℝ) / w = z' at *
    norm_num at h3 h4 h5 het' het ⊢
    linarith

/-- sRGB encoding, linear branch -/
theorem srgb_enc_lin (hf : Std f) {x : FP f} (hx : x.isFinite = true) (h0 : -1 / 100 ≤ x.val)
    (h1 : x.val ≤ (FP.lit 0.0031308 : FP f).val) :
    (encode.srgb_t x).isFinite = true ∧ |((encode.srgb_t x).val : ℝ) - x.val * 12.92| ≤ f.u / 3 := by
  have hl := RelF.litE hf (q := 0.0031308) (by norm_num) (by norm_num)
  have hd := RelF.litE hf (q := 12.92) (by norm_num) (by norm_num)
  have e : encode.srgb_t x = x * FP.lit 12.92 := by
    unfold encode.srgb_t
    have : Flt.le x (Flt.lit 0.0031308) = true := by
      show FP.le x (FP.lit 0.0031308) = true
      rw [FP.le_finite hx hl.fin]; simpa using h1
    rw [this]; rfl
  have ly := lit_abs hf (q := 0.0031308) (by norm_num) (by norm_num)
  have ld := lit_abs hf (q := 12.92) (by norm_num) (by norm_num)
  have hu : (f.u : ℝ) ≤ 1 / 2 ^ 24 := by qcast hf.hu
  have hu0 : (0:ℝ) < f.u := by exact_mod_cast f.u_pos
  have hxa : |(x.val : ℝ)| ≤ 0.01 := by
    have a : (x.val : ℝ) ≤ ((FP.lit 0.0031308 : FP f).val : ℝ) := by exact_mod_cast h1
    have b := (abs_le.1 ly).2
    have c : (-1 / 100 : ℝ) ≤ x.val := by qcast h0
    rw [abs_le]
    generalize ((FP.lit 0.0031308 : FP f).val : ℝ) = z at *
    norm_num at b c hu ⊢
    constructor <;> linarith
  set w := ((FP.lit 12.92 : FP f).val : ℝ) with hw
  have lw := abs_le.1 ld
  have hw1 : |w| ≤ 12.93 := by
    rw [abs_le]
    have a := lw.1; have b := lw.2; norm_num at a b hu ⊢; constructor <;> linarith
  have hm : |(x.val : ℝ) * w| ≤ 0.1293 := by
    rw [abs_mul]
    calc _ ≤ (0.01:ℝ) * 12.93 := mul_le_mul hxa hw1 (abs_nonneg _) (by norm_num)
      _ ≤ _ := by norm_num
  have hqq : |x.val * (FP.lit 12.92 : FP f).val| ≤ (2:ℚ) ^ 61 := by
    have : |(x.val : ℝ) * w| ≤ 2 ^ 61 := by
      norm_num at hm ⊢; linarith
    rw [hw] at this
    qcast this
  obtain ⟨s1, s2⟩ := FP.mul_err hx hd.fin (pow_le_emax hf.wide hqq)
  have s3 : |((x * FP.lit 12.92 : FP f).val : ℝ) - x.val * w| ≤ |(x.val : ℝ) * w| * f.u + f.eta := by
    rw [hw]; qcast s2
  rw [e]
  refine ⟨s1, ?_⟩
  have het : (f.eta : ℝ) ≤ f.u / 2 ^ 124 := by qcast hf.wide.heta
  have het' : (f.u : ℝ) / 2 ^ 124 ≤ f.u / 10 ^ 4 :=
    div_le_div_of_nonneg_left hu0.le (by norm_num) (by norm_num)
  have h3 : |(x.val : ℝ) * w - x.val * 12.92| ≤ 0.01 * (12.92 * (f.u * (1 + 1 / 2 ^ 20))) := by
    rw [← mul_sub, abs_mul]
    have e4 : ((12.92 : ℚ) : ℝ) = 12.92 := by norm_num
    rw [e4] at ld
    exact mul_le_mul hxa ld (abs_nonneg _) (by norm_num)
  have h4 := abs_add_le (((x * FP.lit 12.92 : FP f).val : ℝ) - x.val * w) ((x.val : ℝ) * w - x.val * 12.92)
  rw [sub_add_sub_cancel] at h4
  have h5 : |(x.val : ℝ) * w| * f.u ≤ 0.1293 * f.u := mul_le_mul_of_nonneg_right hm hu0.le
  generalize ((x * FP.lit 12.92 : FP f).val : ℝ) = z at *
  generalize (x.val : ℝ) * w = z' at *
  norm_num at h3 h4 h5 het' het ⊢
  linarith

/-- sRGB encoding, power branch: the part before the final subtraction -/
theorem srgb_enc_pow (hf : Std f) (hp : PowAccurate f) {x : FP f} (hx : x.isFinite = true)
    (h0 : (FP.lit 0.0031308 : FP f).val < x.val) (h1 : x.val ≤ 7 / 5) :
    ∃ z : FP f, encode.srgb_t x = z - FP.lit 0.055 ∧
      RelF 12.3 z (1.055 * (x.val : ℝ) ^ (1 / 2.4 : ℝ)) := by
  have hl := RelF.litE hf (q := 0.0031308) (by norm_num) (by norm_num)
  refine ⟨(FP.lit 1.0 + FP.lit 0.055) * Flt.powf x (FP.lit 1.0 / FP.lit 2.4), ?_, ?_⟩
  · unfold encode.srgb_t
    have : Flt.le x (Flt.lit 0.0031308) = false := by
      show FP.le x (FP.lit 0.0031308) = false
      rw [FP.le_finite hx hl.fin]; simpa using h0
    rw [this]; rfl
  have ly := lit_abs hf (q := 0.0031308) (by norm_num) (by norm_num)
  have hu : (f.u : ℝ) ≤ 1 / 2 ^ 24 := by qcast hf.hu
  have hu0 : (0:ℝ) < f.u := by exact_mod_cast f.u_pos
  have hxl : (0.0031 : ℝ) ≤ x.val := by
    have : ((FP.lit 0.0031308 : FP f).val : ℝ) < x.val := by exact_mod_cast h0
    have := (abs_le.1 ly).1
    norm_num at this hu ⊢
    linarith
  have hxr : (x.val : ℝ) ≤ 7 / 5 := by qcast h1
  have hxp : 0 < x.val := by
    have : (0:ℝ) < x.val := by linarith
    exact_mod_cast this
  have a1 := (RelF.one (f := f)).div hf (RelF.litE hf (q := 2.4) (by norm_num) (by norm_num))
    (by norm_num) (by norm_num) (by norm_num) (by norm_num) (by norm_num)
  have a2 := (RelF.exact hx hxp).powf hf hp a1 (N := 9.3)
    (L := 9 * (6932 / 10000)) (by norm_num) (by norm_num) (by norm_num) (by norm_num)
    (by norm_num; linarith) (by norm_num; linarith) (by norm_num) (by norm_num)
    (by
      have := abs_log_le (X := (x.val : ℝ)) 9
        (by norm_num; linarith) (by norm_num; linarith)
      exact_mod_cast this)
    (by norm_num) (by norm_num)
  have a3 := ((RelF.one (f := f)).mono (n := 1) (by norm_num)).add hf
    (RelF.litE hf (q := 0.055) (by norm_num) (by norm_num)) (by norm_num) (by norm_num)
    (by norm_num)
  have e : (1 / ((2.4 : ℚ) : ℝ)) = (1 / 2.4 : ℝ) := by norm_num
  rw [e] at a2
  have b1 : (0.0031 : ℝ) ≤ (x.val : ℝ) ^ (1 / 2.4 : ℝ) := by
    rcases le_total (x.val : ℝ) 1 with h | h
    · refine le_trans hxl ?_
      have := Real.rpow_le_rpow_of_exponent_ge (x := (x.val : ℝ)) (by linarith) h
        (by norm_num : (1 / 2.4 : ℝ) ≤ 1)
      rwa [Real.rpow_one] at this
    · refine le_trans (by norm_num) (Real.one_le_rpow h (by norm_num))
  have b2 : (x.val : ℝ) ^ (1 / 2.4 : ℝ) ≤ 7 / 5 := by
    rcases le_total (x.val : ℝ) 1 with h | h
    · refine le_trans (Real.rpow_le_one (by linarith) h (by norm_num)) (by norm_num)
    · have := Real.rpow_le_rpow_of_exponent_le h (by norm_num : (1 / 2.4 : ℝ) ≤ 1)
      rw [Real.rpow_one] at this
      linarith
  have a4 := a3.mul hf a2 (by norm_num) (by norm_num) (by norm_num)
    (by norm_num at b1 ⊢; linarith) (by norm_num at b2 ⊢; linarith)
  refine (a4.congr (by norm_num)).mono (by norm_num)

end srgb
end CS

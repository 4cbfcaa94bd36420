import Verif.Lemmas.FPTransfer

/-!
# The BT.709 and BT.2020 curves in floating point
The two branches of these curves do not meet (C27), so the error is dominated by the gap. The bounds
here are just good enough for 8-bit images.
-/

namespace CS
section bt
variable {f : Fmt} [Libm f]

theorem u_small (hf : Std f) : (f.u : ℝ) ≤ 1 / 16000000 ∧ (0:ℝ) < f.u ∧ (f.eta : ℝ) ≤ 1 / 10 ^ 9 := by
  have hu : (f.u : ℝ) ≤ 1 / 2 ^ 24 := by qcast hf.hu
  have hu0 : (0:ℝ) < f.u := by exact_mod_cast f.u_pos
  have het : (f.eta : ℝ) ≤ f.u / 2 ^ 124 := by qcast hf.wide.heta
  have het' : (f.u : ℝ) / 2 ^ 124 ≤ f.u / 10 ^ 4 :=
    div_le_div_of_nonneg_left hu0.le (by norm_num) (by norm_num)
  norm_num at hu het'
  refine ⟨by norm_num; linarith, hu0, by norm_num; linarith⟩

/-- an approximation, in absolute terms -/
theorem RelF.abs1 (hf : Std f) {c : FP f} {C : ℝ} (h : RelF 1 c C) (hC : C ≤ 16) :
    |(c.val : ℝ) - C| ≤ 3 / 2 / 10 ^ 6 := by
  obtain ⟨s1, s2⟩ := RelF.small hf (n := 1) (by norm_num) (by norm_num)
  have := h.err.to_abs s1 (le_trans s2 (by norm_num))
  have hp := h.err.pos
  refine le_trans this ?_
  obtain ⟨u1, u2, _⟩ := u_small hf
  have hk : 1 * kap f ≤ 1 / 15000000 := by unfold kap; norm_num at u1 ⊢; linarith
  have e : 1 * kap f * (1 + 1 * kap f) ≤ 1 / 14000000 := by nlinarith
  calc C * (1 * kap f * (1 + 1 * kap f)) ≤ 16 * (1 / 14000000) :=
        mul_le_mul hC e (by positivity) (by norm_num)
    _ ≤ _ := by norm_num

/-- division by a constant -/
theorem divc_abs (hf : Std f) {y c : FP f} {C : ℝ} (hy : y.isFinite = true) (h0 : 0 ≤ y.val)
    (h1 : y.val ≤ 1) (hc : RelF 1 c C) (hC1 : 2 ≤ C) (hC2 : C ≤ 16) :
    (y / c).isFinite = true ∧ 0 ≤ (y / c).val ∧ |((y / c).val : ℝ) - y.val / C| ≤ 1 / 10 ^ 6 := by
  have ha := abs_le.1 (hc.abs1 hf hC2)
  have h0r : (0:ℝ) ≤ y.val := by exact_mod_cast h0
  have h1r : (y.val : ℝ) ≤ 1 := by exact_mod_cast h1
  have hw : (1:ℝ) ≤ c.val := by norm_num at ha; linarith [ha.1]
  have hwq : 0 < c.val := by
    have : (0:ℝ) < c.val := by linarith
    exact_mod_cast this
  have hq0 : 0 ≤ (y.val : ℝ) / c.val := div_nonneg h0r (by linarith)
  have hq1 : (y.val : ℝ) / c.val ≤ 1 := by rw [div_le_one (by linarith)]; linarith
  have hqq : |y.val / c.val| ≤ (2:ℚ) ^ 61 := by
    have : |(y.val : ℝ) / c.val| ≤ 2 ^ 61 := by
      rw [abs_of_nonneg hq0]; exact hq1.trans (by norm_num)
    qcast this
  obtain ⟨s1, s2⟩ := FP.div_err hy hc.fin hwq.ne' (pow_le_emax hf.wide hqq)
  have s3 : |((y / c : FP f).val : ℝ) - y.val / c.val| ≤ |(y.val : ℝ) / c.val| * f.u + f.eta := by
    qcast s2
  refine ⟨s1, ?_, ?_⟩
  · obtain ⟨_, h⟩ := FP.div_finite' hy hc.fin hwq.ne' (roundQ_lt (pow_le_emax hf.wide hqq))
    rw [h]
    exact roundQ_nonneg f (div_nonneg h0 hwq.le)
  · obtain ⟨u1, u2, u3⟩ := u_small hf
    rw [abs_of_nonneg hq0] at s3
    have h3 : |(y.val : ℝ) / c.val - y.val / C| ≤ 8 / 10 / 10 ^ 6 := by
      have e : (y.val : ℝ) / c.val - y.val / C = (y.val / c.val) * ((C - c.val) / C) := by
        field_simp
      rw [e, abs_mul, abs_of_nonneg hq0]
      have : |(C - c.val) / C| ≤ 8 / 10 / 10 ^ 6 := by
        rw [abs_div, abs_of_pos (by linarith : (0:ℝ) < C), div_le_iff₀ (by linarith), abs_sub_comm]
        have := hc.abs1 hf hC2
        norm_num at this ⊢
        linarith
      calc _ ≤ 1 * (8 / 10 / 10 ^ 6 : ℝ) := mul_le_mul hq1 this (abs_nonneg _) (by norm_num)
        _ = _ := by ring
    have h4 := abs_add_le (((y / c : FP f).val : ℝ) - y.val / c.val) ((y.val : ℝ) / c.val - y.val / C)
    rw [sub_add_sub_cancel] at h4
    have h5 : (y.val : ℝ) / c.val * f.u ≤ 1 * f.u := mul_le_mul_of_nonneg_right hq1 u2.le
    generalize ((y / c : FP f).val : ℝ) = z at *
    generalize (y.val : ℝ) / c.val = z' at *
    norm_num at h3 h4 h5 u1 u3 ⊢
    linarith

/-- multiplication by a constant -/
theorem mulc_abs (hf : Std f) {x c : FP f} {C : ℝ} (hx : x.isFinite = true) (h0 : |(x.val : ℝ)| ≤ 1)
    (hc : RelF 1 c C) (hC2 : C ≤ 16) :
    (x * c).isFinite = true ∧ |((x * c).val : ℝ) - x.val * C| ≤ 3 / 10 ^ 6 := by
  have hb := hc.abs1 hf hC2
  have ha := abs_le.1 hb
  have hp := hc.err.pos
  have hw1 : |(c.val : ℝ)| ≤ 17 := by
    rw [abs_le]; norm_num at ha ⊢; constructor <;> linarith [ha.1, ha.2]
  have hm : |(x.val : ℝ) * c.val| ≤ 17 := by
    rw [abs_mul]
    calc _ ≤ (1:ℝ) * 17 := mul_le_mul h0 hw1 (abs_nonneg _) (by norm_num)
      _ = _ := by norm_num
  have hqq : |x.val * c.val| ≤ (2:ℚ) ^ 61 := by
    have : |(x.val : ℝ) * c.val| ≤ 2 ^ 61 := hm.trans (by norm_num)
    qcast this
  obtain ⟨s1, s2⟩ := FP.mul_err hx hc.fin (pow_le_emax hf.wide hqq)
  have s3 : |((x * c : FP f).val : ℝ) - x.val * c.val| ≤ |(x.val : ℝ) * c.val| * f.u + f.eta := by
    qcast s2
  refine ⟨s1, ?_⟩
  obtain ⟨u1, u2, u3⟩ := u_small hf
  have h3 : |(x.val : ℝ) * c.val - x.val * C| ≤ 1 * (3 / 2 / 10 ^ 6) := by
    rw [← mul_sub, abs_mul]
    exact mul_le_mul h0 hb (abs_nonneg _) (by norm_num)
  have h4 := abs_add_le (((x * c : FP f).val : ℝ) - x.val * c.val) ((x.val : ℝ) * c.val - x.val * C)
  rw [sub_add_sub_cancel] at h4
  have h5 : |(x.val : ℝ) * c.val| * f.u ≤ 17 * f.u := mul_le_mul_of_nonneg_right hm u2.le
  generalize ((x * c : FP f).val : ℝ) = z at *
  generalize (x.val : ℝ) * c.val = z' at *
  norm_num at h3 h4 h5 u1 u3 ⊢
  linarith

/-- powers with exponent 9/20 -/
theorem pow45_le {x s : ℝ} (hx : 0 ≤ x) (hs : 0 ≤ s) (h : x ^ 9 ≤ s ^ 20) : x ^ (0.45 : ℝ) ≤ s := by
  have e1 : x ^ (0.45 : ℝ) = (x ^ 9) ^ (1 / 20 : ℝ) := by
    rw [← Real.rpow_natCast, ← Real.rpow_mul hx]; norm_num
  have e2 : s = (s ^ 20) ^ (1 / 20 : ℝ) := by
    rw [← Real.rpow_natCast, ← Real.rpow_mul hs]; norm_num
  rw [e1, e2]
  exact Real.rpow_le_rpow (by positivity) h (by norm_num)

theorem le_pow45 {x s : ℝ} (hx : 0 ≤ x) (hs : 0 ≤ s) (h : s ^ 20 ≤ x ^ 9) : s ≤ x ^ (0.45 : ℝ) := by
  have e1 : x ^ (0.45 : ℝ) = (x ^ 9) ^ (1 / 20 : ℝ) := by
    rw [← Real.rpow_natCast, ← Real.rpow_mul hx]; norm_num
  have e2 : s = (s ^ 20) ^ (1 / 20 : ℝ) := by
    rw [← Real.rpow_natCast, ← Real.rpow_mul hs]; norm_num
  rw [e1, e2]
  exact Real.rpow_le_rpow (by positivity) h (by norm_num)

/-- encoding, power branch -/
theorem bt_enc (hf : Std f) (hp : PowAccurate f) {A B x : FP f} (hA : RelF 1 A 1.099)
    (hB : RelF 13 B 0.099) {m X : ℝ} (hx : RelF m x X) (hm0 : 0 ≤ m) (hm : m ≤ 50)
    (h0 : 0.017 ≤ X) (h1 : X ≤ 1.01) :
    (A * Flt.powf x (FP.lit 0.45) - B).isFinite = true ∧
    |((A * Flt.powf x (FP.lit 0.45) - B).val : ℝ) - (1.099 * X ^ (0.45 : ℝ) - 0.099)| ≤ 3 / 10 ^ 6 := by
  have a2 := hx.powf hf hp (RelF.litE hf (q := 0.45) (by norm_num) (by norm_num)) (N := 29)
    (L := 6 * (6932 / 10000)) hm0 (by linarith) (by norm_num) (by norm_num)
    (by norm_num at h0 ⊢; linarith) (by norm_num at h1 ⊢; linarith) (by norm_num) (by norm_num)
    (by
      have := abs_log_le (X := X) 6 (by norm_num at h0 ⊢; linarith) (by norm_num at h1 ⊢; linarith)
      exact_mod_cast this)
    (by norm_num; linarith) (by norm_num)
  have e : ((0.45 : ℚ) : ℝ) = (0.45 : ℝ) := by norm_num
  rw [e] at a2
  have b2 : X ^ (0.45 : ℝ) ≤ 1.01 := by
    apply pow45_le (by norm_num at h0; linarith) (by norm_num)
    calc X ^ 9 ≤ (1.01:ℝ) ^ 9 := pow_le_pow_left₀ (by norm_num at h0; linarith) h1 9
      _ ≤ _ := by norm_num
  have b1 : (0.15 : ℝ) ≤ X ^ (0.45 : ℝ) := by
    apply le_pow45 (by norm_num at h0; linarith) (by norm_num)
    calc (0.15:ℝ) ^ 20 ≤ (0.017:ℝ) ^ 9 := by norm_num
      _ ≤ _ := pow_le_pow_left₀ (by norm_num) h0 9
  have a4 := hA.mul hf a2 (by norm_num) (by norm_num) (by norm_num)
    (by norm_num at b1 ⊢; linarith) (by norm_num at b2 ⊢; linarith)
  obtain ⟨s1, s2⟩ := a4.sub_abs hf hB (by norm_num) (by norm_num) (by norm_num) (by norm_num)
    (by norm_num at b2 ⊢; linarith) (by norm_num)
  refine ⟨s1, le_trans s2 ?_⟩
  obtain ⟨u1, u2, _⟩ := u_small hf
  have h3 : |1.099 * X ^ (0.45 : ℝ) - 0.099| ≤ 1.1 := by
    rw [abs_le]; norm_num at b1 b2 ⊢; constructor <;> linarith
  have h4 : 1.099 * X ^ (0.45 : ℝ) * (1 + 29 + 1) + 0.099 * 13 + |1.099 * X ^ (0.45 : ℝ) - 0.099| ≤ 40 := by
    norm_num at b2 h3 ⊢; linarith
  calc _ ≤ (40:ℝ) * (f.u * (1 + 1 / 1000)) := mul_le_mul_of_nonneg_right h4 (by positivity)
    _ ≤ _ := by norm_num at u1 ⊢; linarith

/-- decoding, power branch -/
theorem bt_dec (hf : Std f) (hp : PowAccurate f) {A B y : FP f} (hA : RelF 1 A 1.099)
    (hB : RelF 13 B 0.099) (hy : y.isFinite = true) (h0 : (0.08 : ℝ) ≤ y.val) (h1 : y.val ≤ 1) :
    RelF 50 (Flt.powf ((y + B) / A) (FP.lit 1.0 / FP.lit 0.45))
      ((((y.val : ℝ) + 0.099) / 1.099) ^ (1 / 0.45 : ℝ)) := by
  have hyr : (y.val : ℝ) ≤ 1 := by exact_mod_cast h1
  have hyp : 0 < y.val := by
    have : (0:ℝ) < y.val := by norm_num at h0; linarith
    exact_mod_cast this
  have a1 := ((RelF.exact hy hyp).mono (n := 13) (by norm_num)).add hf hB (by norm_num) (by norm_num)
    (by norm_num; linarith)
  have a2 := a1.div hf hA (by norm_num)
    (by norm_num) (by norm_num) (by norm_num at h0 ⊢; linarith) (by norm_num; linarith)
  have a3 := (RelF.one (f := f)).div hf (RelF.litE hf (q := 0.45) (by norm_num) (by norm_num))
    (by norm_num) (by norm_num) (by norm_num) (by norm_num) (by norm_num)
  have a4 := a2.powf hf hp a3 (N := 50)
    (L := 3 * (6932 / 10000)) (by norm_num) (by norm_num) (by norm_num) (by norm_num)
    (by norm_num at h0 ⊢; linarith) (by norm_num; linarith) (by norm_num) (by norm_num)
    (by
      have := abs_log_le (X := ((y.val : ℝ) + 0.099) / 1.099) 3
        (by norm_num at h0 ⊢; linarith) (by norm_num; linarith)
      exact_mod_cast this)
    (by norm_num) (by norm_num)
  exact a4.congr (by norm_num)

theorem bt_inner {y : ℝ} (hy : 0 ≤ y) :
    1.099 * (((y + 0.099) / 1.099) ^ (1 / 0.45 : ℝ)) ^ (0.45 : ℝ) - 0.099 = y := by
  rw [← Real.rpow_mul (by positivity)]
  norm_num
  ring

/-- The error of decoding and encoding, for constants close to the published ones and thresholds `T1`
(decoding) and `T2` (encoding) close to 0.081 and 0.018, whichever branch is taken at them. -/
theorem bt_trip (hf : Std f) (hp : PowAccurate f) {A B y x z : FP f} (hA : RelF 1 A 1.099)
    (hB : RelF 13 B 0.099) (hy : y.isFinite = true) (h0 : 0 ≤ y.val) (h1 : y.val ≤ 1)
    (hx : ((y.val : ℝ) ≤ 0.08101 ∧ x = y / FP.lit 4.5) ∨
      ((0.08099 : ℝ) ≤ y.val ∧ x = Flt.powf ((y + B) / A) (FP.lit 1.0 / FP.lit 0.45)))
    (hz : ((x.val : ℝ) ≤ 0.018001 ∧ z = x * FP.lit 4.5) ∨
      ((0.017999 : ℝ) ≤ x.val ∧ z = A * Flt.powf x (FP.lit 0.45) - B)) :
    z.isFinite = true ∧ |(z.val : ℝ) - y.val| ≤ 1 / 1000 := by
  have hd := RelF.litE hf (q := 4.5) (by norm_num) (by norm_num)
  have e45 : ((4.5 : ℚ) : ℝ) = 4.5 := by norm_num
  rw [e45] at hd
  have h0r : (0:ℝ) ≤ y.val := by exact_mod_cast h0
  have h1r : (y.val : ℝ) ≤ 1 := by exact_mod_cast h1
  rcases hx with ⟨hy1, rfl⟩ | ⟨hy1, rfl⟩
  · obtain ⟨x1, x2, x3⟩ := divc_abs hf hy h0 h1 hd (by norm_num) (by norm_num)
    have x2r : (0:ℝ) ≤ (y / FP.lit 4.5 : FP f).val := by exact_mod_cast x2
    obtain ⟨x4, x5⟩ := abs_le.1 x3
    rcases hz with ⟨hz1, rfl⟩ | ⟨hz1, rfl⟩
    · obtain ⟨z1, z2⟩ := mulc_abs hf x1 (by
        rw [abs_of_nonneg x2r]; norm_num at hz1; linarith) hd (by norm_num)
      refine ⟨z1, ?_⟩
      have := abs_le.1 z2
      rw [abs_le]
      generalize ((y / FP.lit 4.5 : FP f).val : ℝ) = w at *
      generalize ((y / FP.lit 4.5 * FP.lit 4.5 : FP f).val : ℝ) = w' at *
      norm_num at this x4 x5 ⊢
      constructor <;> linarith [this.1, this.2]
    · have hxp : 0 < (y / FP.lit 4.5 : FP f).val := by
        have : (0:ℝ) < (y / FP.lit 4.5 : FP f).val := lt_of_lt_of_le (by norm_num) hz1
        exact_mod_cast this
      have hxu : ((y / FP.lit 4.5 : FP f).val : ℝ) ≤ 0.01801 := by
        norm_num at x5 hy1 ⊢; linarith
      obtain ⟨z1, z2⟩ := bt_enc hf hp hA hB (RelF.exact x1 hxp) (by norm_num) (by norm_num)
        (le_trans (by norm_num) hz1) (le_trans hxu (by norm_num))
      refine ⟨z1, ?_⟩
      have p1 : ((y / FP.lit 4.5 : FP f).val : ℝ) ^ (0.45 : ℝ) ≤ 0.1641 := by
        apply pow45_le x2r (by norm_num)
        calc _ ≤ (0.01801:ℝ) ^ 9 := pow_le_pow_left₀ x2r hxu 9
          _ ≤ _ := by norm_num
      have p2 : (0.1639 : ℝ) ≤ ((y / FP.lit 4.5 : FP f).val : ℝ) ^ (0.45 : ℝ) := by
        apply le_pow45 x2r (by norm_num)
        calc (0.1639:ℝ) ^ 20 ≤ (0.017999:ℝ) ^ 9 := by norm_num
          _ ≤ _ := pow_le_pow_left₀ (by norm_num) hz1 9
      have := abs_le.1 z2
      rw [abs_le]
      generalize ((y / FP.lit 4.5 : FP f).val : ℝ) ^ (0.45:ℝ) = w at *
      generalize ((y / FP.lit 4.5 : FP f).val : ℝ) = w'' at *
      generalize ((A * Flt.powf (y / FP.lit 4.5) (FP.lit 0.45) - B : FP f).val : ℝ) = w' at *
      norm_num at this p1 p2 x4 x5 hy1 hz1 ⊢
      constructor <;> linarith [this.1, this.2]
  · have hx := bt_dec hf hp hA hB hy (le_trans (by norm_num) hy1) h1
    set x := Flt.powf ((y + B) / A) (FP.lit 1.0 / FP.lit 0.45) with hxdef
    set X := (((y.val : ℝ) + 0.099) / 1.099) ^ (1 / 0.45 : ℝ) with hX
    have hX0 : 0 < X := hx.err.pos
    have hinv : X ^ (0.45 : ℝ) = ((y.val : ℝ) + 0.099) / 1.099 := by
      have := bt_inner h0r
      rw [← hX] at this
      norm_num at this ⊢; linarith
    have hXl : (0.0179 : ℝ) ≤ X := by
      by_contra hlt
      push Not at hlt
      have : X ^ (0.45 : ℝ) ≤ 0.1637 := by
        apply pow45_le hX0.le (by norm_num)
        calc X ^ 9 ≤ (0.0179:ℝ) ^ 9 := pow_le_pow_left₀ hX0.le hlt.le 9
          _ ≤ _ := by norm_num
      rw [hinv] at this
      norm_num at this hy1
      linarith
    have hXu : X ≤ 1 := by
      rw [hX]
      exact Real.rpow_le_one (by positivity) (by norm_num; linarith) (by norm_num)
    obtain ⟨s1, s2⟩ := RelF.small hf (n := 50) (by norm_num) (by norm_num)
    have xa := hx.err.to_abs s1 (le_trans s2 (by norm_num))
    have hk : 50 * kap f * (1 + 50 * kap f) ≤ 1 / 10 ^ 5 := by
      obtain ⟨u1, u2, _⟩ := u_small hf
      have : 50 * kap f ≤ 1 / 200000 := by unfold kap; norm_num at u1 ⊢; linarith
      have h' := kap_pos f
      nlinarith
    have xa' : |(x.val : ℝ) - X| ≤ X * (1 / 10 ^ 5) :=
      le_trans xa (mul_le_mul_of_nonneg_left hk hX0.le)
    obtain ⟨xa1, xa2⟩ := abs_le.1 xa'
    rcases hz with ⟨hz1, rfl⟩ | ⟨hz1, rfl⟩
    · have hx0 : (0:ℝ) < x.val := hx.err.xpos
      obtain ⟨z1, z2⟩ := mulc_abs hf hx.fin (by
        rw [abs_of_pos hx0]; norm_num at hz1; linarith) hd (by norm_num)
      refine ⟨z1, ?_⟩
      have hXu : X ≤ 0.018002 := by norm_num at xa1 hz1 ⊢; linarith
      have p1 : X ^ (0.45 : ℝ) ≤ 0.1641 := by
        apply pow45_le hX0.le (by norm_num)
        calc _ ≤ (0.018002:ℝ) ^ 9 := pow_le_pow_left₀ hX0.le hXu 9
          _ ≤ _ := by norm_num
      rw [hinv] at p1
      have := abs_le.1 z2
      rw [abs_le]
      generalize (x.val : ℝ) = w at *
      generalize ((x * FP.lit 4.5 : FP f).val : ℝ) = w' at *
      norm_num at this p1 xa1 xa2 hXl hz1 hy1 ⊢
      constructor <;> linarith [this.1, this.2]
    · obtain ⟨z1, z2⟩ := bt_enc hf hp hA hB hx (by norm_num) (by norm_num)
        (le_trans (by norm_num) hXl) (le_trans hXu (by norm_num))
      refine ⟨z1, ?_⟩
      rw [hX, bt_inner h0r] at z2
      refine le_trans z2 (by norm_num)

end bt
end CS

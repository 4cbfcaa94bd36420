import Verif.Props.Through

/-!
# Power curves lose 8-bit images through another space (C83)
The steep foot of a power curve magnifies the defect of the printed matrices.
-/

namespace CS

/-- the contribution of blue to red after a round trip is about 1.9e-5 -/
def blueCheck {f : Fmt} (m n : Matrix33 (FP f)) : Bool :=
  m.fin && n.fin && decide (
    18.5e-6 ≤ n.x0.val * m.x2.val + n.x1.val * m.x5.val + n.x2.val * m.x8.val ∧
    n.x0.val * m.x2.val + n.x1.val * m.x5.val + n.x2.val * m.x8.val ≤ 20e-6 ∧
    |m.x2.val| ≤ 1 / 1000 ∧ |m.x5.val| ≤ 1 / 1000 ∧ |m.x8.val| ≤ 2 ∧
    |n.x0.val| ≤ 1 ∧ |n.x1.val| ≤ 1 ∧ |n.x2.val| ≤ 1 / 1000)

section
variable {f : Fmt} [Libm f]

theorem dot_last (hf : Std f) {a b c z z' d : FP f} (ha : a.isFinite = true) (hb : b.isFinite = true)
    (hc : c.isFinite = true) (hz : z.isFinite = true) (hz' : z'.isFinite = true) (hd : d.isFinite = true)
    (h0 : z.val = 0) (h0' : z'.val = 0) {C : ℚ} (hC : |c.val| ≤ C) (hC2 : C ≤ 4) (hd1 : |d.val| ≤ 2) :
    (a * z + b * z' + c * d).isFinite = true ∧
    |(a * z + b * z' + c * d).val - c.val * d.val| ≤ 5e-7 * C + 1e-15 := by
  have hC0 : 0 ≤ C := le_trans (abs_nonneg _) hC
  have hcd : |c.val * d.val| ≤ C * 2 := by
    rw [abs_mul]; exact mul_le_mul hC hd1 (abs_nonneg _) hC0
  have e : |a.val * z.val| + |b.val * z'.val| + |c.val * d.val| = |c.val * d.val| := by
    rw [h0, h0']; simp
  obtain ⟨x, y⟩ := dot3_err ha hb hc hz hz' hd (by
    rw [e]
    have h1 := hf.wide.hmax
    have h2 : (2:ℚ) ^ 4 ≤ 2 ^ 126 := pow_le_pow_right₀ (by norm_num) (by norm_num)
    generalize (2:ℚ) ^ f.emax = z at *
    generalize (2:ℚ) ^ 126 = z' at *
    norm_num at h2
    linarith)
  refine ⟨x, ?_⟩
  rw [e, h0, h0', mul_zero, mul_zero, zero_add, zero_add] at y
  have hu := hf.hu
  have het := hf.wide.heta
  have hu0 := f.u_pos
  have h1 : 4 * f.u * |c.val * d.val| ≤ 4 * (1 / 2 ^ 24) * (C * 2) :=
    mul_le_mul (by linarith) hcd (abs_nonneg _) (by norm_num)
  have h2 : f.u / 2 ^ 124 ≤ (1 / 2 ^ 24) / 2 ^ 124 := div_le_div_of_nonneg_right hu (by positivity)
  refine y.trans ?_
  norm_num at h1 h2 ⊢
  linarith

theorem dec_one (hf : Std f) (hp : PowAccurate f) :
    (Flt.powf (unquant8 255) (FP.ofQ f false 2.19921875) : FP f).isFinite = true ∧
    |(Flt.powf (unquant8 255) (FP.ofQ f false 2.19921875) : FP f).val - 1| ≤ 1 / 2 ^ 20 := by
  obtain ⟨a, b, c, d, -⟩ := unquant8_spec (f := f) hf 255
  have a0 := RelF.ofQ hf (q := 2.19921875) (by norm_num) (by norm_num)
  obtain ⟨k0, k1⟩ := RelF.small (f := f) (n := 1) hf (by norm_num) (by norm_num)
  obtain ⟨g1, g2⟩ := a0.err.bounds k0 (k1.trans (by norm_num))
  obtain ⟨g3, g4⟩ := abs_le.1 (a0.err.to_abs k0 (by norm_num at k1 ⊢; linarith))
  have gf := a0.fin
  generalize (FP.ofQ f false 2.19921875 : FP f) = g at *
  have hs : (1:ℝ) * kap f * (1 + 1 * kap f) ≤ 1 / 2 ^ 12 := by
    norm_num at k0 k1 ⊢; nlinarith
  have g5 : (g.val : ℝ) ≤ 3 := by
    norm_num at g3 g4 hs ⊢
    nlinarith
  have g6 : (0:ℝ) ≤ g.val := by norm_num at g1; linarith
  set x := (unquant8 255 : FP f) with hx
  have hx1 : (1:ℝ) - 1 / 2 ^ 24 ≤ x.val := by
    have := (abs_le.1 d).1
    have e : ((255 : UInt8).toNat : ℚ) = 255 := by decide
    rw [e] at this
    have h2 : (1:ℚ) - 1 / 2 ^ 24 ≤ x.val := by norm_num at this ⊢; linarith
    qcast h2
  have hx2 : (x.val : ℝ) ≤ 1 := by exact_mod_cast c
  have hx0 : (0:ℝ) < x.val := by norm_num at hx1; linarith
  have p1 : (x.val : ℝ) ^ (g.val : ℝ) ≤ 1 := Real.rpow_le_one hx0.le hx2 g6
  have p2 : 1 - 3 / 2 ^ 24 ≤ (x.val : ℝ) ^ (g.val : ℝ) := by
    have h1 : (x.val : ℝ) ^ (3:ℝ) ≤ (x.val : ℝ) ^ (g.val : ℝ) :=
      Real.rpow_le_rpow_of_exponent_ge hx0 hx2 g5
    have h2 : ((1:ℝ) - 1 / 2 ^ 24) ^ (3:ℝ) ≤ (x.val : ℝ) ^ (3:ℝ) :=
      Real.rpow_le_rpow (by norm_num) hx1 (by norm_num)
    have h3 : (1:ℝ) - 3 / 2 ^ 24 ≤ (1 - 1 / 2 ^ 24) ^ (3:ℝ) := by
      rw [show (3:ℝ) = ((3:ℕ):ℝ) by norm_num, Real.rpow_natCast]; norm_num
    linarith
  obtain ⟨q1, q2⟩ := hp.near x g a gf (by
      have h2 : (1:ℝ) / 2 ^ 60 ≤ x.val := by norm_num at hx1 ⊢; linarith
      qcast h2) (le_trans c (by norm_num))
    (by
      have h2 : |(g.val : ℝ)| ≤ 4 := by rw [abs_of_nonneg g6]; linarith
      exact_mod_cast h2)
    (le_trans (by norm_num) p2) (le_trans p1 (by norm_num))
  refine ⟨q1, ?_⟩
  have hu : (f.u : ℝ) ≤ 1 / 2 ^ 24 := by qcast hf.hu
  have hu0 : (0:ℝ) < f.u := by exact_mod_cast f.u_pos
  have q3 : |((Flt.powf x g).val : ℝ) - 1| ≤ 1 / 2 ^ 20 := by
    have h1 : 4 * (f.u : ℝ) * (x.val : ℝ) ^ (g.val : ℝ) ≤ 4 * (1 / 2 ^ 24) * 1 :=
      mul_le_mul (by linarith) p1 (Real.rpow_nonneg hx0.le _) (by norm_num)
    obtain ⟨q4, q5⟩ := abs_le.1 (q2.trans h1)
    rw [abs_le]
    norm_num at q4 q5 p2 ⊢
    constructor <;> linarith
  qcast q3

theorem adobe_blue (hf : Std f) (hp : PowAccurate f) {m n : Matrix33 (FP f)} (h : blueCheck m n = true) :
    (((Shipped.adobeRgb1998 (FP.ofQ f false)).encode
      (n * (m * (Shipped.adobeRgb1998 (FP.ofQ f false)).decode (RGBu8.toF ⟨0, 0, 255⟩)))).toU8).r = 2 := by
  unfold blueCheck at h
  simp only [Bool.and_eq_true, decide_eq_true_eq] at h
  obtain ⟨⟨hm, hn⟩, s1, s2, m2, m5, m8, n0, n1, n2⟩ := h
  have fm := Matrix33.fin_get hm
  have fn := Matrix33.fin_get hn
  have a0 := RelF.ofQ hf (q := 2.19921875) (by norm_num) (by norm_num)
  have a2 := (RelF.ofQ_one (f := f)).div hf a0
    (by norm_num) (by norm_num) (by norm_num) (by norm_num) (by norm_num)
  obtain ⟨u1, -, -, u2, u3⟩ := unquant8_spec (f := f) hf 0
  have u0 : (unquant8 0 : FP f).val = 0 := by
    rcases u3 with h | h
    · exact h
    · have := (abs_le.1 u2).2
      have e : ((0 : UInt8).toNat : ℚ) = 0 := by decide
      rw [e] at this
      norm_num at this h
      linarith
  obtain ⟨z1, z2⟩ := hp.zero (unquant8 0) _ u1 a0.fin u0 (by have := a0.err.xpos; exact_mod_cast this)
  obtain ⟨d1, d2⟩ := dec_one hf hp
  set z : FP f := Flt.powf (unquant8 0) (FP.ofQ f false 2.19921875) with hz
  set d : FP f := Flt.powf (unquant8 255) (FP.ofQ f false 2.19921875) with hd
  obtain ⟨d3, d4⟩ := abs_le.1 d2
  have d5 : |d.val| ≤ 2 := by rw [abs_le]; norm_num at d3 d4; constructor <;> linarith
  obtain ⟨f0, e0⟩ := dot_last hf (fm 0 0) (fm 0 1) (fm 0 2) z1 z1 d1 z2 z2 m2 (by norm_num) d5
  obtain ⟨f1, e1⟩ := dot_last hf (fm 1 0) (fm 1 1) (fm 1 2) z1 z1 d1 z2 z2 m5 (by norm_num) d5
  obtain ⟨f2, e2⟩ := dot_last hf (fm 2 0) (fm 2 1) (fm 2 2) z1 z1 d1 z2 z2 m8 (by norm_num) d5
  set y0 : FP f := m.get 0 0 * z + m.get 0 1 * z + m.get 0 2 * d with hy0
  set y1 : FP f := m.get 1 0 * z + m.get 1 1 * z + m.get 1 2 * d with hy1
  set y2 : FP f := m.get 2 0 * z + m.get 2 1 * z + m.get 2 2 * d with hy2
  change |y0.val - m.x2.val * d.val| ≤ _ at e0
  change |y1.val - m.x5.val * d.val| ≤ _ at e1
  change |y2.val - m.x8.val * d.val| ≤ _ at e2
  have D : |d.val| ≤ 1.001 := by rw [abs_le]; norm_num at d3 d4 ⊢; constructor <;> linarith
  have B : ∀ {y c C : ℚ}, |y - c * d.val| ≤ 5e-7 * C + 1e-15 → |c| ≤ C → |y| ≤ 1.002 * C + 1e-15 := by
    intro y c C h1 h2
    have h3 := abs_add_le (y - c * d.val) (c * d.val)
    rw [sub_add_cancel, abs_mul] at h3
    have h4 : |c| * |d.val| ≤ C * 1.001 := mul_le_mul h2 D (abs_nonneg _) (le_trans (abs_nonneg _) h2)
    have h5 : 0 ≤ C := le_trans (abs_nonneg _) h2
    norm_num at *
    linarith
  have b0 := B e0 m2
  have b1 := B e1 m5
  have b2 := B e2 m8
  have t0 : |n.x0.val * y0.val| ≤ 1 * 0.0011 := by
    rw [abs_mul]; exact mul_le_mul n0 (b0.trans (by norm_num)) (abs_nonneg _) (by norm_num)
  have t1 : |n.x1.val * y1.val| ≤ 1 * 0.0011 := by
    rw [abs_mul]; exact mul_le_mul n1 (b1.trans (by norm_num)) (abs_nonneg _) (by norm_num)
  have t2 : |n.x2.val * y2.val| ≤ 1 / 1000 * 2.1 := by
    rw [abs_mul]; exact mul_le_mul n2 (b2.trans (by norm_num)) (abs_nonneg _) (by norm_num)
  have T : |n.x0.val * y0.val| + |n.x1.val * y1.val| + |n.x2.val * y2.val| ≤ 0.0044 := by
    norm_num at t0 t1 t2 ⊢; linarith
  obtain ⟨fr, er⟩ := dot3_err (fn 0 0) (fn 0 1) (fn 0 2) f0 f1 f2 (by
    change |n.x0.val * y0.val| + |n.x1.val * y1.val| + |n.x2.val * y2.val| ≤ _
    have h1 := hf.wide.hmax
    have h2 : (2:ℚ) ^ 4 ≤ 2 ^ 126 := pow_le_pow_right₀ (by norm_num) (by norm_num)
    generalize (2:ℚ) ^ f.emax = z at *
    generalize (2:ℚ) ^ 126 = z' at *
    norm_num at h2 T ⊢
    linarith)
  set r : FP f := n.get 0 0 * y0 + n.get 0 1 * y1 + n.get 0 2 * y2 with hr
  change |r.val - (n.x0.val * y0.val + n.x1.val * y1.val + n.x2.val * y2.val)| ≤
    4 * f.u * (|n.x0.val * y0.val| + |n.x1.val * y1.val| + |n.x2.val * y2.val|) + 5 * f.eta at er
  have hu := hf.hu
  have het := hf.wide.heta
  have hu0 := f.u_pos
  have h2 : f.u / 2 ^ 124 ≤ (1 / 2 ^ 24) / 2 ^ 124 := div_le_div_of_nonneg_right hu (by positivity)
  have er' : |r.val - (n.x0.val * y0.val + n.x1.val * y1.val + n.x2.val * y2.val)| ≤ 2e-9 := by
    have h1 : 4 * f.u * (|n.x0.val * y0.val| + |n.x1.val * y1.val| + |n.x2.val * y2.val|) ≤
        4 * (1 / 2 ^ 24) * 0.0044 := mul_le_mul (by linarith) T (by positivity) (by norm_num)
    refine er.trans ?_
    norm_num at h1 h2 ⊢
    linarith
  have K : ∀ {a x y ε α : ℚ}, |x - y| ≤ ε → |a| ≤ α → |a * x - a * y| ≤ α * ε := by
    intro a x y ε α h1 h2
    rw [← mul_sub, abs_mul]
    exact mul_le_mul h2 h1 (abs_nonneg _) (le_trans (abs_nonneg _) h2)
  have k0 := K e0 n0
  have k1 := K e1 n1
  have k2 := K e2 n2
  have kd : |(n.x0.val * m.x2.val + n.x1.val * m.x5.val + n.x2.val * m.x8.val) * d.val -
      (n.x0.val * m.x2.val + n.x1.val * m.x5.val + n.x2.val * m.x8.val) * 1| ≤ 20e-6 * (1 / 2 ^ 20) :=
    K d2 (abs_le.2 ⟨by norm_num at s1 ⊢; linarith, s2⟩)
  have R : 18.4e-6 ≤ r.val ∧ r.val ≤ 20.1e-6 := by
    obtain ⟨v1, v2⟩ := abs_le.1 er'
    obtain ⟨v3, v4⟩ := abs_le.1 k0
    obtain ⟨v5, v6⟩ := abs_le.1 k1
    obtain ⟨v7, v8⟩ := abs_le.1 k2
    obtain ⟨v9, v10⟩ := abs_le.1 kd
    norm_num at v1 v2 v3 v4 v5 v6 v7 v8 v9 v10 s1 s2 ⊢
    constructor <;> linarith
  obtain ⟨k3, k4⟩ := RelF.small (f := f) (n := 0 + 1 + 1) hf (by norm_num) (by norm_num)
  obtain ⟨g3, g4⟩ := abs_le.1 (a2.err.to_abs k3 (by norm_num at k4 ⊢; linarith))
  have gf := a2.fin
  have hs : (0 + 1 + 1) * kap f * (1 + (0 + 1 + 1) * kap f) ≤ 1 / 2 ^ 12 := by
    norm_num at k3 k4 ⊢; nlinarith
  have goal : (((Shipped.adobeRgb1998 (FP.ofQ f false)).encode
      (n * (m * (Shipped.adobeRgb1998 (FP.ofQ f false)).decode (RGBu8.toF ⟨0, 0, 255⟩)))).toU8).r =
      quant8 (Flt.powf r (FP.ofQ f false 1.0 / FP.ofQ f false 2.19921875)) := rfl
  rw [goal]
  generalize (FP.ofQ f false 1.0 / FP.ofQ f false 2.19921875 : FP f) = g at *
  have q1 : (5 / 11 : ℝ) ≤ g.val := by
    generalize (0 + 1 + 1) * kap f * (1 + (0 + 1 + 1) * kap f) = w at *
    norm_num at g3 g4 hs ⊢
    linarith
  have q2 : (g.val : ℝ) ≤ 6 / 13 := by
    generalize (0 + 1 + 1) * kap f * (1 + (0 + 1 + 1) * kap f) = w at *
    norm_num at g3 g4 hs ⊢
    linarith
  have r1 : (18.4e-6 : ℝ) ≤ r.val := by
    have : ((18.4e-6 : ℚ) : ℝ) ≤ r.val := by exact_mod_cast R.1
    norm_num at this ⊢; exact this
  have r2 : (r.val : ℝ) ≤ 20.1e-6 := by
    have : (r.val : ℝ) ≤ ((20.1e-6 : ℚ) : ℝ) := by exact_mod_cast R.2
    norm_num at this ⊢; exact this
  have r0 : (0 : ℝ) < r.val := by norm_num at r1; linarith
  have r3 : (r.val : ℝ) ≤ 1 := by norm_num at r2; linarith
  have lo : (0.0063 : ℝ) ≤ (r.val : ℝ) ^ (g.val : ℝ) := by
    have h1 : (r.val : ℝ) ^ (6 / 13 : ℝ) ≤ (r.val : ℝ) ^ (g.val : ℝ) :=
      Real.rpow_le_rpow_of_exponent_ge r0 r3 q2
    have h2 : (18.4e-6 : ℝ) ^ (6 / 13 : ℝ) ≤ (r.val : ℝ) ^ (6 / 13 : ℝ) :=
      Real.rpow_le_rpow (by norm_num) r1 (by norm_num)
    have h3 : (0.0063 : ℝ) ≤ (18.4e-6 : ℝ) ^ (6 / 13 : ℝ) := by
      rw [show (6 / 13 : ℝ) = ((6:ℕ):ℝ) * ((13:ℕ):ℝ)⁻¹ by norm_num, Real.rpow_mul (by norm_num),
        Real.rpow_natCast]
      refine le_trans (le_of_eq ?_) (Real.rpow_le_rpow (z := ((13:ℕ):ℝ)⁻¹) (x := (0.0063:ℝ) ^ 13)
        (by positivity) (by norm_num) (by positivity))
      rw [Real.pow_rpow_inv_natCast (by norm_num) (by norm_num)]
    linarith
  have hi : (r.val : ℝ) ^ (g.val : ℝ) ≤ 0.009 := by
    have h1 : (r.val : ℝ) ^ (g.val : ℝ) ≤ (r.val : ℝ) ^ (5 / 11 : ℝ) :=
      Real.rpow_le_rpow_of_exponent_ge r0 r3 q1
    have h2 : (r.val : ℝ) ^ (5 / 11 : ℝ) ≤ (20.1e-6 : ℝ) ^ (5 / 11 : ℝ) :=
      Real.rpow_le_rpow r0.le r2 (by norm_num)
    have h3 : (20.1e-6 : ℝ) ^ (5 / 11 : ℝ) ≤ 0.009 := by
      rw [show (5 / 11 : ℝ) = ((5:ℕ):ℝ) * ((11:ℕ):ℝ)⁻¹ by norm_num, Real.rpow_mul (by norm_num),
        Real.rpow_natCast]
      refine le_trans (Real.rpow_le_rpow (z := ((11:ℕ):ℝ)⁻¹) (y := (0.009:ℝ) ^ 11)
        (by positivity) (by norm_num) (by positivity)) (le_of_eq ?_)
      rw [Real.pow_rpow_inv_natCast (by norm_num) (by norm_num)]
    linarith
  obtain ⟨w1, w2⟩ := hp.near r g fr gf (le_trans (by norm_num) R.1) (le_trans R.2 (by norm_num))
    (by
      have h2 : |(g.val : ℝ)| ≤ 4 := by rw [abs_le]; constructor <;> linarith
      exact_mod_cast h2)
    (le_trans (by norm_num) lo) (le_trans hi (by norm_num))
  refine quant8_of_near hf w1 2 ?_
  obtain ⟨-, -, -, v, -⟩ := unquant8_spec (f := f) hf 2
  have v' : |((unquant8 2 : FP f).val : ℝ) - 2 / 255| ≤ 1 / 2 ^ 24 := by
    have e : ((2 : UInt8).toNat : ℚ) = 2 := by decide
    rw [e] at v
    qcast v
  have huR : (f.u : ℝ) ≤ 1 / 2 ^ 24 := by qcast hf.hu
  have h1 : 4 * (f.u : ℝ) * (r.val : ℝ) ^ (g.val : ℝ) ≤ 4 * (1 / 2 ^ 24) * 0.009 :=
    mul_le_mul (by linarith) hi (le_trans (by norm_num) lo) (by norm_num)
  obtain ⟨w3, w4⟩ := abs_le.1 (w2.trans h1)
  obtain ⟨v1, v2⟩ := abs_le.1 v'
  rw [abs_le]
  generalize (r.val : ℝ) ^ (g.val : ℝ) = P at *
  norm_num at w3 w4 v1 v2 lo hi ⊢
  constructor <;> linarith
end

theorem adobe_check64 : @withCat02 Fmt.b64 (noLibm _) (fun MAi MA =>
    @fastRgb Fmt.b64 (noLibm _) MAi MA Tripb64.adobeRgb1998 Tripb64.srgb blueCheck) = true := by krefl

theorem adobe_check32 : @withCat02 Fmt.b32 (noLibm _) (fun MAi MA =>
    @fastRgb Fmt.b32 (noLibm _) MAi MA Tripb32.adobeRgb1998 Tripb32.srgb blueCheck) = true := by krefl

theorem adobe_through {f : Fmt} (L : Libm f) (hf : Std f) (hp : PowAccurate f)
    {a0 b0 : ColorSpaceRGB (FP f)} {t : ℚ}
    (ha : Linked (.ok (Shipped.adobeRgb1998 (FP.ofQ f false)), t) (a0, t))
    (hb : Linked (.ok (Shipped.srgb (FP.ofQ f false)), t) (b0, t))
    (h : @withCat02 f (noLibm f) (fun MAi MA => @fastRgb f (noLibm f) MAi MA a0 b0 blueCheck) = true) :
    ∃ m n, rgbToRgbMatrix (Shipped.adobeRgb1998 (FP.ofQ f false)) (Shipped.srgb (FP.ofQ f false)) = .ok m ∧
      rgbToRgbMatrix (Shipped.srgb (FP.ofQ f false)) (Shipped.adobeRgb1998 (FP.ofQ f false)) = .ok n ∧
      (((Shipped.adobeRgb1998 (FP.ofQ f false)).encode (n * (m *
        (Shipped.adobeRgb1998 (FP.ofQ f false)).decode (RGBu8.toF ⟨0, 0, 255⟩)))).toU8).r = 2 := by
  obtain ⟨a, ea, a1, a2, a3, -⟩ := ha
  obtain ⟨b, eb, b1, b2, b3, -⟩ := hb
  cases ea
  cases eb
  rw [← withCat02_libm L, ← fastRgb_libm L] at h
  obtain ⟨MAi, hi, h⟩ := withCat02_sound h
  obtain ⟨A, B, hA, hB, hk⟩ := fastRgb_sound hi h
  refine ⟨A, B, ?_, ?_, adobe_blue hf hp hk⟩
  · rw [← hA]; unfold rgbToRgbMatrix; rw [a2, a3, b1, b3]
  · rw [← hB]; unfold rgbToRgbMatrix; rw [a1, a3, b2, b3]

/-- C83 [F]: the restriction to curves of bounded slope is needed. In f32 and in f64 the 8-bit Adobe RGB
colour (0, 0, 255), converted to sRGB and back, does not come back: its red is then 2. -/
theorem C83_adobe_counterexample [Libm Fmt.b32] [Libm Fmt.b64] (hp : PowAccurate Fmt.b32)
    (hp' : PowAccurate Fmt.b64) :
    ¬ Spec.Through8 (.ok (Shipped.adobeRgb1998 (FP.ofQ Fmt.b32 false))) (Spec.srgb Fmt.b32) ∧
    ¬ Spec.Through8 (.ok (Shipped.adobeRgb1998 (FP.ofQ Fmt.b64 false))) (Spec.srgb Fmt.b64) := by
  constructor
  · rintro ⟨a, b, m, n, ea, eb, hm, hn, h⟩
    cases ea
    cases eb
    obtain ⟨m', n', hm', hn', h2⟩ := adobe_through (t := 0) ‹Libm Fmt.b32› std_b32 hp
      (linked_of_check (adobeRgb1998_same Tripb32.l _) Tripb32.link_adobeRgb1998)
      (linked_of_check (srgb_same Tripb32.l _) Tripb32.link_srgb) adobe_check32
    rw [hm] at hm'
    rw [hn] at hn'
    cases hm'
    cases hn'
    rw [h] at h2
    exact absurd h2 (by decide)
  · rintro ⟨a, b, m, n, ea, eb, hm, hn, h⟩
    cases ea
    cases eb
    obtain ⟨m', n', hm', hn', h2⟩ := adobe_through (t := 0) ‹Libm Fmt.b64› std_b64 hp'
      (linked_of_check (adobeRgb1998_same Tripb64.l _) Tripb64.link_adobeRgb1998)
      (linked_of_check (srgb_same Tripb64.l _) Tripb64.link_srgb) adobe_check64
    rw [hm] at hm'
    rw [hn] at hn'
    cases hm'
    cases hn'
    rw [h] at h2
    exact absurd h2 (by decide)

/-- Not vacuous: the library that rounds the exact power is accurate. -/
example : letI := idealLibm Fmt.b32
    PowAccurate Fmt.b32 := ideal_pow std_b32

end CS

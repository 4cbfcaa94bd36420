import Verif.Lemmas.FPBt
import Verif.Lemmas.ImageQ
import Verif.Lemmas.Transfer

/-!
# The LogC curve in floating point, with absolute errors
-/

namespace CS

/-- What the theorems about LogC assume of the platform's `log10`: between `2^-10` and `2^10` it is
within four roundings of the exact logarithm, relative to one plus its size. -/
structure LogAccurate (f : Fmt) [Libm f] : Prop where
  near : ∀ x : FP f, x.isFinite = true → 1 / 2 ^ 10 ≤ x.val → x.val ≤ 2 ^ 10 →
    (Flt.log10 x).isFinite = true ∧
      |((Flt.log10 x).val : ℝ) - Real.logb 10 (x.val : ℝ)| ≤
        4 * (f.u : ℝ) * (1 + |Real.logb 10 (x.val : ℝ)|)

/-- `a` is finite and within `e` of `X` -/
structure AbsF {f : Fmt} (e : ℝ) (a : FP f) (X : ℝ) : Prop where
  fin : a.isFinite = true
  err : |(a.val : ℝ) - X| ≤ e

section
variable {f : Fmt} {e d : ℝ} {a b : FP f} {X Y : ℝ}

theorem u_tiny (hf : Std f) :
    (f.u : ℝ) ≤ 6 / 10 ^ 8 ∧ (0:ℝ) < f.u ∧ (f.eta : ℝ) ≤ 1 / 10 ^ 12 := by
  have hu : (f.u : ℝ) ≤ 1 / 2 ^ 24 := by qcast hf.hu
  have hu0 : (0:ℝ) < f.u := by exact_mod_cast f.u_pos
  have het : (f.eta : ℝ) ≤ f.u / 2 ^ 124 := by qcast hf.wide.heta
  have het' : (f.u : ℝ) / 2 ^ 124 ≤ f.u / 10 ^ 8 :=
    div_le_div_of_nonneg_left hu0.le (by norm_num) (by norm_num)
  norm_num at hu het'
  refine ⟨by norm_num; linarith, hu0, by norm_num; linarith⟩

theorem AbsF.mono (h : AbsF e a X) (hed : e ≤ d) : AbsF d a X := ⟨h.fin, h.err.trans hed⟩

theorem AbsF.exact (ha : a.isFinite = true) : AbsF 0 a (a.val : ℝ) := ⟨ha, by simp⟩

theorem AbsF.lit (hf : Std f) {q : ℚ} (h1 : 1 / 2 ^ 20 ≤ q) (h2 : q ≤ 2 ^ 20) :
    AbsF ((q : ℝ) * (6 / 10 ^ 8)) (FP.lit q : FP f) (q : ℝ) := by
  obtain ⟨h3, h4⟩ := hf.lit q h1 h2
  refine ⟨h3, ?_⟩
  have h5 : |((FP.lit q : FP f).val : ℝ) - q| ≤ q * (f.u * (1 + 1 / 2 ^ 20)) := by qcast h4
  refine h5.trans (mul_le_mul_of_nonneg_left ?_ ?_)
  · have hu : (f.u : ℝ) ≤ 1 / 2 ^ 24 := by qcast hf.hu
    norm_num at hu ⊢; linarith
  · exact_mod_cast (le_trans (by positivity) h1)

/-- the final rounding of an operation -/
theorem AbsF.round (hf : Std f) {c : FP f} {Z W M E : ℝ} (hc : c.isFinite = true)
    (h : |(c.val : ℝ) - Z| ≤ |Z| * f.u + f.eta) (hZ : |Z - W| ≤ E) (hW : |W| ≤ M) :
    AbsF (E + (M + E) * (6 / 10 ^ 8) + 1 / 10 ^ 12) c W := by
  refine ⟨hc, ?_⟩
  obtain ⟨u1, u2, u3⟩ := u_tiny hf
  have h1 := abs_add_le ((c.val : ℝ) - Z) (Z - W)
  rw [sub_add_sub_cancel] at h1
  have h2 := abs_add_le (Z - W) W
  rw [sub_add_cancel] at h2
  have h3 : |Z| * f.u ≤ (M + E) * (6 / 10 ^ 8) :=
    mul_le_mul (by linarith) u1 u2.le (by have := abs_nonneg Z; linarith)
  linarith

theorem AbsF.bound (h : AbsF e a X) : |(a.val : ℝ)| ≤ |X| + e := by
  have := abs_add_le ((a.val : ℝ) - X) X
  rw [sub_add_cancel] at this
  linarith [h.err]

theorem AbsF.add (hf : Std f) (ha : AbsF e a X) (hb : AbsF d b Y) {M : ℝ} (hM : |X + Y| ≤ M)
    (hM2 : M + (e + d) ≤ 10 ^ 6) :
    AbsF (e + d + (M + (e + d)) * (6 / 10 ^ 8) + 1 / 10 ^ 12) (a + b) (X + Y) := by
  have h1 : |(a.val : ℝ) + b.val - (X + Y)| ≤ e + d := by
    have := abs_add_le ((a.val : ℝ) - X) (b.val - Y)
    rw [show (a.val : ℝ) - X + (b.val - Y) = a.val + b.val - (X + Y) by ring] at this
    linarith [ha.err, hb.err]
  have h2 : |(a.val : ℝ) + b.val| ≤ 10 ^ 6 := by
    have := abs_add_le ((a.val : ℝ) + b.val - (X + Y)) (X + Y)
    rw [sub_add_cancel] at this
    linarith
  have hq : |a.val + b.val| ≤ (2:ℚ) ^ 61 := by
    have : |(a.val : ℝ) + b.val| ≤ 2 ^ 61 := h2.trans (by norm_num)
    qcast this
  obtain ⟨s1, s2⟩ := FP.add_err ha.fin hb.fin (pow_le_emax hf.wide hq)
  have s3 : |((a + b : FP f).val : ℝ) - (a.val + b.val)| ≤ |(a.val : ℝ) + b.val| * f.u := by qcast s2
  have h0 : (0:ℝ) ≤ f.eta := by exact_mod_cast f.eta_pos.le
  exact AbsF.round hf s1 (by linarith) h1 hM

theorem AbsF.sub (hf : Std f) (ha : AbsF e a X) (hb : AbsF d b Y) {M : ℝ} (hM : |X - Y| ≤ M)
    (hM2 : M + (e + d) ≤ 10 ^ 6) :
    AbsF (e + d + (M + (e + d)) * (6 / 10 ^ 8) + 1 / 10 ^ 12) (a - b) (X - Y) := by
  have h1 : |(a.val : ℝ) - b.val - (X - Y)| ≤ e + d := by
    have := abs_sub ((a.val : ℝ) - X) (b.val - Y)
    rw [show (a.val : ℝ) - X - (b.val - Y) = a.val - b.val - (X - Y) by ring] at this
    linarith [ha.err, hb.err]
  have h2 : |(a.val : ℝ) - b.val| ≤ 10 ^ 6 := by
    have := abs_add_le ((a.val : ℝ) - b.val - (X - Y)) (X - Y)
    rw [sub_add_cancel] at this
    linarith
  have hq : |a.val - b.val| ≤ (2:ℚ) ^ 61 := by
    have : |(a.val : ℝ) - b.val| ≤ 2 ^ 61 := h2.trans (by norm_num)
    qcast this
  obtain ⟨s1, s2⟩ := FP.sub_err ha.fin hb.fin (pow_le_emax hf.wide hq)
  have s3 : |((a - b : FP f).val : ℝ) - (a.val - b.val)| ≤ |(a.val : ℝ) - b.val| * f.u := by qcast s2
  have h0 : (0:ℝ) ≤ f.eta := by exact_mod_cast f.eta_pos.le
  exact AbsF.round hf s1 (by linarith) h1 hM

theorem AbsF.mul (hf : Std f) (ha : AbsF e a X) (hb : AbsF d b Y) {A B E M : ℝ} (hA : |X| ≤ A)
    (hB : |Y| + d ≤ B) (hE : A * d + e * B ≤ E) (hM : |X * Y| ≤ M) (hM2 : M + E ≤ 10 ^ 6) :
    AbsF (E + (M + E) * (6 / 10 ^ 8) + 1 / 10 ^ 12) (a * b) (X * Y) := by
  have h1 : |(a.val : ℝ) * b.val - X * Y| ≤ E := by
    refine le_trans ?_ hE
    rw [show (a.val : ℝ) * b.val - X * Y = X * (b.val - Y) + (a.val - X) * b.val by ring]
    refine le_trans (abs_add_le _ _) ?_
    rw [abs_mul, abs_mul]
    have e0 := le_trans (abs_nonneg _) ha.err
    exact add_le_add (mul_le_mul hA hb.err (abs_nonneg _) (le_trans (abs_nonneg _) hA))
      (mul_le_mul ha.err (hb.bound.trans hB) (abs_nonneg _) e0)
  have h2 : |(a.val : ℝ) * b.val| ≤ 10 ^ 6 := by
    have := abs_add_le ((a.val : ℝ) * b.val - (X * Y)) (X * Y)
    rw [sub_add_cancel] at this
    linarith
  have hq : |a.val * b.val| ≤ (2:ℚ) ^ 61 := by
    have : |(a.val : ℝ) * b.val| ≤ 2 ^ 61 := h2.trans (by norm_num)
    qcast this
  obtain ⟨s1, s2⟩ := FP.mul_err ha.fin hb.fin (pow_le_emax hf.wide hq)
  have s3 : |((a * b : FP f).val : ℝ) - (a.val * b.val)| ≤ |(a.val : ℝ) * b.val| * f.u + f.eta := by
    qcast s2
  exact AbsF.round hf s1 s3 h1 hM

theorem AbsF.div [Libm f] (hf : Std f) (ha : AbsF e a X) (hb : AbsF d b Y) {Q E : ℝ} (hY : d < Y)
    (hQ : |X / Y| ≤ Q) (hE : e + Q * d ≤ E * (Y - d)) (hM2 : Q + E ≤ 10 ^ 6) :
    AbsF (E + (Q + E) * (6 / 10 ^ 8) + 1 / 10 ^ 12) (a / b) (X / Y) := by
  have d0 := le_trans (abs_nonneg _) hb.err
  have hY0 : 0 < Y := by linarith
  have hb1 : Y - d ≤ b.val := by linarith [(abs_le.1 hb.err).1]
  have hb0 : (0:ℝ) < b.val := by linarith
  have h1 : |(a.val : ℝ) / b.val - X / Y| ≤ E := by
    have e1 : (a.val : ℝ) / b.val - X / Y = (a.val - X + X / Y * (Y - b.val)) / b.val := by
      field_simp; ring
    rw [e1, abs_div, abs_of_pos hb0, div_le_iff₀ hb0]
    have e2 : |(a.val : ℝ) - X + X / Y * (Y - b.val)| ≤ e + Q * d := by
      refine le_trans (abs_add_le _ _) (add_le_add ha.err ?_)
      rw [abs_mul, abs_sub_comm]
      exact mul_le_mul hQ hb.err (abs_nonneg _) (le_trans (abs_nonneg _) hQ)
    have hE0 : 0 ≤ E := by
      have h0 : 0 ≤ e + Q * d := le_trans (abs_nonneg _) e2
      by_contra hc
      push Not at hc
      have := mul_neg_of_neg_of_pos hc (by linarith : 0 < Y - d)
      linarith
    exact e2.trans (hE.trans (mul_le_mul_of_nonneg_left hb1 hE0))
  have h2 : |(a.val : ℝ) / b.val| ≤ 10 ^ 6 := by
    have := abs_add_le ((a.val : ℝ) / b.val - (X / Y)) (X / Y)
    rw [sub_add_cancel] at this
    linarith
  have hq : |a.val / b.val| ≤ (2:ℚ) ^ 61 := by
    have : |(a.val : ℝ) / b.val| ≤ 2 ^ 61 := h2.trans (by norm_num)
    qcast this
  have hbq : b.val ≠ 0 := by
    have := hb0.ne'
    exact_mod_cast this
  obtain ⟨s1, s2⟩ := FP.div_err ha.fin hb.fin hbq (pow_le_emax hf.wide hq)
  have s3 : |((a / b : FP f).val : ℝ) - (a.val / b.val)| ≤ |(a.val : ℝ) / b.val| * f.u + f.eta := by
    qcast s2
  exact AbsF.round hf s1 s3 h1 hQ

end

section logc
variable {f : Fmt} [Libm f]

theorem lit_ten (hf : Std f) : (FP.lit 10.0 : FP f).isFinite = true ∧ (FP.lit 10.0 : FP f).val = 10 := by
  have h1 : IsRep f 10 := by
    have := FP.isRep_nat (f := f) 10 (le_trans (by norm_num)
      (Nat.pow_le_pow_right (by norm_num) (by have := hf.p24; omega : 4 ≤ f.p)))
    simpa using this
  have h2 : IsRep Fmt.b64 10 := by
    have := FP.isRep_nat (f := Fmt.b64) 10 (by decide)
    simpa using this
  have e : (FP.lit 10.0 : FP f) = FP.fin 10 h1 := by
    unfold FP.lit
    rw [show (10.0 : ℚ) = 10 by norm_num, FP.ofQ_isRep h2 (by norm_num)]
    exact FP.ofQ_isRep h1 (by norm_num) _
  rw [e]; exact ⟨rfl, rfl⟩

/-- decoding above the cut -/
theorem logc_dec_log (hf : Std f) (hp : PowAccurate f) {t : FP f} (ht : t.isFinite = true)
    (h0 : (0.149 : ℝ) ≤ t.val) (h1 : (t.val : ℝ) ≤ 1) {P : ℝ}
    (hP : P = (10:ℝ) ^ (((t.val : ℝ) - 0.385537) / 0.247190)) :
    1 / 10 ≤ P ∧ P ≤ 1000 ∧
    AbsF (63 / 10 ^ 8 * P) ((Flt.powf (FP.lit 10.0) ((t - FP.lit 0.385537) / FP.lit 0.247190)
      - FP.lit 0.052272) / FP.lit 5.555556) ((P - 0.052272) / 5.555556) := by
  have a1 := (AbsF.exact ht).sub hf (AbsF.lit hf (q := 0.385537) (by norm_num) (by norm_num)) (M := 1)
    (by rw [abs_le]; norm_num at h0 ⊢; constructor <;> linarith) (by norm_num)
  have a2 := a1.div hf (AbsF.lit hf (q := 0.247190) (by norm_num) (by norm_num)) (Q := 3)
    (E := 7 / 10 ^ 7) (by norm_num) (by rw [abs_le]; norm_num at h0 ⊢; constructor <;> linarith)
    (by norm_num) (by norm_num)
  have e1 : ((t.val : ℝ) - ((0.385537 : ℚ) : ℝ)) / ((0.247190 : ℚ) : ℝ)
      = ((t.val : ℝ) - 0.385537) / 0.247190 := by norm_num
  rw [e1] at a2
  set W := ((t.val : ℝ) - 0.385537) / 0.247190 with hW
  set w := (t - FP.lit 0.385537 : FP f) / FP.lit 0.247190 with hw
  have hW1 : -1 ≤ W := by rw [hW]; norm_num at h0 ⊢; linarith
  have hW2 : W ≤ 5 / 2 := by rw [hW]; norm_num; linarith
  have hP0 : 0 < P := by rw [hP]; positivity
  have hPl : 1 / 10 ≤ P := by
    rw [hP, show (1:ℝ) / 10 = 10 ^ (-1 : ℝ) by rw [Real.rpow_neg_one]; norm_num]
    exact Real.rpow_le_rpow_of_exponent_le (by norm_num) hW1
  have hPu : P ≤ 1000 := by
    rw [hP, show (1000:ℝ) = 10 ^ (3 : ℝ) by
      rw [show (3:ℝ) = ((3:ℕ):ℝ) by norm_num, Real.rpow_natCast]; norm_num]
    exact Real.rpow_le_rpow_of_exponent_le (by norm_num) (by linarith)
  refine ⟨hPl, hPu, ?_⟩
  -- the power
  have hδ : |(w.val : ℝ) - W| ≤ 1 / 10 ^ 6 := le_trans a2.err (by norm_num)
  obtain ⟨d1, d2⟩ := abs_le.1 hδ
  obtain ⟨t1, t2⟩ := lit_ten hf
  have hl10 : |Real.log 10| ≤ 4 * (6932 / 10000) := by
    have := abs_log_le (X := 10) 4 (by norm_num) (by norm_num)
    exact_mod_cast this
  have hl0 : 0 < Real.log 10 := Real.log_pos (by norm_num)
  rw [abs_of_pos hl0] at hl10
  have hwa : |(w.val : ℝ)| ≤ 4 := by
    rw [abs_le]; norm_num at d1 d2; constructor <;> linarith
  have hr := rpow_range (x := 10) (y := (w.val : ℝ)) (by norm_num) (by
    rw [abs_of_pos hl0]
    calc _ ≤ 4 * (6932 / 10000) * (4:ℝ) := mul_le_mul hl10 hwa (abs_nonneg _) (by norm_num)
      _ ≤ _ := by norm_num)
  obtain ⟨p1, p2⟩ := hp.near (FP.lit 10.0) w t1 a2.fin (by rw [t2]; norm_num) (by rw [t2]; norm_num)
    (by qcast hwa) (by rw [t2]; exact_mod_cast hr.1) (by rw [t2]; exact_mod_cast hr.2)
  rw [t2] at p2
  have e10 : ((10:ℚ):ℝ) = 10 := by norm_num
  rw [e10] at p2
  obtain ⟨u1, u2, _⟩ := u_tiny hf
  have hexp : (10:ℝ) ^ (w.val : ℝ) = P * Real.exp (Real.log 10 * (w.val - W)) := by
    rw [hP, Real.rpow_def_of_pos (by norm_num), Real.rpow_def_of_pos (by norm_num), ← Real.exp_add]
    congr 1; ring
  have hz : |Real.log 10 * ((w.val : ℝ) - W)| ≤ 2.78 / 10 ^ 6 := by
    rw [abs_mul, abs_of_pos hl0]
    calc _ ≤ 4 * (6932 / 10000) * (1 / 10 ^ 6 : ℝ) := mul_le_mul hl10 hδ (abs_nonneg _) (by norm_num)
      _ ≤ _ := by norm_num
  have hq : |(10:ℝ) ^ (w.val : ℝ) - P| ≤ P * (2.79 / 10 ^ 6) := by
    rw [hexp, show P * Real.exp (Real.log 10 * (w.val - W)) - P =
      P * (Real.exp (Real.log 10 * (w.val - W)) - 1) by ring, abs_mul, abs_of_pos hP0]
    refine mul_le_mul_of_nonneg_left ?_ hP0.le
    have h3 := Real.abs_exp_sub_one_sub_id_le (x := Real.log 10 * ((w.val : ℝ) - W))
      (le_trans hz (by norm_num))
    generalize Real.log 10 * ((w.val : ℝ) - W) = z at *
    have h4 := abs_add_le (Real.exp z - 1 - z) z
    rw [sub_add_cancel] at h4
    have h5 : z ^ 2 ≤ (2.78 / 10 ^ 6) ^ 2 := by
      rw [← sq_abs z]; exact pow_le_pow_left₀ (abs_nonneg _) hz 2
    norm_num at h3 h4 h5 hz ⊢
    linarith
  have hpw : AbsF (31 / 10 ^ 7 * P) (Flt.powf (FP.lit 10.0) w) P := by
    refine ⟨p1, ?_⟩
    have h4 := abs_add_le (((Flt.powf (FP.lit 10.0) w).val : ℝ) - (10:ℝ) ^ (w.val : ℝ))
      ((10:ℝ) ^ (w.val : ℝ) - P)
    rw [sub_add_sub_cancel] at h4
    have h5 : 4 * (f.u : ℝ) * (10:ℝ) ^ (w.val : ℝ) ≤ 4 * (6 / 10 ^ 8) * (P * (1 + 1 / 100)) := by
      refine mul_le_mul (by linarith) ?_ (by positivity) (by norm_num)
      have := (abs_le.1 hq).2
      norm_num at this ⊢
      linarith
    generalize (10:ℝ) ^ (w.val : ℝ) = z at *
    generalize ((Flt.powf (FP.lit 10.0) w).val : ℝ) = z' at *
    norm_num at hq h5 ⊢
    linarith
  have a3 := hpw.sub hf (AbsF.lit hf (q := 0.052272) (by norm_num) (by norm_num)) (M := P)
    (by rw [abs_le]; constructor <;> norm_num <;> linarith) (by norm_num; linarith)
  have a4 := (a3.mono (d := 33 / 10 ^ 7 * P) (by norm_num; linarith)).div hf
    (AbsF.lit hf (q := 5.555556) (by norm_num) (by norm_num)) (Q := 2 / 10 * P)
    (E := 61 / 10 ^ 8 * P) (by norm_num) (by rw [abs_le]; norm_num at hPl ⊢; constructor <;> linarith)
    (by norm_num; linarith) (by norm_num; linarith)
  have e2 : (P - ((0.052272 : ℚ) : ℝ)) / ((5.555556 : ℚ) : ℝ) = (P - 0.052272) / 5.555556 := by norm_num
  rw [e2] at a4
  exact a4.mono (by norm_num; linarith)

/-- encoding above the cut -/
theorem logc_enc_log (hf : Std f) (hl : LogAccurate f) {x : FP f} {e X P : ℝ} (hx : AbsF e x X)
    (hP : P = 5.555556 * X + 0.052272) (h0 : 1 / 10 ≤ P) (h1 : P ≤ 1000)
    (he : e ≤ 63 / 10 ^ 8 * P) :
    AbsF (13 / 10 ^ 7) (FP.lit 0.247190 * Flt.log10 (FP.lit 5.555556 * x + FP.lit 0.052272)
      + FP.lit 0.385537) (0.247190 * Real.logb 10 P + 0.385537) := by
  have hX : X = (P - 0.052272) / 5.555556 := by rw [hP]; norm_num
  have hXb : |X| ≤ 181 / 1000 * P := by
    rw [hX, abs_le]; norm_num at h0 ⊢; constructor <;> linarith
  have a1 := (AbsF.lit hf (q := 5.555556) (by norm_num) (by norm_num)).mul hf (hx.mono he)
    (A := 5.555556) (B := 182 / 1000 * P) (E := 36 / 10 ^ 7 * P) (M := 1.01 * P)
    (by rw [abs_le]; norm_num) (by norm_num at hXb ⊢; linarith) (by norm_num; linarith)
    (by
      rw [abs_mul]
      calc |((5.555556 : ℚ) : ℝ)| * |X| ≤ 5.555556 * (181 / 1000 * P) :=
            mul_le_mul (by rw [abs_le]; norm_num) hXb (abs_nonneg _) (by norm_num)
        _ ≤ _ := by norm_num; linarith)
    (by norm_num; linarith)
  have a2 := (a1.mono (d := 37 / 10 ^ 7 * P) (by norm_num; linarith)).add hf
    (AbsF.lit hf (q := 0.052272) (by norm_num) (by norm_num)) (M := P)
    (by
      rw [show ((5.555556 : ℚ) : ℝ) * X + ((0.052272 : ℚ) : ℝ) = P by rw [hP]; norm_num,
        abs_of_pos (by norm_num at h0; linarith)]) (by norm_num; linarith)
  have e2 : ((5.555556 : ℚ) : ℝ) * X + ((0.052272 : ℚ) : ℝ) = P := by rw [hP]; norm_num
  rw [e2] at a2
  have a3 := a2.mono (d := 39 / 10 ^ 7 * P) (by norm_num; linarith)
  set z := (FP.lit 5.555556 * x + FP.lit 0.052272 : FP f) with hz
  have hP0 : 0 < P := by norm_num at h0; linarith
  obtain ⟨z1, z2⟩ := abs_le.1 a3.err
  have hz0 : (1:ℝ) / 2 ^ 10 ≤ z.val := by norm_num at z1 h0 ⊢; linarith
  have hzu : (z.val : ℝ) ≤ 2 ^ 10 := by norm_num at z2 ⊢; linarith
  have hzp : (0:ℝ) < z.val := lt_of_lt_of_le (by norm_num) hz0
  obtain ⟨l1, l2⟩ := hl.near z a3.fin (by qcast hz0) (by qcast hzu)
  -- the logarithm is Lipschitz
  have hl10 : 2 ≤ Real.log 10 := by
    have h := Real.log_two_gt_d9
    have h' : Real.log ((2:ℝ) ^ 3) ≤ Real.log 10 := Real.log_le_log (by norm_num) (by norm_num)
    rw [Real.log_pow] at h'
    norm_num at h' h
    linarith
  have hlip : |Real.logb 10 z.val - Real.logb 10 P| ≤ 2 / 10 ^ 6 := by
    have e3 : Real.logb 10 z.val - Real.logb 10 P = Real.log (z.val / P) / Real.log 10 := by
      rw [Real.logb, Real.logb, Real.log_div hzp.ne' hP0.ne', sub_div]
    have hr : |(z.val : ℝ) / P - 1| ≤ 39 / 10 ^ 7 := by
      rw [show (z.val : ℝ) / P - 1 = (z.val - P) / P by field_simp, abs_div, abs_of_pos hP0,
        div_le_iff₀ hP0]
      exact a3.err
    obtain ⟨r1, r2⟩ := abs_le.1 hr
    have hrp : 0 < (z.val : ℝ) / P := by positivity
    have b1 := Real.log_le_sub_one_of_pos hrp
    have b2 := Real.one_sub_inv_le_log_of_pos hrp
    have b3 : ((z.val : ℝ) / P)⁻¹ ≤ 1 + 4 / 10 ^ 6 := by
      rw [inv_le_comm₀ hrp (by norm_num)]
      refine le_trans ?_ (by linarith : 1 - 39 / 10 ^ 7 ≤ (z.val : ℝ) / P)
      norm_num
    have hlog : |Real.log ((z.val : ℝ) / P)| ≤ 4 / 10 ^ 6 := by
      rw [abs_le]; norm_num at *; constructor <;> linarith
    rw [e3, abs_div, abs_of_pos (by linarith : (0:ℝ) < Real.log 10), div_le_iff₀ (by linarith)]
    calc _ ≤ (4 / 10 ^ 6 : ℝ) := hlog
      _ ≤ 2 / 10 ^ 6 * Real.log 10 := by norm_num; linarith
  have hLP : |Real.logb 10 P| ≤ 3 := by
    rw [abs_le]
    constructor
    · have : Real.logb 10 (1 / 10) ≤ Real.logb 10 P :=
        Real.logb_le_logb_of_le (by norm_num) (by norm_num) h0
      have e4 : Real.logb 10 (1 / 10) = -1 := by
        rw [one_div, Real.logb_inv, Real.logb_self_eq_one (by norm_num)]
      linarith
    · have : Real.logb 10 P ≤ Real.logb 10 (10 ^ 3) :=
        Real.logb_le_logb_of_le (by norm_num) hP0 (by norm_num; linarith)
      rw [Real.logb_pow, Real.logb_self_eq_one (by norm_num)] at this
      norm_num at this ⊢; linarith
  have a4 : AbsF (3 / 10 ^ 6) (Flt.log10 z) (Real.logb 10 P) := by
    refine ⟨l1, ?_⟩
    obtain ⟨u1, u2, _⟩ := u_tiny hf
    have h4 := abs_add_le (((Flt.log10 z).val : ℝ) - Real.logb 10 z.val)
      (Real.logb 10 z.val - Real.logb 10 P)
    rw [sub_add_sub_cancel] at h4
    have h6 := abs_add_le (Real.logb 10 z.val - Real.logb 10 P) (Real.logb 10 P)
    rw [sub_add_cancel] at h6
    have h5 : 4 * (f.u : ℝ) * (1 + |Real.logb 10 (z.val : ℝ)|) ≤ 4 * (6 / 10 ^ 8) * (4 + 1 / 100) := by
      refine mul_le_mul (by linarith) ?_ (by positivity) (by norm_num)
      norm_num at hlip ⊢
      linarith
    norm_num at h5 hlip ⊢
    linarith
  have a5 := (AbsF.lit hf (q := 0.247190) (by norm_num) (by norm_num)).mul hf a4
    (A := 0.25) (B := 4) (E := 9 / 10 ^ 7) (M := 0.75) (by rw [abs_le]; norm_num)
    (by norm_num at hLP ⊢; linarith) (by norm_num)
    (by
      rw [abs_mul]
      calc |((0.247190 : ℚ) : ℝ)| * |Real.logb 10 P| ≤ 0.25 * 3 :=
            mul_le_mul (by rw [abs_le]; norm_num) hLP (abs_nonneg _) (by norm_num)
        _ ≤ _ := by norm_num)
    (by norm_num)
  have a6 := a5.add hf (AbsF.lit hf (q := 0.385537) (by norm_num) (by norm_num)) (M := 1.2)
    (by
      obtain ⟨c1, c2⟩ := abs_le.1 hLP
      rw [abs_le]; norm_num; constructor <;> linarith) (by norm_num)
  have e5 : ((0.247190 : ℚ) : ℝ) * Real.logb 10 P + ((0.385537 : ℚ) : ℝ)
      = 0.247190 * Real.logb 10 P + 0.385537 := by norm_num
  rw [e5] at a6
  exact a6.mono (by norm_num)

/-- decoding below the cut -/
theorem logc_dec_lin (hf : Std f) {t : FP f} (ht : t.isFinite = true)
    (h0 : (0 : ℝ) ≤ t.val) (h1 : (t.val : ℝ) ≤ 0.15) :
    AbsF (1 / 10 ^ 8) ((t - FP.lit 0.092809) / FP.lit 5.367655)
      (((t.val : ℝ) - 0.092809) / 5.367655) := by
  have a1 := (AbsF.exact ht).sub hf (AbsF.lit hf (q := 0.092809) (by norm_num) (by norm_num)) (M := 0.1)
    (by rw [abs_le]; norm_num at h1 ⊢; constructor <;> linarith) (by norm_num)
  have a2 := a1.div hf (AbsF.lit hf (q := 5.367655) (by norm_num) (by norm_num)) (Q := 0.02)
    (E := 4 / 10 ^ 9) (by norm_num) (by rw [abs_le]; norm_num at h1 ⊢; constructor <;> linarith)
    (by norm_num) (by norm_num)
  have e1 : ((t.val : ℝ) - ((0.092809 : ℚ) : ℝ)) / ((5.367655 : ℚ) : ℝ)
      = ((t.val : ℝ) - 0.092809) / 5.367655 := by norm_num
  rw [e1] at a2
  exact a2.mono (by norm_num)

/-- encoding below the cut -/
theorem logc_enc_lin (hf : Std f) {x : FP f} {e X : ℝ} (hx : AbsF e x X) (h0 : |X| ≤ 0.02)
    (he : e ≤ 1 / 10 ^ 7) :
    AbsF (7 / 10 ^ 7) (FP.lit 5.367655 * x + FP.lit 0.092809) (5.367655 * X + 0.092809) := by
  have a1 := (AbsF.lit hf (q := 5.367655) (by norm_num) (by norm_num)).mul hf (hx.mono he)
    (A := 5.4) (B := 0.03) (E := 56 / 10 ^ 8) (M := 0.11) (by rw [abs_le]; norm_num)
    (by norm_num at h0 ⊢; linarith) (by norm_num)
    (by
      rw [abs_mul]
      calc |((5.367655 : ℚ) : ℝ)| * |X| ≤ 5.4 * 0.02 :=
            mul_le_mul (by rw [abs_le]; norm_num) h0 (abs_nonneg _) (by norm_num)
        _ ≤ _ := by norm_num)
    (by norm_num)
  have a2 := a1.add hf (AbsF.lit hf (q := 0.092809) (by norm_num) (by norm_num)) (M := 0.3)
    (by
      obtain ⟨c1, c2⟩ := abs_le.1 h0
      rw [abs_le]; norm_num at c1 c2 ⊢; constructor <;> linarith) (by norm_num)
  have e1 : ((5.367655 : ℚ) : ℝ) * X + ((0.092809 : ℚ) : ℝ) = 5.367655 * X + 0.092809 := by norm_num
  rw [e1] at a2
  exact a2.mono (by norm_num)

set_option exponentiation.threshold 4000 in
/-- the encoded value just around the cut -/
theorem logc_near_cut {x : ℝ} (h0 : 0.01059098 ≤ x) (h1 : x ≤ 0.0105912) :
    0.1496563 ≤ 0.247190 * Real.logb 10 (5.555556 * x + 0.052272) + 0.385537 ∧
    0.247190 * Real.logb 10 (5.555556 * x + 0.052272) + 0.385537 ≤ 0.1496591 := by
  have q0 : (0:ℝ) < 5.555556 * 0.01059098 + 0.052272 := by norm_num
  have q1 : (0:ℝ) < 5.555556 * 0.0105912 + 0.052272 := by norm_num
  have l1 := lt_log10 q0 146 153 (by norm_num) (by norm_num)
  have l2 := log10_lt q1 563 590 (by norm_num) (by norm_num)
  have m1 : Real.logb 10 (5.555556 * 0.01059098 + 0.052272) ≤ Real.logb 10 (5.555556 * x + 0.052272) :=
    Real.logb_le_logb_of_le (by norm_num) q0 (by linarith)
  have m2 : Real.logb 10 (5.555556 * x + 0.052272) ≤ Real.logb 10 (5.555556 * 0.0105912 + 0.052272) :=
    Real.logb_le_logb_of_le (by norm_num) (by norm_num at h0 ⊢; linarith) (by linarith)
  generalize Real.logb 10 (5.555556 * x + 0.052272) = y at *
  generalize Real.logb 10 (5.555556 * 0.01059098 + 0.052272) = y1 at *
  generalize Real.logb 10 (5.555556 * 0.0105912 + 0.052272) = y2 at *
  norm_num at l1 l2 ⊢
  constructor <;> linarith

set_option exponentiation.threshold 4000 in
/-- decoding above the threshold gives at least the cut -/
theorem logc_above {t : ℝ} (h : 0.1496579 ≤ t) :
    (0.010591 : ℝ) ≤ ((10:ℝ) ^ ((t - 0.385537) / 0.247190) - 0.052272) / 5.555556 := by
  have h0 : (0:ℝ) < 5.555556 * 0.010591 + 0.052272 := by norm_num
  have h2 := log10_lt h0 1001 1049 (by norm_num) (by norm_num)
  have h3 : -((1001:ℕ):ℝ)/((1049:ℕ):ℝ) < (t - 0.385537) / 0.247190 := by
    rw [lt_div_iff₀ (by norm_num)]
    have : -((1001:ℕ):ℝ)/((1049:ℕ):ℝ) * 0.247190 < 0.1496579 - 0.385537 := by norm_num
    linarith
  rw [← neg_div] at h2
  have := (Real.logb_lt_iff_lt_rpow (by norm_num) h0).1 (lt_trans h2 h3)
  rw [le_div_iff₀ (by norm_num)]
  linarith

/-- the error of decoding and encoding LogC -/
theorem logc_trip (hf : Std f) (hp : PowAccurate f) (hl : LogAccurate f) {t : FP f}
    (ht : t.isFinite = true) (h0 : 0 ≤ t.val) (h1 : t.val ≤ 1) :
    (encode.alexa_logc_v3_t (decode.alexa_logc_v3_t t)).isFinite = true ∧
    |((encode.alexa_logc_v3_t (decode.alexa_logc_v3_t t)).val : ℝ) - t.val| ≤ 1 / 250000 := by
  have h0r : (0:ℝ) ≤ t.val := by exact_mod_cast h0
  have h1r : (t.val : ℝ) ≤ 1 := by exact_mod_cast h1
  have cut := AbsF.lit hf (q := 0.010591) (by norm_num) (by norm_num)
  have ecf := AbsF.lit hf (q := 0.149658) (by norm_num) (by norm_num)
  obtain ⟨c1, c2⟩ := abs_le.1 cut.err
  obtain ⟨e1, e2⟩ := abs_le.1 ecf.err
  have c1' : (0.01059099 : ℝ) ≤ (FP.lit 0.010591 : FP f).val := by
    generalize ((FP.lit 0.010591 : FP f).val : ℝ) = z at *
    norm_num at c1 ⊢; linarith
  have c2' : ((FP.lit 0.010591 : FP f).val : ℝ) ≤ 0.01059101 := by
    generalize ((FP.lit 0.010591 : FP f).val : ℝ) = z at *
    norm_num at c2 ⊢; linarith
  have e1' : (0.1496579 : ℝ) ≤ (FP.lit 0.149658 : FP f).val := by
    generalize ((FP.lit 0.149658 : FP f).val : ℝ) = z at *
    norm_num at e1 ⊢; linarith
  have e2' : ((FP.lit 0.149658 : FP f).val : ℝ) ≤ 0.1496581 := by
    generalize ((FP.lit 0.149658 : FP f).val : ℝ) = z at *
    norm_num at e2 ⊢; linarith
  -- the two branches of encoding
  have enc : ∀ x : FP f, x.isFinite = true →
      (encode.alexa_logc_v3_t x = FP.lit 0.247190 * Flt.log10 (FP.lit 5.555556 * x + FP.lit 0.052272)
        + FP.lit 0.385537 ∧ (0.01059099 : ℝ) ≤ x.val) ∨
      (encode.alexa_logc_v3_t x = FP.lit 5.367655 * x + FP.lit 0.092809 ∧ (x.val : ℝ) ≤ 0.01059101) := by
    intro x hx
    have hlt : Flt.lt (FP.lit 0.010591) x = decide ((FP.lit 0.010591 : FP f).val < x.val) := by
      rw [FP.flt_lt, FP.lt_finite cut.fin hx]
    by_cases h : (FP.lit 0.010591 : FP f).val < x.val
    · left
      refine ⟨?_, ?_⟩
      · unfold encode.alexa_logc_v3_t
        simp only [Flt.gt, FP.flt_lit, hlt, h, decide_true, if_true]
      · have : ((FP.lit 0.010591 : FP f).val : ℝ) < x.val := by exact_mod_cast h
        linarith
    · right
      refine ⟨?_, ?_⟩
      · unfold encode.alexa_logc_v3_t
        simp only [Flt.gt, FP.flt_lit, hlt, h, decide_false, if_false, Bool.false_eq_true]
      · push Not at h
        have : (x.val : ℝ) ≤ (FP.lit 0.010591 : FP f).val := by exact_mod_cast h
        linarith
  have dec : (decode.alexa_logc_v3_t t = (Flt.powf (FP.lit 10.0) ((t - FP.lit 0.385537) / FP.lit 0.247190)
      - FP.lit 0.052272) / FP.lit 5.555556 ∧ (0.1496579 : ℝ) ≤ t.val) ∨
      (decode.alexa_logc_v3_t t = (t - FP.lit 0.092809) / FP.lit 5.367655 ∧ (t.val : ℝ) ≤ 0.1496581) := by
    have hlt : Flt.lt (FP.lit 0.149658) t = decide ((FP.lit 0.149658 : FP f).val < t.val) := by
      rw [FP.flt_lt, FP.lt_finite ecf.fin ht]
    by_cases h : (FP.lit 0.149658 : FP f).val < t.val
    · left
      refine ⟨?_, ?_⟩
      · unfold decode.alexa_logc_v3_t
        simp only [Flt.gt, FP.flt_lit, hlt, h, decide_true, if_true]
      · have : ((FP.lit 0.149658 : FP f).val : ℝ) < t.val := by exact_mod_cast h
        linarith
    · right
      refine ⟨?_, ?_⟩
      · unfold decode.alexa_logc_v3_t
        simp only [Flt.gt, FP.flt_lit, hlt, h, decide_false, if_false, Bool.false_eq_true]
      · push Not at h
        have : (t.val : ℝ) ≤ (FP.lit 0.149658 : FP f).val := by exact_mod_cast h
        linarith
  clear c1 c2 e1 e2 cut ecf c1' c2' e1' e2'
  rcases dec with ⟨hd, hb⟩ | ⟨hd, hb⟩
  · obtain ⟨P1, P2, ax⟩ := logc_dec_log hf hp ht (le_trans (by norm_num) hb) h1r rfl
    have hlo := logc_above hb
    rw [← hd] at ax
    have hlogP : 0.247190 * Real.logb 10 ((10:ℝ) ^ (((t.val : ℝ) - 0.385537) / 0.247190)) + 0.385537
        = t.val := by
      rw [Real.logb_rpow (by norm_num) (by norm_num)]; norm_num; ring
    set P := (10:ℝ) ^ (((t.val : ℝ) - 0.385537) / 0.247190) with hPdef
    set x := decode.alexa_logc_v3_t t with hx
    have hPX : P = 5.555556 * ((P - 0.052272) / 5.555556) + 0.052272 := by norm_num; ring
    rcases enc x ax.fin with ⟨he, hc⟩ | ⟨he, hc⟩
    · have a := logc_enc_log hf hl ax hPX P1 P2 le_rfl
      rw [hlogP, ← he] at a
      exact ⟨a.fin, a.err.trans (by norm_num)⟩
    · obtain ⟨x1, x2⟩ := abs_le.1 ax.err
      have hPs : P ≤ 0.112 := by norm_num at x1 hc ⊢; linarith
      have hXu : (P - 0.052272) / 5.555556 ≤ 0.0105912 := by norm_num at x1 hc hPs ⊢; linarith
      have a := logc_enc_lin hf (ax.mono (d := 1 / 10 ^ 7) (by norm_num at hPs ⊢; linarith))
        (by rw [abs_le]; norm_num at hlo hXu ⊢; constructor <;> linarith) le_rfl
      obtain ⟨r1, r2⟩ := logc_near_cut (le_trans (by norm_num) hlo) hXu
      rw [← hPX, hlogP] at r1 r2
      rw [← he] at a
      refine ⟨a.fin, ?_⟩
      obtain ⟨a1, a2⟩ := abs_le.1 a.err
      rw [abs_le]
      generalize ((encode.alexa_logc_v3_t x).val : ℝ) = z at *
      norm_num at a1 a2 r1 r2 hlo hXu hb ⊢
      constructor <;> linarith
  · have ax := logc_dec_lin hf ht h0r (le_trans hb (by norm_num))
    rw [← hd] at ax
    set x := decode.alexa_logc_v3_t t with hx
    obtain ⟨x1, x2⟩ := abs_le.1 ax.err
    rcases enc x ax.fin with ⟨he, hc⟩ | ⟨he, hc⟩
    · have hxu : (x.val : ℝ) ≤ 0.0105912 := by norm_num at x2 hb ⊢; linarith
      have a := logc_enc_log hf hl (AbsF.exact ax.fin) rfl (by norm_num at hc ⊢; linarith)
        (by norm_num at hxu ⊢; linarith) (by norm_num at hc ⊢; linarith)
      rw [← he] at a
      obtain ⟨r1, r2⟩ := logc_near_cut (le_trans (by norm_num) hc) hxu
      refine ⟨a.fin, ?_⟩
      obtain ⟨a1, a2⟩ := abs_le.1 a.err
      rw [abs_le]
      generalize ((encode.alexa_logc_v3_t x).val : ℝ) = z at *
      generalize 0.247190 * Real.logb 10 (5.555556 * (x.val : ℝ) + 0.052272) + 0.385537 = w at *
      norm_num at a1 a2 r1 r2 x1 x2 hb hc ⊢
      constructor <;> linarith
    · have a := logc_enc_lin hf ax (by
        rw [abs_le]; norm_num at hb ⊢; constructor <;> linarith) (by norm_num)
      rw [show 5.367655 * (((t.val : ℝ) - 0.092809) / 5.367655) + 0.092809 = t.val by norm_num; ring, ← he] at a
      exact ⟨a.fin, a.err.trans (by norm_num)⟩

end logc
end CS

import Verif.Lemmas.FPLogC

/-!
# LogC: encoding a linear value and decoding it again
-/

namespace CS
section
variable {f : Fmt} [Libm f]

set_option exponentiation.threshold 4000 in
/-- the encoded value a little above the cut -/
theorem logc_past_cut {x : ℝ} (h : 0.010592 ≤ x) :
    0.14966 < 0.247190 * Real.logb 10 (5.555556 * x + 0.052272) + 0.385537 := by
  have q0 : (0:ℝ) < 5.555556 * 0.010592 + 0.052272 := by norm_num
  have l1 := lt_log10 q0 271 284 (by norm_num) (by norm_num)
  have m1 : Real.logb 10 (5.555556 * 0.010592 + 0.052272) ≤ Real.logb 10 (5.555556 * x + 0.052272) :=
    Real.logb_le_logb_of_le (by norm_num) q0 (by linarith)
  generalize Real.logb 10 (5.555556 * x + 0.052272) = y at *
  generalize Real.logb 10 (5.555556 * 0.010592 + 0.052272) = y1 at *
  norm_num at l1 ⊢
  linarith

/-- decoding a little above the threshold -/
theorem logc_below {t : ℝ} (h : t ≤ 0.14966) :
    ((10:ℝ) ^ ((t - 0.385537) / 0.247190) - 0.052272) / 5.555556 < 0.010592 := by
  have h1 := logc_past_cut (x := 0.010592) le_rfl
  have q0 : (0:ℝ) < 5.555556 * 0.010592 + 0.052272 := by norm_num
  have h2 : (t - 0.385537) / 0.247190 < Real.logb 10 (5.555556 * 0.010592 + 0.052272) := by
    rw [div_lt_iff₀ (by norm_num)]
    linarith
  have h3 := (Real.lt_logb_iff_rpow_lt (by norm_num) q0).1 h2
  rw [div_lt_iff₀ (by norm_num)]
  linarith

theorem logc_top {P : ℝ} (h0 : 0 < P) (h : P ≤ 278) : Real.logb 10 P ≤ 22 / 9 := by
  have h1 : Real.logb 10 (P ^ 9) ≤ Real.logb 10 ((10:ℝ) ^ 22) := by
    refine Real.logb_le_logb_of_le (by norm_num) (by positivity) ?_
    calc P ^ 9 ≤ (278:ℝ) ^ 9 := pow_le_pow_left₀ h0.le h 9
      _ ≤ _ := by norm_num
  rw [Real.logb_pow, Real.logb_pow, Real.logb_self_eq_one (by norm_num)] at h1
  push_cast at h1
  linarith

/-- the logarithmic branch there and back -/
theorem logc_log_back (hf : Std f) (hp : PowAccurate f) {t : FP f} (ht : t.isFinite = true)
    (h0 : (0.149 : ℝ) ≤ t.val) (h1 : (t.val : ℝ) ≤ 1) {P : ℝ} (hP0 : 0 < P)
    (h : |(t.val : ℝ) - (0.247190 * Real.logb 10 P + 0.385537)| ≤ 13 / 10 ^ 7) :
    AbsF (29 / 10 ^ 7 * P) ((Flt.powf (FP.lit 10.0) ((t - FP.lit 0.385537) / FP.lit 0.247190)
      - FP.lit 0.052272) / FP.lit 5.555556) ((P - 0.052272) / 5.555556) := by
  obtain ⟨p1, p2, a⟩ := logc_dec_log hf hp ht h0 h1 rfl
  set Q := (10:ℝ) ^ (((t.val : ℝ) - 0.385537) / 0.247190) with hQ
  have hl10 : |Real.log 10| ≤ 10 / 3 * (6932 / 10000) := by
    have h3 : Real.log 10 = Real.log (1000) / 3 := by
      rw [show (1000:ℝ) = 10 ^ 3 by norm_num, Real.log_pow]; push_cast; ring
    have h4 := abs_log_le (X := 1000) 10 (by norm_num) (by norm_num)
    rw [h3, abs_div, abs_of_pos (by norm_num : (0:ℝ) < 3)]
    norm_num at h4 ⊢; linarith
  have hl0 : 0 < Real.log 10 := Real.log_pos (by norm_num)
  rw [abs_of_pos hl0] at hl10
  set z := Real.log 10 * (((t.val : ℝ) - 0.385537) / 0.247190 - Real.logb 10 P) with hz
  have hQP : Q = P * Real.exp z := by
    have hP' : P = Real.exp (Real.log 10 * Real.logb 10 P) := by
      rw [Real.logb, mul_div_cancel₀ _ hl0.ne', Real.exp_log hP0]
    conv_rhs => rw [hP']
    rw [hQ, Real.rpow_def_of_pos (by norm_num), ← Real.exp_add, hz]
    congr 1; ring
  have hzb : |z| ≤ 1.22 / 10 ^ 5 := by
    have e : ((t.val : ℝ) - 0.385537) / 0.247190 - Real.logb 10 P =
        ((t.val : ℝ) - (0.247190 * Real.logb 10 P + 0.385537)) / 0.247190 := by
      field_simp; ring
    rw [hz, e, abs_mul, abs_of_pos hl0, abs_div, abs_of_pos (by norm_num : (0:ℝ) < 0.247190)]
    calc _ ≤ 10 / 3 * (6932 / 10000) * ((13 / 10 ^ 7 : ℝ) / 0.247190) :=
          mul_le_mul hl10 (div_le_div_of_nonneg_right h (by norm_num)) (by positivity) (by norm_num)
      _ ≤ _ := by norm_num
  have hq : |Q - P| ≤ P * (1.221 / 10 ^ 5) := by
    rw [hQP, show P * Real.exp z - P = P * (Real.exp z - 1) by ring, abs_mul, abs_of_pos hP0]
    refine mul_le_mul_of_nonneg_left ?_ hP0.le
    have h3 := Real.abs_exp_sub_one_sub_id_le (x := z) (le_trans hzb (by norm_num))
    generalize z = w at *
    have h4 := abs_add_le (Real.exp w - 1 - w) w
    rw [sub_add_cancel] at h4
    have h5 : w ^ 2 ≤ (1.22 / 10 ^ 5) ^ 2 := by
      rw [← sq_abs w]; exact pow_le_pow_left₀ (abs_nonneg _) hzb 2
    norm_num at h3 h4 h5 hzb ⊢
    linarith
  refine ⟨a.fin, ?_⟩
  have h6 := a.err
  generalize (Flt.powf (FP.lit 10.0) ((t - FP.lit 0.385537) / FP.lit 0.247190)
      - FP.lit 0.052272 : FP f) / FP.lit 5.555556 = y at *
  obtain ⟨q1, q2⟩ := abs_le.1 hq
  obtain ⟨y1, y2⟩ := abs_le.1 h6
  rw [abs_le]
  norm_num at q1 q2 y1 y2 ⊢
  constructor <;> linarith

theorem logc_linear (hf : Std f) (hp : PowAccurate f) (hl : LogAccurate f) {x : FP f}
    (hx : x.isFinite = true) (h0 : 0 ≤ x.val) (h1 : x.val ≤ 50) :
    (decode.alexa_logc_v3_t (encode.alexa_logc_v3_t x)).isFinite = true ∧
    |((decode.alexa_logc_v3_t (encode.alexa_logc_v3_t x)).val : ℝ) - x.val| ≤ 2 / 10 ^ 5 * (x.val + 1 / 10) := by
  have h0r : (0:ℝ) ≤ x.val := by exact_mod_cast h0
  have h1r : (x.val : ℝ) ≤ 50 := by exact_mod_cast h1
  have cut := AbsF.lit hf (q := 0.010591) (by norm_num) (by norm_num)
  have ecf := AbsF.lit hf (q := 0.149658) (by norm_num) (by norm_num)
  obtain ⟨c1, c2⟩ := abs_le.1 cut.err
  obtain ⟨e1, e2⟩ := abs_le.1 ecf.err
  have c1' : (0.01059099 : ℝ) ≤ (FP.lit 0.010591 : FP f).val := by
    generalize ((FP.lit 0.010591 : FP f).val : ℝ) = z at *
    norm_num at c1 ⊢; linarith
  have c2' : ((FP.lit 0.010591 : FP f).val : ℝ) ≤ 0.01059101 := by
    generalize ((FP.lit 0.010591 : FP f).val : ℝ) = z at *
    norm_num at c2 ⊢; linarith
  have e1' : (0.1496579 : ℝ) ≤ (FP.lit 0.149658 : FP f).val := by
    generalize ((FP.lit 0.149658 : FP f).val : ℝ) = z at *
    norm_num at e1 ⊢; linarith
  have e2' : ((FP.lit 0.149658 : FP f).val : ℝ) ≤ 0.1496581 := by
    generalize ((FP.lit 0.149658 : FP f).val : ℝ) = z at *
    norm_num at e2 ⊢; linarith
  have enc :
      (encode.alexa_logc_v3_t x = FP.lit 0.247190 * Flt.log10 (FP.lit 5.555556 * x + FP.lit 0.052272)
        + FP.lit 0.385537 ∧ (0.01059099 : ℝ) ≤ x.val) ∨
      (encode.alexa_logc_v3_t x = FP.lit 5.367655 * x + FP.lit 0.092809 ∧ (x.val : ℝ) ≤ 0.01059101) := by
    have hlt : Flt.lt (FP.lit 0.010591) x = decide ((FP.lit 0.010591 : FP f).val < x.val) := by
      rw [FP.flt_lt, FP.lt_finite cut.fin hx]
    by_cases h : (FP.lit 0.010591 : FP f).val < x.val
    · left
      refine ⟨?_, ?_⟩
      · unfold encode.alexa_logc_v3_t
        simp only [Flt.gt, FP.flt_lit, hlt, h, decide_true, if_true]
      · have : ((FP.lit 0.010591 : FP f).val : ℝ) < x.val := by exact_mod_cast h
        linarith
    · right
      refine ⟨?_, ?_⟩
      · unfold encode.alexa_logc_v3_t
        simp only [Flt.gt, FP.flt_lit, hlt, h, decide_false, if_false, Bool.false_eq_true]
      · push Not at h
        have : (x.val : ℝ) ≤ (FP.lit 0.010591 : FP f).val := by exact_mod_cast h
        linarith
  have dec : ∀ t : FP f, t.isFinite = true →
      (decode.alexa_logc_v3_t t = (Flt.powf (FP.lit 10.0) ((t - FP.lit 0.385537) / FP.lit 0.247190)
      - FP.lit 0.052272) / FP.lit 5.555556 ∧ (0.1496579 : ℝ) ≤ t.val) ∨
      (decode.alexa_logc_v3_t t = (t - FP.lit 0.092809) / FP.lit 5.367655 ∧ (t.val : ℝ) ≤ 0.1496581) := by
    intro t ht
    have hlt : Flt.lt (FP.lit 0.149658) t = decide ((FP.lit 0.149658 : FP f).val < t.val) := by
      rw [FP.flt_lt, FP.lt_finite ecf.fin ht]
    by_cases h : (FP.lit 0.149658 : FP f).val < t.val
    · left
      refine ⟨?_, ?_⟩
      · unfold decode.alexa_logc_v3_t
        simp only [Flt.gt, FP.flt_lit, hlt, h, decide_true, if_true]
      · have : ((FP.lit 0.149658 : FP f).val : ℝ) < t.val := by exact_mod_cast h
        linarith
    · right
      refine ⟨?_, ?_⟩
      · unfold decode.alexa_logc_v3_t
        simp only [Flt.gt, FP.flt_lit, hlt, h, decide_false, if_false, Bool.false_eq_true]
      · push Not at h
        have : (t.val : ℝ) ≤ (FP.lit 0.149658 : FP f).val := by exact_mod_cast h
        linarith
  clear c1 c2 e1 e2 cut ecf c1' c2' e1' e2'
  rcases enc with ⟨he, hb⟩ | ⟨he, hb⟩
  · have P1 : 1 / 10 ≤ 5.555556 * (x.val : ℝ) + 0.052272 := by norm_num at hb ⊢; linarith
    have P2 : 5.555556 * (x.val : ℝ) + 0.052272 ≤ 278 := by norm_num; linarith
    have a := logc_enc_log hf hl (AbsF.exact hx) rfl P1 (P2.trans (by norm_num)) (by positivity)
    rw [← he] at a
    generalize encode.alexa_logc_v3_t x = t at *
    have lo := (logc_near_cut (x := 0.01059098) le_rfl (by norm_num)).1
    have top := logc_top (by linarith) P2
    have mono : 0.247190 * Real.logb 10 (5.555556 * 0.01059098 + 0.052272) + 0.385537 ≤
        0.247190 * Real.logb 10 (5.555556 * (x.val : ℝ) + 0.052272) + 0.385537 := by
      have := Real.logb_le_logb_of_le (b := 10) (x := 5.555556 * 0.01059098 + 0.052272)
        (y := 5.555556 * (x.val : ℝ) + 0.052272) (by norm_num) (by norm_num) (by norm_num at hb ⊢; linarith)
      linarith
    obtain ⟨a1, a2⟩ := abs_le.1 a.err
    have T1 : (0.149655 : ℝ) ≤ t.val := by
      have := lo.trans mono
      generalize 0.247190 * Real.logb 10 (5.555556 * (x.val : ℝ) + 0.052272) + 0.385537 = w at *
      norm_num at a1 this ⊢; linarith
    have T2 : (t.val : ℝ) ≤ 1 := by norm_num at a2 top ⊢; linarith
    rcases dec t a.fin with ⟨hd, hc⟩ | ⟨hd, hc⟩
    · have b := logc_log_back hf hp a.fin (le_trans (by norm_num) T1) T2 (by linarith) a.err
      rw [← hd, show (5.555556 * (x.val : ℝ) + 0.052272 - 0.052272) / 5.555556 = x.val by norm_num] at b
      refine ⟨b.fin, b.err.trans ?_⟩
      norm_num; linarith
    · have b := logc_dec_lin hf a.fin (le_trans (by norm_num) T1) (hc.trans (by norm_num))
      rw [← hd] at b
      refine ⟨b.fin, ?_⟩
      have xu : (x.val : ℝ) < 0.010592 := by
        by_contra hlt
        have := logc_past_cut (not_lt.1 hlt)
        generalize 0.247190 * Real.logb 10 (5.555556 * (x.val : ℝ) + 0.052272) + 0.385537 = w at *
        norm_num at a1 this hc; linarith
      obtain ⟨b1, b2⟩ := abs_le.1 b.err
      rw [abs_le]
      norm_num at b1 b2 T1 hc xu hb ⊢
      constructor <;> linarith
  · have a := logc_enc_lin hf (AbsF.exact hx) (by rw [abs_of_nonneg h0r]; exact hb.trans (by norm_num)) (by norm_num)
    rw [← he] at a
    generalize encode.alexa_logc_v3_t x = t at *
    obtain ⟨a1, a2⟩ := abs_le.1 a.err
    have T0 : (0:ℝ) ≤ t.val := by norm_num at a1; linarith
    have T1 : (t.val : ℝ) ≤ 0.14966 := by norm_num at a2 hb ⊢; linarith
    rcases dec t a.fin with ⟨hd, hc⟩ | ⟨hd, hc⟩
    · obtain ⟨p1, p2, b⟩ := logc_dec_log hf hp a.fin (le_trans (by norm_num) hc) (T1.trans (by norm_num)) rfl
      have lo := logc_above hc
      have hi := logc_below T1
      rw [← hd] at b
      refine ⟨b.fin, ?_⟩
      obtain ⟨b1, b2⟩ := abs_le.1 b.err
      generalize (10:ℝ) ^ (((t.val : ℝ) - 0.385537) / 0.247190) = P at *
      rw [abs_le]
      norm_num at b1 b2 lo hi a1 a2 hc hb T1 ⊢
      constructor <;> linarith
    · have b := logc_dec_lin hf a.fin T0 (T1.trans (by norm_num))
      rw [← hd] at b
      refine ⟨b.fin, ?_⟩
      obtain ⟨b1, b2⟩ := abs_le.1 b.err
      rw [abs_le]
      norm_num at b1 b2 a1 a2 ⊢
      constructor <;> linarith

end
end CS

import Verif.Lemmas.FPTransfer2
import Verif.Lemmas.FPGamma
import Verif.Lemmas.FPLogC
import Verif.Lemmas.TripEval

/-!
# Decoding and encoding a component with the shipped curves
-/

namespace CS
variable {f : Fmt} [Libm f]

/-- a literal, bracketed -/
theorem lit_between (hf : Std f) {q lo hi : ℚ} (h1 : 1 / 2 ^ 20 ≤ q) (h2 : q ≤ 2 ^ 20)
    (hlo : lo ≤ q - q * (6 / 10 ^ 8)) (hhi : q + q * (6 / 10 ^ 8) ≤ hi) :
    (FP.lit q : FP f).isFinite = true ∧ (lo : ℝ) ≤ (FP.lit q : FP f).val ∧
      ((FP.lit q : FP f).val : ℝ) ≤ hi := by
  have h := AbsF.lit hf h1 h2
  obtain ⟨a, b⟩ := abs_le.1 h.err
  have c : (lo : ℝ) ≤ q - q * (6 / 10 ^ 8) := by qcast hlo
  have d : (q : ℝ) + q * (6 / 10 ^ 8) ≤ hi := by qcast hhi
  exact ⟨h.fin, by linarith, by linarith⟩

/-- the decoding threshold `0.018 * 4.5` -/
theorem bt_threshold (hf : Std f) :
    (FP.lit 0.018 * FP.lit 4.5 : FP f).isFinite = true ∧
    (0.08099 : ℝ) ≤ (FP.lit 0.018 * FP.lit 4.5 : FP f).val ∧
    ((FP.lit 0.018 * FP.lit 4.5 : FP f).val : ℝ) ≤ 0.08101 := by
  have a := (AbsF.lit hf (q := 0.018) (by norm_num) (by norm_num)).mul hf
    (AbsF.lit hf (q := 4.5) (by norm_num) (by norm_num)) (A := 0.018) (B := 5) (E := 1 / 10 ^ 7) (M := 0.1)
    (by rw [abs_le]; norm_num) (by rw [abs_of_pos (by norm_num)]; norm_num) (by norm_num)
    (by rw [abs_le]; norm_num) (by norm_num)
  obtain ⟨b, c⟩ := abs_le.1 a.err
  refine ⟨a.fin, ?_, ?_⟩ <;>
  · generalize ((FP.lit 0.018 * FP.lit 4.5 : FP f).val : ℝ) = z at *
    norm_num at b c ⊢; linarith

theorem bt709_trip (hf : Std f) (hp : PowAccurate f) {y : FP f} (hy : y.isFinite = true)
    (h0 : 0 ≤ y.val) (h1 : y.val ≤ 1) :
    (encode.bt709_t (decode.bt709_t y)).isFinite = true ∧
    |((encode.bt709_t (decode.bt709_t y)).val : ℝ) - y.val| ≤ 1 / 1000 := by
  have hA := RelF.litE hf (q := 1.099) (by norm_num) (by norm_num)
  have hB := RelF.litE hf (q := 0.099) (by norm_num) (by norm_num)
  obtain ⟨t1, t2, t3⟩ := bt_threshold hf
  obtain ⟨s1, s2, s3⟩ := lit_between hf (q := 0.018) (lo := 0.017999) (hi := 0.018001) (by norm_num)
    (by norm_num) (by norm_num) (by norm_num)
  have s2 : (0.017999 : ℝ) ≤ (FP.lit 0.018 : FP f).val := le_trans (by norm_num) s2
  have s3 : ((FP.lit 0.018 : FP f).val : ℝ) ≤ 0.018001 := le_trans s3 (by norm_num)
  have hx : ((y.val : ℝ) ≤ 0.08101 ∧ decode.bt709_t y = y / FP.lit 4.5) ∨
      ((0.08099 : ℝ) ≤ y.val ∧ decode.bt709_t y =
        Flt.powf ((y + FP.lit 0.099) / FP.lit 1.099) (FP.lit 1.0 / FP.lit 0.45)) := by
    have hle : Flt.le y (FP.lit 0.018 * FP.lit 4.5) = decide (y.val ≤ (FP.lit 0.018 * FP.lit 4.5 : FP f).val) := by
      rw [FP.flt_le, FP.le_finite hy t1]
    by_cases h : y.val ≤ (FP.lit 0.018 * FP.lit 4.5 : FP f).val
    · left
      have : (y.val : ℝ) ≤ (FP.lit 0.018 * FP.lit 4.5 : FP f).val := by exact_mod_cast h
      refine ⟨by linarith, ?_⟩
      unfold decode.bt709_t
      simp only [FP.flt_lit, hle, h, decide_true, if_true]
    · right
      have : ((FP.lit 0.018 * FP.lit 4.5 : FP f).val : ℝ) ≤ y.val := by exact_mod_cast (not_le.1 h).le
      refine ⟨by linarith, ?_⟩
      unfold decode.bt709_t
      simp only [FP.flt_lit, hle, h, decide_false, if_false, Bool.false_eq_true]
  have hxf : (decode.bt709_t y).isFinite = true := by
    rcases hx with ⟨_, e⟩ | ⟨hb, e⟩
    · rw [e]
      exact (divc_abs hf hy h0 h1 (RelF.litE hf (q := 4.5) (by norm_num) (by norm_num)) (by norm_num)
        (by norm_num)).1
    · rw [e]
      exact (bt_dec hf hp (by simpa using hA.congr (by norm_num))
        ((hB.mono (by norm_num)).congr (by norm_num)) hy (le_trans (by norm_num) hb) h1).fin
  refine bt_trip hf hp (hA.congr (by norm_num)) ((hB.mono (by norm_num)).congr (by norm_num)) hy h0 h1
    hx ?_
  generalize decode.bt709_t y = x at *
  have hle : Flt.le x (FP.lit 0.018) = decide (x.val ≤ (FP.lit 0.018 : FP f).val) := by
    rw [FP.flt_le, FP.le_finite hxf s1]
  by_cases h : x.val ≤ (FP.lit 0.018 : FP f).val
  · left
    have : (x.val : ℝ) ≤ (FP.lit 0.018 : FP f).val := by exact_mod_cast h
    refine ⟨by linarith, ?_⟩
    unfold encode.bt709_t
    simp only [FP.flt_lit, hle, h, decide_true, if_true]
  · right
    have : ((FP.lit 0.018 : FP f).val : ℝ) ≤ x.val := by exact_mod_cast (not_le.1 h).le
    refine ⟨by linarith, ?_⟩
    unfold encode.bt709_t
    simp only [FP.flt_lit, hle, h, decide_false, if_false, Bool.false_eq_true]

/-- `alpha - 1` of BT.2020 -/
theorem bt2020_beta (hf : Std f) : RelF 13 (FP.lit 1.099 - FP.lit 1.0 : FP f) 0.099 := by
  obtain ⟨a, b⟩ := (RelF.litE hf (q := 1.099) (by norm_num) (by norm_num)).sub_abs hf (RelF.one (f := f))
    (by norm_num) (by norm_num) (by norm_num) (by norm_num) (by norm_num) (by norm_num)
  refine ⟨a, relE_kap hf (by norm_num) (by norm_num) (by norm_num) (le_trans ?_ (le_trans b ?_))⟩
  · rw [show ((1.099 : ℚ) : ℝ) - 1 = 0.099 by norm_num]
  · have hu0 : (0:ℝ) < f.u := by exact_mod_cast f.u_pos
    rw [show ((1.099 : ℚ) : ℝ) - 1 = 0.099 by norm_num, abs_of_pos (by norm_num)]
    have e1 : (((1.099 : ℚ) : ℝ) * 1 + 1 * 0 + 0.099) * (↑f.u * (1 + 1 / 1000)) =
      f.u * ((1.099 * 1 + 1 * 0 + 0.099) * (1 + 1 / 1000)) := by push_cast; ring
    have e2 : (0.099 : ℝ) * (13 * (↑f.u * (1 + 1 / 2 ^ 20))) = f.u * (0.099 * 13 * (1 + 1 / 2 ^ 20)) := by ring
    rw [e1, e2]
    refine mul_le_mul_of_nonneg_left ?_ hu0.le
    norm_num

theorem bt2020_trip (hf : Std f) (hp : PowAccurate f) {y : FP f} (hy : y.isFinite = true)
    (h0 : 0 ≤ y.val) (h1 : y.val ≤ 1) :
    (encode.bt2020_t (decode.bt2020_t y)).isFinite = true ∧
    |((encode.bt2020_t (decode.bt2020_t y)).val : ℝ) - y.val| ≤ 1 / 1000 := by
  have hA := RelF.litE hf (q := 1.099) (by norm_num) (by norm_num)
  have hB := bt2020_beta hf
  obtain ⟨t1, t2, t3⟩ := bt_threshold hf
  obtain ⟨s1, s2, s3⟩ := lit_between hf (q := 0.018) (lo := 0.017999) (hi := 0.018001) (by norm_num)
    (by norm_num) (by norm_num) (by norm_num)
  have s2 : (0.017999 : ℝ) ≤ (FP.lit 0.018 : FP f).val := le_trans (by norm_num) s2
  have s3 : ((FP.lit 0.018 : FP f).val : ℝ) ≤ 0.018001 := le_trans s3 (by norm_num)
  have hx : ((y.val : ℝ) ≤ 0.08101 ∧ decode.bt2020_t y = y / FP.lit 4.5) ∨
      ((0.08099 : ℝ) ≤ y.val ∧ decode.bt2020_t y =
        Flt.powf ((y + (FP.lit 1.099 - FP.lit 1.0)) / FP.lit 1.099) (FP.lit 1.0 / FP.lit 0.45)) := by
    have hle : Flt.lt y (FP.lit 0.018 * FP.lit 4.5) = decide (y.val < (FP.lit 0.018 * FP.lit 4.5 : FP f).val) := by
      rw [FP.flt_lt, FP.lt_finite hy t1]
    by_cases h : y.val < (FP.lit 0.018 * FP.lit 4.5 : FP f).val
    · left
      have : (y.val : ℝ) < (FP.lit 0.018 * FP.lit 4.5 : FP f).val := by exact_mod_cast h
      refine ⟨by linarith, ?_⟩
      unfold decode.bt2020_t
      simp only [FP.flt_lit, hle, h, decide_true, if_true]
    · right
      have : ((FP.lit 0.018 * FP.lit 4.5 : FP f).val : ℝ) ≤ y.val := by exact_mod_cast (not_lt.1 h)
      refine ⟨by linarith, ?_⟩
      unfold decode.bt2020_t
      simp only [FP.flt_lit, hle, h, decide_false, if_false, Bool.false_eq_true]
  have hxf : (decode.bt2020_t y).isFinite = true := by
    rcases hx with ⟨_, e⟩ | ⟨hb, e⟩
    · rw [e]
      exact (divc_abs hf hy h0 h1 (RelF.litE hf (q := 4.5) (by norm_num) (by norm_num)) (by norm_num)
        (by norm_num)).1
    · rw [e]
      exact (bt_dec hf hp (by simpa using hA.congr (by norm_num)) hB hy (le_trans (by norm_num) hb) h1).fin
  refine bt_trip hf hp (hA.congr (by norm_num)) hB hy h0 h1 hx ?_
  generalize decode.bt2020_t y = x at *
  have hle : Flt.lt x (FP.lit 0.018) = decide (x.val < (FP.lit 0.018 : FP f).val) := by
    rw [FP.flt_lt, FP.lt_finite hxf s1]
  by_cases h : x.val < (FP.lit 0.018 : FP f).val
  · left
    have : (x.val : ℝ) < (FP.lit 0.018 : FP f).val := by exact_mod_cast h
    refine ⟨by linarith, ?_⟩
    unfold encode.bt2020_t
    simp only [FP.flt_lit, hle, h, decide_true, if_true]
  · right
    have : ((FP.lit 0.018 : FP f).val : ℝ) ≤ x.val := by exact_mod_cast (not_lt.1 h)
    refine ⟨by linarith, ?_⟩
    unfold encode.bt2020_t
    simp only [FP.flt_lit, hle, h, decide_false, if_false, Bool.false_eq_true]

/-- in the gap between the branches the trip shifts a value by more than a 16-bit step -/
theorem bt_gap (hf : Std f) (hp : PowAccurate f) {A B y : FP f} (hA : RelF 1 A 1.099)
    (hB : RelF 13 B 0.099) (hy : y.isFinite = true) (h0 : (0.08102 : ℝ) ≤ y.val) (h1 : (y.val : ℝ) ≤ 0.08103) :
    (Flt.powf ((y + B) / A) (FP.lit 1.0 / FP.lit 0.45)).isFinite = true ∧
    ((Flt.powf ((y + B) / A) (FP.lit 1.0 / FP.lit 0.45)).val : ℝ) ≤ 0.017952 ∧
    (Flt.powf ((y + B) / A) (FP.lit 1.0 / FP.lit 0.45) * FP.lit 4.5).isFinite = true ∧
    ((Flt.powf ((y + B) / A) (FP.lit 1.0 / FP.lit 0.45) * FP.lit 4.5).val : ℝ) ≤ 0.0808 := by
  have hyq : y.val ≤ 1 := by
    have : (y.val : ℝ) ≤ 1 := by norm_num at h1; linarith
    exact_mod_cast this
  have hx := bt_dec hf hp hA hB hy (le_trans (by norm_num) h0) hyq
  have hX0 := hx.err.pos
  have hXu : (((y.val : ℝ) + 0.099) / 1.099) ^ (1 / 0.45 : ℝ) ≤ 0.0179518 := by
    have hu0 : (0:ℝ) ≤ ((y.val : ℝ) + 0.099) / 1.099 := by norm_num at h0 ⊢; linarith
    rw [show (1 / 0.45 : ℝ) = ((20:ℕ):ℝ) / ((9:ℕ):ℝ) by norm_num,
      rpow_le_iff hu0 (c := 0.0179518) (by norm_num) 20 9 (by norm_num)]
    calc (((y.val : ℝ) + 0.099) / 1.099) ^ 20 ≤ ((0.08103 + 0.099) / 1.099) ^ 20 :=
          pow_le_pow_left₀ hu0 (by gcongr) 20
      _ ≤ _ := by norm_num
  generalize (((y.val : ℝ) + 0.099) / 1.099) ^ (1 / 0.45 : ℝ) = X at *
  generalize Flt.powf ((y + B) / A) (FP.lit 1.0 / FP.lit 0.45) = x at *
  obtain ⟨s1, s2⟩ := RelF.small hf (n := 50) (by norm_num) (by norm_num)
  have xa := hx.err.to_abs s1 (le_trans s2 (by norm_num))
  have hk : 50 * kap f * (1 + 50 * kap f) ≤ 1 / 10 ^ 5 := by
    obtain ⟨u1, u2, _⟩ := u_small hf
    have : 50 * kap f ≤ 1 / 200000 := by unfold kap; norm_num at u1 ⊢; linarith
    have h' := kap_pos f
    nlinarith
  have xa' : |(x.val : ℝ) - X| ≤ X * (1 / 10 ^ 5) := le_trans xa (mul_le_mul_of_nonneg_left hk hX0.le)
  obtain ⟨xa1, xa2⟩ := abs_le.1 xa'
  have hxu : (x.val : ℝ) ≤ 0.017952 := by norm_num at xa2 hXu ⊢; linarith
  have hx0 := hx.err.xpos
  have hd := (RelF.litE hf (q := 4.5) (by norm_num) (by norm_num)).congr (Y := 4.5) (by norm_num)
  obtain ⟨z1, z2⟩ := mulc_abs hf hx.fin (by rw [abs_of_pos hx0]; norm_num at hxu; linarith) hd (by norm_num)
  refine ⟨hx.fin, hxu, z1, ?_⟩
  obtain ⟨z3, z4⟩ := abs_le.1 z2
  generalize ((x * FP.lit 4.5 : FP f).val : ℝ) = z at *
  norm_num at z4 hxu ⊢
  linarith

theorem bt709_gap (hf : Std f) (hp : PowAccurate f) {y : FP f} (hy : y.isFinite = true)
    (h0 : (0.08102 : ℝ) ≤ y.val) (h1 : (y.val : ℝ) ≤ 0.08103) :
    (encode.bt709_t (decode.bt709_t y)).isFinite = true ∧
    ((encode.bt709_t (decode.bt709_t y)).val : ℝ) ≤ 0.0808 := by
  have hA := RelF.litE hf (q := 1.099) (by norm_num) (by norm_num)
  have hB := RelF.litE hf (q := 0.099) (by norm_num) (by norm_num)
  obtain ⟨t1, t2, t3⟩ := bt_threshold hf
  obtain ⟨s1, s2, s3⟩ := lit_between hf (q := 0.018) (lo := 0.017999) (hi := 0.018001) (by norm_num)
    (by norm_num) (by norm_num) (by norm_num)
  obtain ⟨g1, g2, g3, g4⟩ := bt_gap hf hp (hA.congr (by norm_num)) ((hB.mono (by norm_num)).congr (by norm_num))
    hy h0 h1
  have hd : decode.bt709_t y = Flt.powf ((y + FP.lit 0.099) / FP.lit 1.099) (FP.lit 1.0 / FP.lit 0.45) := by
    have hlt : (FP.lit 0.018 * FP.lit 4.5 : FP f).val < y.val := by
      have : ((FP.lit 0.018 * FP.lit 4.5 : FP f).val : ℝ) < y.val := lt_of_le_of_lt t3 (lt_of_lt_of_le (by norm_num) h0)
      exact_mod_cast this
    have hle : Flt.le y (FP.lit 0.018 * FP.lit 4.5) = false := by
      rw [FP.flt_le, FP.le_finite hy t1]; simpa using hlt
    unfold decode.bt709_t
    simp only [FP.flt_lit, hle, if_false, Bool.false_eq_true]
  have he : encode.bt709_t (decode.bt709_t y) = decode.bt709_t y * FP.lit 4.5 := by
    rw [hd]
    have hlt : (Flt.powf ((y + FP.lit 0.099) / FP.lit 1.099) (FP.lit 1.0 / FP.lit 0.45) : FP f).val
        ≤ (FP.lit 0.018 : FP f).val := by
      have : ((Flt.powf ((y + FP.lit 0.099) / FP.lit 1.099) (FP.lit 1.0 / FP.lit 0.45) : FP f).val : ℝ)
        ≤ (FP.lit 0.018 : FP f).val := g2.trans (le_trans (by norm_num) s2)
      exact_mod_cast this
    have hle : Flt.le (Flt.powf ((y + FP.lit 0.099) / FP.lit 1.099) (FP.lit 1.0 / FP.lit 0.45) : FP f)
        (FP.lit 0.018) = true := by
      rw [FP.flt_le, FP.le_finite g1 s1]; simpa using hlt
    unfold encode.bt709_t
    simp only [FP.flt_lit, hle, if_true]
  rw [he, hd]
  exact ⟨g3, g4⟩

theorem bt2020_gap (hf : Std f) (hp : PowAccurate f) {y : FP f} (hy : y.isFinite = true)
    (h0 : (0.08102 : ℝ) ≤ y.val) (h1 : (y.val : ℝ) ≤ 0.08103) :
    (encode.bt2020_t (decode.bt2020_t y)).isFinite = true ∧
    ((encode.bt2020_t (decode.bt2020_t y)).val : ℝ) ≤ 0.0808 := by
  have hA := RelF.litE hf (q := 1.099) (by norm_num) (by norm_num)
  obtain ⟨t1, t2, t3⟩ := bt_threshold hf
  obtain ⟨s1, s2, s3⟩ := lit_between hf (q := 0.018) (lo := 0.017999) (hi := 0.018001) (by norm_num)
    (by norm_num) (by norm_num) (by norm_num)
  obtain ⟨g1, g2, g3, g4⟩ := bt_gap hf hp (hA.congr (by norm_num)) (bt2020_beta hf) hy h0 h1
  have hd : decode.bt2020_t y =
      Flt.powf ((y + (FP.lit 1.099 - FP.lit 1.0)) / FP.lit 1.099) (FP.lit 1.0 / FP.lit 0.45) := by
    have hlt : (FP.lit 0.018 * FP.lit 4.5 : FP f).val ≤ y.val := by
      have : ((FP.lit 0.018 * FP.lit 4.5 : FP f).val : ℝ) ≤ y.val := le_trans t3 (le_trans (by norm_num) h0)
      exact_mod_cast this
    have hle : Flt.lt y (FP.lit 0.018 * FP.lit 4.5) = false := by
      rw [FP.flt_lt, FP.lt_finite hy t1]; simpa using hlt
    unfold decode.bt2020_t
    simp only [FP.flt_lit, hle, if_false, Bool.false_eq_true]
  have he : encode.bt2020_t (decode.bt2020_t y) = decode.bt2020_t y * FP.lit 4.5 := by
    rw [hd]
    generalize (Flt.powf ((y + (FP.lit 1.099 - FP.lit 1.0)) / FP.lit 1.099) (FP.lit 1.0 / FP.lit 0.45) : FP f)
      = x at *
    have hlt : x.val < (FP.lit 0.018 : FP f).val := by
      have : (x.val : ℝ) < (FP.lit 0.018 : FP f).val := lt_of_le_of_lt g2 (lt_of_lt_of_le (by norm_num) s2)
      exact_mod_cast this
    have hle : Flt.lt x (FP.lit 0.018) = true := by
      rw [FP.flt_lt, FP.lt_finite g1 s1]; simpa using hlt
    unfold encode.bt2020_t
    simp only [FP.flt_lit, hle, if_true]
  rw [he, hd]
  exact ⟨g3, g4⟩

end CS

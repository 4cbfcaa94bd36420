import Verif.Lemmas.Curves
import Verif.Lemmas.FPTransfer3

/-!
# Encoding a value close to a decoded one: BT.709 and BT.2020
-/

namespace CS
section bt
variable {f : Fmt} [Libm f]

theorem bt_lip {a b : ℝ} (ha : 0.0177 ≤ a) (hb : 0.0177 ≤ b) :
    |a ^ (0.45 : ℝ) - b ^ (0.45 : ℝ)| ≤ 4.2 * |a - b| := by
  refine rpow_lip (c := 0.0177) (by norm_num) (by norm_num) (by norm_num) ?_ ha hb
  have e : (0.0177 : ℝ) ^ (0.45 - 1 : ℝ) ≤ 9.3 := by
    have h20 : ((0.0177 : ℝ) ^ (0.45 - 1 : ℝ)) ^ (20:ℕ) = ((0.0177 : ℝ) ^ (11:ℕ))⁻¹ := by
      rw [← Real.rpow_natCast, ← Real.rpow_mul (by norm_num), ← Real.rpow_natCast,
        ← Real.rpow_neg (by norm_num)]
      norm_num
    refine le_of_pow_le_pow_left₀ (n := 20) (by norm_num) (by norm_num) ?_
    rw [h20]; norm_num
  calc _ ≤ (0.45 : ℝ) * 9.3 := mul_le_mul_of_nonneg_left e (by norm_num)
    _ ≤ _ := by norm_num

theorem bt_knee : (0.164 : ℝ) ≤ (0.018 : ℝ) ^ (0.45 : ℝ) ∧ (0.018 : ℝ) ^ (0.45 : ℝ) ≤ 0.16402 :=
  ⟨le_pow45 (by norm_num) (by norm_num) (by norm_num), pow45_le (by norm_num) (by norm_num) (by norm_num)⟩

/-- what decoding computes, up to 1.2e-5, whichever branch is taken near the threshold -/
theorem bt_dec_near (hf : Std f) (hp : PowAccurate f) {A B y x : FP f} (hA : RelF 1 A 1.099)
    (hB : RelF 13 B 0.099) (hy : y.isFinite = true) (h0 : 0 ≤ y.val) (h1 : y.val ≤ 1)
    (hx : ((y.val : ℝ) ≤ 0.08101 ∧ x = y / FP.lit 4.5) ∨
      ((0.08099 : ℝ) ≤ y.val ∧ x = Flt.powf ((y + B) / A) (FP.lit 1.0 / FP.lit 0.45))) :
    x.isFinite = true ∧ ∃ X : ℝ, |(x.val : ℝ) - X| ≤ 1 / 10 ^ 5 ∧
      (((y.val : ℝ) ≤ 0.08101 ∧ 0 ≤ X ∧ (y.val : ℝ) = 4.5 * X) ∨
       ((0.08099 : ℝ) ≤ y.val ∧ 0.0179 ≤ X ∧ X ≤ 1 ∧ (y.val : ℝ) = 1.099 * X ^ (0.45 : ℝ) - 0.099)) := by
  have hd := RelF.litE hf (q := 4.5) (by norm_num) (by norm_num)
  have e45 : ((4.5 : ℚ) : ℝ) = 4.5 := by norm_num
  rw [e45] at hd
  have h0r : (0:ℝ) ≤ y.val := by exact_mod_cast h0
  have h1r : (y.val : ℝ) ≤ 1 := by exact_mod_cast h1
  rcases hx with ⟨hy1, rfl⟩ | ⟨hy1, rfl⟩
  · obtain ⟨x1, x2, x3⟩ := divc_abs hf hy h0 h1 hd (by norm_num) (by norm_num)
    refine ⟨x1, y.val / 4.5, x3.trans (by norm_num), .inl ⟨hy1, by positivity, by ring⟩⟩
  · have hx := bt_dec hf hp hA hB hy (le_trans (by norm_num) hy1) h1
    set x := Flt.powf ((y + B) / A) (FP.lit 1.0 / FP.lit 0.45) with hxdef
    set X := (((y.val : ℝ) + 0.099) / 1.099) ^ (1 / 0.45 : ℝ) with hX
    have hX0 : 0 < X := hx.err.pos
    have hin : 1.099 * X ^ (0.45 : ℝ) - 0.099 = y.val := by
      have := bt_inner h0r
      rwa [← hX] at this
    have hXl : (0.0179 : ℝ) ≤ X := by
      by_contra hlt
      push Not at hlt
      have : X ^ (0.45 : ℝ) ≤ 0.1637 := by
        apply pow45_le hX0.le (by norm_num)
        calc X ^ 9 ≤ (0.0179:ℝ) ^ 9 := pow_le_pow_left₀ hX0.le hlt.le 9
          _ ≤ _ := by norm_num
      norm_num at this hy1 hin
      linarith
    have hXu : X ≤ 1 := by
      rw [hX]
      exact Real.rpow_le_one (by positivity) (by norm_num; linarith) (by norm_num)
    obtain ⟨s1, s2⟩ := RelF.small hf (n := 50) (by norm_num) (by norm_num)
    have xa := hx.err.to_abs s1 (le_trans s2 (by norm_num))
    have hk : 50 * kap f * (1 + 50 * kap f) ≤ 1 / 10 ^ 5 := by
      obtain ⟨u1, u2, _⟩ := u_small hf
      have : 50 * kap f ≤ 1 / 200000 := by unfold kap; norm_num at u1 ⊢; linarith
      have h' := kap_pos f
      nlinarith
    have xa' : |(x.val : ℝ) - X| ≤ 1 / 10 ^ 5 := by
      refine le_trans xa ?_
      calc _ ≤ 1 * (1 / 10 ^ 5 : ℝ) := mul_le_mul hXu hk (by have := kap_pos f; positivity) (by norm_num)
        _ = _ := by ring
    exact ⟨hx.fin, X, xa', .inr ⟨hy1, hXl, hXu, hin.symm⟩⟩

/-- encoding a value within `δ` of the decoded component -/
theorem bt_close (hf : Std f) (hp : PowAccurate f) {A B B' y d x z : FP f} {δ : ℝ} (hA : RelF 1 A 1.099)
    (hB : RelF 13 B 0.099) (hB' : RelF 13 B' 0.099) (hy : y.isFinite = true) (h0 : 0 ≤ y.val) (h1 : y.val ≤ 1)
    (hd : ((y.val : ℝ) ≤ 0.08101 ∧ d = y / FP.lit 4.5) ∨
      ((0.08099 : ℝ) ≤ y.val ∧ d = Flt.powf ((y + B) / A) (FP.lit 1.0 / FP.lit 0.45)))
    (hxf : x.isFinite = true) (hδ : δ ≤ 1 / 5000) (hxd : |(x.val : ℝ) - d.val| ≤ δ)
    (hz : ((x.val : ℝ) ≤ 0.018001 ∧ z = x * FP.lit 4.5) ∨
      ((0.017999 : ℝ) ≤ x.val ∧ z = A * Flt.powf x (FP.lit 0.45) - B')) :
    z.isFinite = true ∧ |(z.val : ℝ) - y.val| ≤ 1 / 1250 + 5 * δ := by
  have h45 := RelF.litE hf (q := 4.5) (by norm_num) (by norm_num)
  have e45 : ((4.5 : ℚ) : ℝ) = 4.5 := by norm_num
  rw [e45] at h45
  have h0r : (0:ℝ) ≤ y.val := by exact_mod_cast h0
  have hδ0 : 0 ≤ δ := le_trans (abs_nonneg _) hxd
  obtain ⟨_, X, hX, hcase⟩ := bt_dec_near hf hp hA hB hy h0 h1 hd
  have hxX : |(x.val : ℝ) - X| ≤ δ + 1 / 10 ^ 5 := by
    have := abs_add_le ((x.val : ℝ) - d.val) (d.val - X)
    rw [sub_add_sub_cancel] at this
    linarith
  obtain ⟨k1, k2⟩ := abs_le.1 hxX
  obtain ⟨n1, n2⟩ := bt_knee
  rcases hz with ⟨hz1, rfl⟩ | ⟨hz1, rfl⟩
  · have hX0 : 0 ≤ X := by
      rcases hcase with ⟨_, b, _⟩ | ⟨_, b, _⟩
      · exact b
      · exact le_trans (by norm_num) b
    obtain ⟨z1, z2⟩ := mulc_abs hf hxf (by
      rw [abs_le]; norm_num at hz1 k1 hδ ⊢; constructor <;> linarith) h45 (by norm_num)
    refine ⟨z1, ?_⟩
    obtain ⟨z3, z4⟩ := abs_le.1 z2
    generalize ((x * FP.lit 4.5 : FP f).val : ℝ) = w at *
    rcases hcase with ⟨c1, _, c2⟩ | ⟨c1, c2, c3, c4⟩
    · rw [abs_le]
      norm_num at z3 z4 k1 k2 c2 ⊢
      constructor <;> linarith
    · have up : X ^ (0.45 : ℝ) ≤ 0.16402 + 4.2 * (X - 0.0179) - 0.0004 ∨
          (X ≤ 0.018 ∧ X ^ (0.45 : ℝ) ≤ 0.16402) := by
        rcases le_total (0.018 : ℝ) X with h | h
        · left
          have lip := (abs_le.1 (bt_lip (a := X) (b := 0.018) (le_trans (by norm_num) c2) (by norm_num))).2
          rw [abs_of_nonneg (by linarith)] at lip
          generalize X ^ (0.45 : ℝ) = P at *
          generalize (0.018 : ℝ) ^ (0.45 : ℝ) = Q at *
          norm_num at lip n2 ⊢
          linarith
        · right
          exact ⟨h, le_trans (Real.rpow_le_rpow hX0 h (by norm_num)) n2⟩
      generalize X ^ (0.45 : ℝ) = P at *
      rw [abs_le]
      norm_num at z3 z4 k1 k2 c1 c2 c4 hz1 ⊢
      rcases up with up | ⟨u1, u2⟩
      · norm_num at up
        constructor <;> linarith
      · norm_num at u1 u2
        constructor <;> linarith
  · have hX1 : X ≤ 1 := by
      rcases hcase with ⟨a, b, c⟩ | ⟨_, _, c, _⟩
      · norm_num at a c ⊢; linarith
      · exact c
    have hxp : 0 < x.val := by
      have : (0:ℝ) < x.val := lt_of_lt_of_le (by norm_num) hz1
      exact_mod_cast this
    obtain ⟨z1, z2⟩ := bt_enc hf hp hA hB' (RelF.exact hxf hxp) (by norm_num) (by norm_num)
      (le_trans (by norm_num) hz1) (by norm_num at k2 hδ ⊢; linarith)
    refine ⟨z1, ?_⟩
    obtain ⟨z3, z4⟩ := abs_le.1 z2
    generalize ((A * Flt.powf x (FP.lit 0.45) - B' : FP f).val : ℝ) = w at *
    rcases hcase with ⟨c1, _, c2⟩ | ⟨c1, c2, c3, c4⟩
    · have lip := abs_le.1 (bt_lip (a := x.val) (b := 0.018) (le_trans (by norm_num) hz1) (by norm_num))
      obtain ⟨l1, l2⟩ := lip
      have hA : |(x.val : ℝ) - 0.018| ≤ (x.val - 0.018) + 0.000002 := by
        norm_num at hz1
        exact abs_le.2 ⟨by norm_num; linarith, by norm_num⟩
      have low : (0.16398 : ℝ) ≤ (x.val : ℝ) ^ (0.45 : ℝ) := by
        apply le_pow45 (le_trans (by norm_num) hz1) (by norm_num)
        calc (0.16398:ℝ) ^ 20 ≤ (0.017999:ℝ) ^ 9 := by norm_num
          _ ≤ _ := pow_le_pow_left₀ (by norm_num) hz1 9
      generalize |(x.val : ℝ) - 0.018| = a at *
      generalize (x.val : ℝ) ^ (0.45 : ℝ) = P at *
      generalize (0.018 : ℝ) ^ (0.45 : ℝ) = Q at *
      rw [abs_le]
      norm_num at z3 z4 k1 k2 c1 c2 l1 l2 hA n1 n2 hz1 low ⊢
      constructor <;> linarith
    · obtain ⟨l1, l2⟩ := abs_le.1 (bt_lip (a := x.val) (b := X) (le_trans (by norm_num) hz1)
        (le_trans (by norm_num) c2))
      have m : 4.2 * |(x.val : ℝ) - X| ≤ 4.2 * (δ + 1 / 10 ^ 5) :=
        mul_le_mul_of_nonneg_left hxX (by norm_num)
      generalize |(x.val : ℝ) - X| = a at *
      generalize (x.val : ℝ) ^ (0.45 : ℝ) = P at *
      generalize X ^ (0.45 : ℝ) = Q at *
      rw [abs_le]
      norm_num at z3 z4 c4 l1 l2 m ⊢
      constructor <;> linarith

/-- the branches of the decoder -/
theorem bt709_dec_cases (hf : Std f) {y : FP f} (hy : y.isFinite = true) :
    ((y.val : ℝ) ≤ 0.08101 ∧ decode.bt709_t y = y / FP.lit 4.5) ∨
      ((0.08099 : ℝ) ≤ y.val ∧ decode.bt709_t y =
        Flt.powf ((y + FP.lit 0.099) / FP.lit 1.099) (FP.lit 1.0 / FP.lit 0.45)) := by
  obtain ⟨t1, t2, t3⟩ := bt_threshold hf
  have hle : Flt.le y (FP.lit 0.018 * FP.lit 4.5) = decide (y.val ≤ (FP.lit 0.018 * FP.lit 4.5 : FP f).val) := by
    rw [FP.flt_le, FP.le_finite hy t1]
  by_cases h : y.val ≤ (FP.lit 0.018 * FP.lit 4.5 : FP f).val
  · left
    have : (y.val : ℝ) ≤ (FP.lit 0.018 * FP.lit 4.5 : FP f).val := by exact_mod_cast h
    refine ⟨by linarith, ?_⟩
    unfold decode.bt709_t
    simp only [FP.flt_lit, hle, h, decide_true, if_true]
  · right
    have : ((FP.lit 0.018 * FP.lit 4.5 : FP f).val : ℝ) ≤ y.val := by exact_mod_cast (not_le.1 h).le
    refine ⟨by linarith, ?_⟩
    unfold decode.bt709_t
    simp only [FP.flt_lit, hle, h, decide_false, if_false, Bool.false_eq_true]

/-- the branches of the encoder -/
theorem bt709_enc_cases (hf : Std f) {x : FP f} (hxf : x.isFinite = true) :
    ((x.val : ℝ) ≤ 0.018001 ∧ encode.bt709_t x = x * FP.lit 4.5) ∨
      ((0.017999 : ℝ) ≤ x.val ∧ encode.bt709_t x = FP.lit 1.099 * Flt.powf x (FP.lit 0.45) - FP.lit 0.099) := by
  obtain ⟨s1, s2, s3⟩ := lit_between hf (q := 0.018) (lo := 0.017999) (hi := 0.018001) (by norm_num)
    (by norm_num) (by norm_num) (by norm_num)
  have s2 : (0.017999 : ℝ) ≤ (FP.lit 0.018 : FP f).val := le_trans (by norm_num) s2
  have s3 : ((FP.lit 0.018 : FP f).val : ℝ) ≤ 0.018001 := le_trans s3 (by norm_num)
  have hle : Flt.le x (FP.lit 0.018) = decide (x.val ≤ (FP.lit 0.018 : FP f).val) := by
    rw [FP.flt_le, FP.le_finite hxf s1]
  by_cases h : x.val ≤ (FP.lit 0.018 : FP f).val
  · left
    have : (x.val : ℝ) ≤ (FP.lit 0.018 : FP f).val := by exact_mod_cast h
    refine ⟨by linarith, ?_⟩
    unfold encode.bt709_t
    simp only [FP.flt_lit, hle, h, decide_true, if_true]
  · right
    have : ((FP.lit 0.018 : FP f).val : ℝ) ≤ x.val := by exact_mod_cast (not_le.1 h).le
    refine ⟨by linarith, ?_⟩
    unfold encode.bt709_t
    simp only [FP.flt_lit, hle, h, decide_false, if_false, Bool.false_eq_true]

/-- BT.709 -/
theorem bt709_close (hf : Std f) (hp : PowAccurate f) {y x : FP f} {δ : ℝ} (hy : y.isFinite = true)
    (h0 : 0 ≤ y.val) (h1 : y.val ≤ 1) (hxf : x.isFinite = true) (hδ : δ ≤ 1 / 5000)
    (hd : |(x.val : ℝ) - (decode.bt709_t y).val| ≤ δ) :
    (encode.bt709_t x).isFinite = true ∧
    |((encode.bt709_t x).val : ℝ) - y.val| ≤ 1 / 1250 + 5 * δ := by
  have hA := RelF.litE hf (q := 1.099) (by norm_num) (by norm_num)
  have hB := RelF.litE hf (q := 0.099) (by norm_num) (by norm_num)
  refine bt_close hf hp (hA.congr (by norm_num)) ((hB.mono (by norm_num)).congr (by norm_num))
    ((hB.mono (by norm_num)).congr (by norm_num)) hy h0 h1
    ?_ hxf hδ hd ?_
  · exact bt709_dec_cases hf hy
  · exact bt709_enc_cases hf hxf

/-- the branches of the decoder -/
theorem bt2020_dec_cases (hf : Std f) {y : FP f} (hy : y.isFinite = true) :
    ((y.val : ℝ) ≤ 0.08101 ∧ decode.bt2020_t y = y / FP.lit 4.5) ∨
      ((0.08099 : ℝ) ≤ y.val ∧ decode.bt2020_t y =
        Flt.powf ((y + (FP.lit 1.099 - FP.lit 1.0)) / FP.lit 1.099) (FP.lit 1.0 / FP.lit 0.45)) := by
  obtain ⟨t1, t2, t3⟩ := bt_threshold hf
  have hle : Flt.lt y (FP.lit 0.018 * FP.lit 4.5) = decide (y.val < (FP.lit 0.018 * FP.lit 4.5 : FP f).val) := by
    rw [FP.flt_lt, FP.lt_finite hy t1]
  by_cases h : y.val < (FP.lit 0.018 * FP.lit 4.5 : FP f).val
  · left
    have : (y.val : ℝ) < (FP.lit 0.018 * FP.lit 4.5 : FP f).val := by exact_mod_cast h
    refine ⟨by linarith, ?_⟩
    unfold decode.bt2020_t
    simp only [FP.flt_lit, hle, h, decide_true, if_true]
  · right
    have : ((FP.lit 0.018 * FP.lit 4.5 : FP f).val : ℝ) ≤ y.val := by exact_mod_cast (not_lt.1 h)
    refine ⟨by linarith, ?_⟩
    unfold decode.bt2020_t
    simp only [FP.flt_lit, hle, h, decide_false, if_false, Bool.false_eq_true]

/-- the branches of the encoder -/
theorem bt2020_enc_cases (hf : Std f) {x : FP f} (hxf : x.isFinite = true) :
    ((x.val : ℝ) ≤ 0.018001 ∧ encode.bt2020_t x = x * FP.lit 4.5) ∨
      ((0.017999 : ℝ) ≤ x.val ∧
        encode.bt2020_t x = FP.lit 1.099 * Flt.powf x (FP.lit 0.45) - (FP.lit 1.099 - FP.lit 1.0)) := by
  obtain ⟨s1, s2, s3⟩ := lit_between hf (q := 0.018) (lo := 0.017999) (hi := 0.018001) (by norm_num)
    (by norm_num) (by norm_num) (by norm_num)
  have s2 : (0.017999 : ℝ) ≤ (FP.lit 0.018 : FP f).val := le_trans (by norm_num) s2
  have s3 : ((FP.lit 0.018 : FP f).val : ℝ) ≤ 0.018001 := le_trans s3 (by norm_num)
  have hle : Flt.lt x (FP.lit 0.018) = decide (x.val < (FP.lit 0.018 : FP f).val) := by
    rw [FP.flt_lt, FP.lt_finite hxf s1]
  by_cases h : x.val < (FP.lit 0.018 : FP f).val
  · left
    have : (x.val : ℝ) < (FP.lit 0.018 : FP f).val := by exact_mod_cast h
    refine ⟨by linarith, ?_⟩
    unfold encode.bt2020_t
    simp only [FP.flt_lit, hle, h, decide_true, if_true]
  · right
    have : ((FP.lit 0.018 : FP f).val : ℝ) ≤ x.val := by exact_mod_cast (not_lt.1 h)
    refine ⟨by linarith, ?_⟩
    unfold encode.bt2020_t
    simp only [FP.flt_lit, hle, h, decide_false, if_false, Bool.false_eq_true]

/-- BT.2020 -/
theorem bt2020_close (hf : Std f) (hp : PowAccurate f) {y x : FP f} {δ : ℝ} (hy : y.isFinite = true)
    (h0 : 0 ≤ y.val) (h1 : y.val ≤ 1) (hxf : x.isFinite = true) (hδ : δ ≤ 1 / 5000)
    (hd : |(x.val : ℝ) - (decode.bt2020_t y).val| ≤ δ) :
    (encode.bt2020_t x).isFinite = true ∧
    |((encode.bt2020_t x).val : ℝ) - y.val| ≤ 1 / 1250 + 5 * δ := by
  have hA := RelF.litE hf (q := 1.099) (by norm_num) (by norm_num)
  have hB := bt2020_beta hf
  refine bt_close hf hp (hA.congr (by norm_num)) hB hB hy h0 h1 ?_ hxf hδ hd ?_
  · exact bt2020_dec_cases hf hy
  · exact bt2020_enc_cases hf hxf

end bt
end CS

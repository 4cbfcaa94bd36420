import Verif.Lemmas.ViaEval
import Verif.Lemmas.TripEval

/-!
# Conversion in one step and through XYZ
How far the result of one matrix differs from that of two, in a floating-point format.
-/

namespace CS

/-- largest row sum of `|A B - D|` -/
def maxGap {f : Fmt} (A B D : Matrix33 (FP f)) : ℚ :=
  let e (i j : Fin 3) : ℚ := |A.q i 0 * B.q 0 j + A.q i 1 * B.q 1 j + A.q i 2 * B.q 2 j - D.q i j|
  let r (i : Fin 3) : ℚ := e i 0 + e i 1 + e i 2
  max (r 0) (max (r 1) (r 2))

/-- do the two steps `B`, `A` differ from `D` by at most `δ`? -/
def stepsCheck {f : Fmt} (A B D : Matrix33 (FP f)) (δ : ℚ) : Bool :=
  A.fin && B.fin && D.fin && decide (normAbs A ≤ 64) && decide (normAbs B ≤ 64) && decide (normAbs D ≤ 64) &&
    decide (11 * f.u * (normAbs A * normAbs B) + 5 * f.u * normAbs D + maxGap A B D ≤ δ)

/-- do all entries exceed `κ`, with room for rounding? -/
def floorCheck {f : Fmt} (D : Matrix33 (FP f)) (κ : ℚ) : Bool :=
  decide (κ + 5 * f.u * normAbs D ≤ D.x0.val ∧ κ + 5 * f.u * normAbs D ≤ D.x1.val ∧
    κ + 5 * f.u * normAbs D ≤ D.x2.val ∧ κ + 5 * f.u * normAbs D ≤ D.x3.val ∧
    κ + 5 * f.u * normAbs D ≤ D.x4.val ∧ κ + 5 * f.u * normAbs D ≤ D.x5.val ∧
    κ + 5 * f.u * normAbs D ≤ D.x6.val ∧ κ + 5 * f.u * normAbs D ≤ D.x7.val ∧
    κ + 5 * f.u * normAbs D ≤ D.x8.val)

theorem rowAbs_le_normAbs {f : Fmt} (m : Matrix33 (FP f)) (i : Fin 3) : rowAbs m i ≤ normAbs m := by
  unfold rowAbs normAbs
  rw [Fin.sum_univ_three]
  fin_cases i <;> simp

section
variable {f : Fmt} [Libm f]

omit [Libm f] in
/-- one matrix: finite and near the exact product -/
theorem direct_near (hf : Wide f) {D : Matrix33 (FP f)} (hD : D.fin = true) (hD2 : normAbs D ≤ 64)
    (c : RGBf (FP f)) {M : ℚ} (hM1 : 1 / 2 ^ 90 ≤ M) (hM2 : M ≤ 2 ^ 100)
    (hc : ∀ i, (rgbVec c i).isFinite = true ∧ |(rgbVec c i).val| ≤ M) (i : Fin 3) :
    (rgbVec (D * c) i).isFinite = true ∧
    |(rgbVec (D * c) i).val - ∑ j, D.q i j * (rgbVec c j).val| ≤ 4.1 * f.u * normAbs D * M ∧
    |∑ j, D.q i j * (rgbVec c j).val| ≤ normAbs D * M := by
  have hM0 : 0 < M := lt_of_lt_of_le (by positivity) hM1
  have hη := eta_small hf (M := M) (le_trans (by norm_num) hM1)
  have hu0 := f.u_pos
  have hn : 1 / 2 ≤ normAbs D := le_max_left _ _
  have hb : normAbs D * M ≤ 2 ^ 115 := by
    calc normAbs D * M ≤ 64 * 2 ^ 100 := mul_le_mul hD2 hM2 hM0.le (by norm_num)
      _ ≤ _ := by norm_num
  obtain ⟨h1, h2, h3⟩ := mulc_err hf hD (rowAbs_le_normAbs D) hb hc i
  refine ⟨h1, h2.trans ?_, h3⟩
  have h4 : f.u * M ≤ 2 * (f.u * (normAbs D * M)) := by
    have : f.u * (1 / 2 * M) ≤ f.u * (normAbs D * M) := by gcongr
    linarith
  have h5 : 4.1 * f.u * normAbs D * M = 4.1 * (f.u * (normAbs D * M)) := by ring
  have h6 : 0 < f.u * (normAbs D * M) := by positivity
  rw [h5]
  linarith

/-- multiplying by a hundred and dividing by it -/
theorem hundred_near (hf : Wide f) {x : FP f} {X : ℚ} (hx : x.isFinite = true) (hX : |x.val| ≤ X)
    (hX1 : 1 / 2 ^ 100 ≤ X) (hX2 : X ≤ 2 ^ 110)
    (hl : (Flt.lit 100.0 : FP f).isFinite = true ∧ (Flt.lit 100.0 : FP f).val = 100) :
    (x * Flt.lit 100.0 / Flt.lit 100.0).isFinite = true ∧
    |(x * Flt.lit 100.0 / Flt.lit 100.0).val - x.val| ≤ 2.05 * f.u * X := by
  have hX0 : 0 < X := lt_of_lt_of_le (by positivity) hX1
  have hu0 := f.u_pos
  have hu : f.u ≤ 1 / 1000000 := le_trans hf.hu (by norm_num)
  have hη := eta_small hf (M := X) (le_trans (by norm_num) hX1)
  have hbig : 200 * X ≤ 2 ^ f.emax := by
    have := hf.hmax
    have e2 : (0:ℚ) < 2 ^ f.emax := by positivity
    have : 200 * X ≤ 200 * (2 ^ 110) := by gcongr
    have : (200 * (2 ^ 110) : ℚ) ≤ 2 ^ 126 := by norm_num
    linarith
  have hb1 : |x.val * 100| ≤ 100 * X := by
    rw [abs_mul]; norm_num at hX ⊢; linarith
  obtain ⟨g1, g2⟩ := FP.mul_err hx hl.1 (by rw [hl.2]; linarith)
  rw [hl.2] at g2
  have hb3 : |x.val * 100| * f.u ≤ 100 * X * f.u := by gcongr
  have hb5 : f.u * X ≤ 1 / 1000000 * X := by gcongr
  have hb6 : |(x * Flt.lit 100.0).val| ≤ 101 * X := by
    have t := abs_add_le ((x * Flt.lit 100.0).val - x.val * 100) (x.val * 100)
    rw [sub_add_cancel] at t
    linarith
  have hb7 : |(x * Flt.lit 100.0).val / 100| ≤ 1.01 * X := by
    rw [abs_div]; norm_num at hb6 ⊢; linarith
  obtain ⟨k1, k2⟩ := FP.div_err g1 hl.1 (by rw [hl.2]; norm_num) (by rw [hl.2]; linarith)
  rw [hl.2] at k2
  refine ⟨k1, ?_⟩
  have t := abs_add_le ((x * Flt.lit 100.0 / Flt.lit 100.0).val - (x * Flt.lit 100.0).val / 100)
    ((x * Flt.lit 100.0).val / 100 - x.val)
  rw [sub_add_sub_cancel] at t
  have e3 : |(x * Flt.lit 100.0).val / 100 - x.val| = |(x * Flt.lit 100.0).val - x.val * 100| / 100 := by
    rw [show (x * Flt.lit 100.0).val / 100 - x.val = ((x * Flt.lit 100.0).val - x.val * 100) / 100 by ring,
      abs_div]
    norm_num
  have e4 : |(x * Flt.lit 100.0).val / 100| * f.u ≤ 1.01 * X * f.u := by gcongr
  rw [e3] at t
  have e6 : 0 < f.u * X := by positivity
  linarith

/-- two matrices with the scaling between them: finite and near one matrix -/
theorem steps_near (hf : Wide f) (h100 : 100 ≤ 2 ^ f.p) {A B D : Matrix33 (FP f)} {δ : ℚ}
    (h : stepsCheck A B D δ = true) (c : RGBf (FP f)) {M : ℚ} (hM1 : 1 / 2 ^ 90 ≤ M) (hM2 : M ≤ 2 ^ 90)
    (hc : ∀ i, (rgbVec c i).isFinite = true ∧ |(rgbVec c i).val| ≤ M) (i : Fin 3) :
    (rgbVec (xyzToRgb A (rgbToXyz B c)) i).isFinite = true ∧ (rgbVec (D * c) i).isFinite = true ∧
    |(rgbVec (xyzToRgb A (rgbToXyz B c)) i).val - (rgbVec (D * c) i).val| ≤ δ * M := by
  unfold stepsCheck at h
  simp only [Bool.and_eq_true, decide_eq_true_eq] at h
  obtain ⟨⟨⟨⟨⟨⟨hA, hB⟩, hD⟩, nA⟩, nB⟩, nD⟩, hδ⟩ := h
  have hM0 : 0 < M := lt_of_lt_of_le (by positivity) hM1
  have hu0 := f.u_pos
  have hu : f.u ≤ 1 / 1000000 := le_trans hf.hu (by norm_num)
  have hl := lit100 (f := f) h100
  have a0 : 1 / 2 ≤ normAbs A := le_max_left _ _
  have b0 : 1 / 2 ≤ normAbs B := le_max_left _ _
  have hXp : 0 < normAbs B * M := by positivity
  have huX : f.u * (normAbs B * M) ≤ 1 / 1000000 * (normAbs B * M) := by gcongr
  set c' : RGBf (FP f) := B * c with hc'
  have s1 := fun j => direct_near hf hB nB c hM1 (hM2.trans (by norm_num)) hc j
  have s2 : ∀ j, |(rgbVec c' j).val| ≤ 1.001 * (normAbs B * M) := by
    intro j
    obtain ⟨-, p, q⟩ := s1 j
    have t := abs_add_le ((rgbVec c' j).val - ∑ k, B.q j k * (rgbVec c k).val) (∑ k, B.q j k * (rgbVec c k).val)
    rw [sub_add_cancel] at t
    have e : 4.1 * f.u * normAbs B * M = 4.1 * (f.u * (normAbs B * M)) := by ring
    rw [e] at p
    norm_num at p huX ⊢
    linarith
  let x : RGBf (FP f) := ⟨c'.r * Flt.lit 100.0 / Flt.lit 100.0, c'.g * Flt.lit 100.0 / Flt.lit 100.0,
    c'.b * Flt.lit 100.0 / Flt.lit 100.0⟩
  have ex : ∀ j, rgbVec x j = rgbVec c' j * Flt.lit 100.0 / Flt.lit 100.0 := by
    intro j; fin_cases j <;> rfl
  have s3 : ∀ j, (rgbVec x j).isFinite = true ∧
      |(rgbVec x j).val - (rgbVec c' j).val| ≤ 2.05 * f.u * (1.001 * (normAbs B * M)) := by
    intro j
    rw [ex]
    refine hundred_near hf (s1 j).1 (s2 j) ?_ ?_ hl
    · have : 1 / 2 * (1 / 2 ^ 90) ≤ normAbs B * M := by gcongr
      refine le_trans ?_ (le_trans this (by linarith))
      norm_num
    · have : normAbs B * M ≤ 64 * 2 ^ 90 := by gcongr
      refine le_trans (mul_le_mul_of_nonneg_left this (by norm_num)) (by norm_num)
  have s4 : ∀ j, |(rgbVec x j).val - ∑ k, B.q j k * (rgbVec c k).val| ≤ 6.2 * f.u * (normAbs B * M) := by
    intro j
    obtain ⟨-, p, -⟩ := s1 j
    obtain ⟨-, q⟩ := s3 j
    have t := abs_add_le ((rgbVec x j).val - (rgbVec c' j).val)
      ((rgbVec c' j).val - ∑ k, B.q j k * (rgbVec c k).val)
    rw [sub_add_sub_cancel] at t
    have e6 : 0 < f.u * (normAbs B * M) := by positivity
    have e : 4.1 * f.u * normAbs B * M = 4.1 * (f.u * (normAbs B * M)) := by ring
    rw [e] at p
    norm_num at p q ⊢
    linarith
  have s5 : ∀ j, (rgbVec x j).isFinite = true ∧ |(rgbVec x j).val| ≤ 1.01 * (normAbs B * M) := by
    intro j
    refine ⟨(s3 j).1, ?_⟩
    have t := abs_add_le ((rgbVec x j).val - (rgbVec c' j).val) (rgbVec c' j).val
    rw [sub_add_cancel] at t
    have q := (s3 j).2
    have r := s2 j
    norm_num at q r huX ⊢
    linarith
  have hX1 : 1 / 2 ^ 90 * (1 / 2) ≤ 1.01 * (normAbs B * M) := by
    have : 1 / 2 * (1 / 2 ^ 90) ≤ normAbs B * M := by gcongr
    linarith
  have hη := eta_small hf (M := M) (le_trans (by norm_num) hM1)
  have hbig : normAbs A * (1.01 * (normAbs B * M)) ≤ 2 ^ 115 := by
    have : normAbs A * (1.01 * (normAbs B * M)) ≤ 64 * (1.01 * (64 * 2 ^ 90)) := by gcongr
    exact this.trans (by norm_num)
  obtain ⟨r1, r2, -⟩ := mulc_err hf hA (rowAbs_le_normAbs A) hbig s5 i
  have er : rgbVec (xyzToRgb A (rgbToXyz B c)) i = rgbVec (A * x) i := by fin_cases i <;> rfl
  obtain ⟨d1, d2, -⟩ := direct_near hf hD nD c hM1 (hM2.trans (by norm_num)) hc i
  rw [er]
  refine ⟨r1, d1, ?_⟩
  -- the exact parts
  have t1 : |∑ j, A.q i j * (rgbVec x j).val - ∑ j, A.q i j * ∑ k, B.q j k * (rgbVec c k).val| ≤
      normAbs A * (6.2 * f.u * (normAbs B * M)) := by
    rw [← Finset.sum_sub_distrib]
    simp only [← mul_sub]
    exact abs_dot3_le (b := A.q i) (rowAbs_le_normAbs A i) s4
  have t2 : |∑ j, A.q i j * (∑ k, B.q j k * (rgbVec c k).val) - ∑ j, D.q i j * (rgbVec c j).val| ≤
      maxGap A B D * M := by
    have e : ∑ j, A.q i j * (∑ k, B.q j k * (rgbVec c k).val) - ∑ j, D.q i j * (rgbVec c j).val =
        ∑ j, (A.q i 0 * B.q 0 j + A.q i 1 * B.q 1 j + A.q i 2 * B.q 2 j - D.q i j) * (rgbVec c j).val := by
      simp only [Fin.sum_univ_three]; ring
    rw [e]
    refine abs_dot3_le (b := fun j => A.q i 0 * B.q 0 j + A.q i 1 * B.q 1 j + A.q i 2 * B.q 2 j - D.q i j)
      ?_ (fun j => (hc j).2)
    unfold maxGap
    simp only [Fin.sum_univ_three]
    fin_cases i <;> simp
  have w1 := abs_add_le ((rgbVec (A * x) i).val - ∑ j, A.q i j * (rgbVec x j).val)
    (∑ j, A.q i j * (rgbVec x j).val - ∑ j, A.q i j * ∑ k, B.q j k * (rgbVec c k).val)
  rw [sub_add_sub_cancel] at w1
  have w2 := abs_add_le ((rgbVec (A * x) i).val - ∑ j, A.q i j * ∑ k, B.q j k * (rgbVec c k).val)
    (∑ j, A.q i j * (∑ k, B.q j k * (rgbVec c k).val) - ∑ j, D.q i j * (rgbVec c j).val)
  rw [sub_add_sub_cancel] at w2
  have w3 := abs_add_le ((rgbVec (A * x) i).val - ∑ j, D.q i j * (rgbVec c j).val)
    (∑ j, D.q i j * (rgbVec c j).val - (rgbVec (D * c) i).val)
  rw [sub_add_sub_cancel] at w3
  rw [abs_sub_comm] at d2
  have hm := mul_le_mul_of_nonneg_right hδ hM0.le
  have e1 : normAbs A * (6.2 * f.u * (normAbs B * M)) = 6.2 * (f.u * (normAbs A * normAbs B) * M) := by ring
  have e2 : 4 * f.u * (normAbs A * (1.01 * (normAbs B * M))) = 4.04 * (f.u * (normAbs A * normAbs B) * M) := by
    ring
  have e3 : (11 * f.u * (normAbs A * normAbs B) + 5 * f.u * normAbs D + maxGap A B D) * M =
      11 * (f.u * (normAbs A * normAbs B) * M) + 5 * (f.u * normAbs D * M) + maxGap A B D * M := by ring
  have e4 : 4.1 * f.u * normAbs D * M = 4.1 * (f.u * normAbs D * M) := by ring
  rw [e1] at t1
  rw [e2] at r2
  rw [e3] at hm
  rw [e4] at d2
  have p1 : f.u * M ≤ 4 * (f.u * (normAbs A * normAbs B) * M) := by
    have : 1 / 2 * (1 / 2) ≤ normAbs A * normAbs B := by gcongr
    have : f.u * (1 / 2 * (1 / 2)) * M ≤ f.u * (normAbs A * normAbs B) * M := by gcongr
    linarith
  have n0 : 1 / 2 ≤ normAbs D := le_max_left _ _
  have p2 : 0 < f.u * normAbs D * M := by positivity
  have p3 : 0 < f.u * (normAbs A * normAbs B) * M := by positivity
  norm_num at t1 r2 d2
  linarith

omit [Libm f] in
/-- with entries above `κ`, no component is much darker than the brightest of the input -/
theorem direct_floor (hf : Wide f) {D : Matrix33 (FP f)} {κ : ℚ} (hD : D.fin = true) (hD2 : normAbs D ≤ 64)
    (h : floorCheck D κ = true) (hκ : 0 ≤ κ) (c : RGBf (FP f)) {M : ℚ} (hM1 : 1 / 2 ^ 90 ≤ M) (hM2 : M ≤ 2 ^ 90)
    (hc : ∀ i, (rgbVec c i).isFinite = true ∧ 0 ≤ (rgbVec c i).val ∧ (rgbVec c i).val ≤ M)
    (hex : ∃ j, (rgbVec c j).val = M) (i : Fin 3) : κ * M ≤ (rgbVec (D * c) i).val := by
  have hM0 : 0 < M := lt_of_lt_of_le (by positivity) hM1
  have hu0 := f.u_pos
  have n0 : 1 / 2 ≤ normAbs D := le_max_left _ _
  have hK : 0 ≤ κ + 5 * f.u * normAbs D := by positivity
  have hq : ∀ j, κ + 5 * f.u * normAbs D ≤ D.q i j := by
    unfold floorCheck at h
    simp only [decide_eq_true_eq] at h
    obtain ⟨h0, h1, h2, h3, h4, h5, h6, h7, h8⟩ := h
    intro j
    fin_cases i <;> fin_cases j <;> assumption
  obtain ⟨-, d, -⟩ := direct_near hf hD hD2 c hM1 (hM2.trans (by norm_num)) (fun j => ⟨(hc j).1, by
    rw [abs_of_nonneg (hc j).2.1]; exact (hc j).2.2⟩) i
  obtain ⟨j, hj⟩ := hex
  have hs : (κ + 5 * f.u * normAbs D) * M ≤ ∑ j, D.q i j * (rgbVec c j).val := by
    calc (κ + 5 * f.u * normAbs D) * M ≤ D.q i j * (rgbVec c j).val := by
          rw [hj]; exact mul_le_mul_of_nonneg_right (hq j) hM0.le
      _ ≤ _ := Finset.single_le_sum (f := fun j => D.q i j * (rgbVec c j).val)
          (fun k _ => mul_nonneg (hK.trans (hq k)) (hc k).2.1) (Finset.mem_univ j)
  have p2 : 0 < f.u * normAbs D * M := by positivity
  have e : (κ + 5 * f.u * normAbs D) * M = κ * M + 5 * (f.u * normAbs D * M) := by ring
  have e4 : 4.1 * f.u * normAbs D * M = 4.1 * (f.u * normAbs D * M) := by ring
  rw [e] at hs
  rw [e4] at d
  have := (abs_le.1 d).1
  norm_num at this
  linarith

omit [Libm f] in
/-- black stays black -/
theorem dark_mul {D : Matrix33 (FP f)} (hD : D.fin = true) (c : RGBf (FP f))
    (hc : ∀ i, (rgbVec c i).isFinite = true ∧ (rgbVec c i).val = 0) (i : Fin 3) :
    (rgbVec (D * c) i).isFinite = true ∧ (rgbVec (D * c) i).val = 0 := by
  have hm : ∀ {a b : FP f}, a.isFinite = true → b.isFinite = true → b.val = 0 →
      (a * b).isFinite = true ∧ (a * b).val = 0 := by
    intro a b ha hb h0
    have := FP.mul_finite' ha hb (by rw [h0, mul_zero, roundQ_zero, abs_zero]; positivity)
    rw [h0, mul_zero, roundQ_zero] at this
    exact this
  have hadd : ∀ {a b : FP f}, (a.isFinite = true ∧ a.val = 0) → (b.isFinite = true ∧ b.val = 0) →
      (a + b).isFinite = true ∧ (a + b).val = 0 := by
    intro a b ha hb
    have := FP.add_finite ha.1 hb.1 (by rw [ha.2, hb.2, add_zero, roundQ_zero, abs_zero]; positivity)
    rw [ha.2, hb.2, add_zero, roundQ_zero] at this
    exact this
  rw [mul_row]
  have g := fun j => hm (Matrix33.fin_get hD i j) (hc j).1 (hc j).2
  exact hadd (hadd (g 0) (g 1)) (g 2)

theorem dark_steps (h100 : 100 ≤ 2 ^ f.p) {A B : Matrix33 (FP f)} (hA : A.fin = true) (hB : B.fin = true)
    (c : RGBf (FP f)) (hc : ∀ i, (rgbVec c i).isFinite = true ∧ (rgbVec c i).val = 0) (i : Fin 3) :
    (rgbVec (xyzToRgb A (rgbToXyz B c)) i).isFinite = true ∧
    (rgbVec (xyzToRgb A (rgbToXyz B c)) i).val = 0 := by
  have hl := lit100 (f := f) h100
  set c' : RGBf (FP f) := B * c with hc'
  let x : RGBf (FP f) := ⟨c'.r * Flt.lit 100.0 / Flt.lit 100.0, c'.g * Flt.lit 100.0 / Flt.lit 100.0,
    c'.b * Flt.lit 100.0 / Flt.lit 100.0⟩
  have ex : ∀ j, rgbVec x j = rgbVec c' j * Flt.lit 100.0 / Flt.lit 100.0 := by
    intro j; fin_cases j <;> rfl
  have er : rgbVec (xyzToRgb A (rgbToXyz B c)) i = rgbVec (A * x) i := by fin_cases i <;> rfl
  rw [er]
  refine dark_mul hA x (fun j => ?_) i
  obtain ⟨p, q⟩ := dark_mul hB c hc j
  rw [ex]
  obtain ⟨m1, m2⟩ := FP.mul_finite' p hl.1 (by rw [q, zero_mul, roundQ_zero, abs_zero]; positivity)
  rw [q, zero_mul, roundQ_zero] at m2
  obtain ⟨n1, n2⟩ := FP.div_finite' m1 hl.1 (by rw [hl.2]; norm_num)
    (by rw [m2, zero_div, roundQ_zero, abs_zero]; positivity)
  rw [m2, zero_div, roundQ_zero] at n2
  exact ⟨n1, n2⟩
end

/-- run a check on the matrices of `xyz_to_rgb_matrix`, `rgb_to_xyz_matrix` and `rgb_to_rgb_matrix` for the
white point of the first space -/
def fastSteps {f : Fmt} [Libm f] (MAi MA : Matrix33 (FP f)) (a b : ColorSpaceRGB (FP f))
    (k : Matrix33 (FP f) → Matrix33 (FP f) → Matrix33 (FP f) → Bool) : Bool :=
  (XYZ.fromChromaticity a.white).force fun wa => (XYZ.fromChromaticity b.white).force fun wb =>
  fastCat MAi MA wa wa fun c0 => fastCat MAi MA wa wb fun c =>
  (mmE b.xf_xyz_to_rgb c).force fun A => (mmE c0 a.xf_rgb_to_xyz).force fun B =>
  (mmE A a.xf_rgb_to_xyz).force fun D => k A B D

theorem fastSteps_sound {f : Fmt} [Libm f] {MAi : Matrix33 (FP f)}
    (h : (cat02M : Matrix33 (FP f)).inverse = some MAi) {a b : ColorSpaceRGB (FP f)}
    {k : Matrix33 (FP f) → Matrix33 (FP f) → Matrix33 (FP f) → Bool}
    (hk : fastSteps MAi cat02M a b k = true) :
    ∃ A B D, xyzToRgbMatrix a.white b = .ok A ∧ rgbToXyzMatrix a.white a = .ok B ∧
      rgbToRgbMatrix a b = .ok D ∧ k A B D = true := by
  unfold fastSteps at hk
  simp only [XYZ.force_eq, Matrix33.force_eq, mmE_eq] at hk
  obtain ⟨c0, hc0, hk⟩ := fastCat_sound h hk
  obtain ⟨c, hc, hk⟩ := fastCat_sound h hk
  refine ⟨_, _, _, ?_, ?_, ?_, hk⟩
  · unfold xyzToRgbMatrix cat02
    rw [hc]; rfl
  · unfold rgbToXyzMatrix cat02
    rw [hc0]; rfl
  · unfold rgbToRgbMatrix cat02
    rw [hc]; rfl

theorem fastSteps_libm {f : Fmt} (L : Libm f) : @fastSteps f L = @fastSteps f (noLibm f) := by
  funext a b w cs k; rfl

/-- the three matrices of a pair of spaces pass the check -/
def StepsOk {f : Fmt} [Libm f] (r s : Res (ColorSpaceRGB (FP f)))
    (k : Matrix33 (FP f) → Matrix33 (FP f) → Matrix33 (FP f) → Bool) : Prop :=
  ∃ a b A B D, r = .ok a ∧ s = .ok b ∧ xyzToRgbMatrix a.white b = .ok A ∧
    rgbToXyzMatrix a.white a = .ok B ∧ rgbToRgbMatrix a b = .ok D ∧ k A B D = true

theorem stepsOk_of_check {f : Fmt} (L : Libm f) {r s : Res (ColorSpaceRGB (FP f))}
    {a0 b0 : ColorSpaceRGB (FP f)} {t : ℚ} (ha : Linked (r, t) (a0, t)) (hb : Linked (s, t) (b0, t))
    {k : Matrix33 (FP f) → Matrix33 (FP f) → Matrix33 (FP f) → Bool}
    (h : @withCat02 f (noLibm f) (fun MAi MA => @fastSteps f (noLibm f) MAi MA a0 b0 k) = true) :
    StepsOk r s k := by
  obtain ⟨a, ea, a1, a2, a3, -⟩ := ha
  obtain ⟨b, eb, b1, b2, b3, -⟩ := hb
  rw [← withCat02_libm L, ← fastSteps_libm L] at h
  obtain ⟨MAi, hi, h⟩ := withCat02_sound h
  obtain ⟨A, B, D, hA, hB, hD, hk⟩ := fastSteps_sound hi h
  refine ⟨a, b, A, B, D, ea, eb, ?_, ?_, ?_, hk⟩
  · rw [← hA]; unfold xyzToRgbMatrix; rw [a3, b1, b3]
  · rw [← hB]; unfold rgbToXyzMatrix; rw [a2, a3]
  · rw [← hD]; unfold rgbToRgbMatrix; rw [a2, a3, b1, b3]

end CS

import Verif.Model.Lab
import Verif.Lemmas.ColorOps
import Verif.Lemmas.FPOrder
import Verif.Lemmas.Quant
import Verif.Num.KRefl
import Verif.Props.Transfer
import Mathlib.Analysis.InnerProductSpace.PiL2

/-!
# L*a*b*, colour differences and daylight temperatures (C31 - C36)
-/

namespace CS

/-! ## C31 -/

/-- the companding, with exact constants -/
theorem labF_eq (r : ℝ) : labF r =
    if 216 / 24389 < r then r ^ ((1:ℝ) / 3) else (24389 / 27 * r + 16) / 116 := by
  simp only [labF, Flt.gt, flt_lit, flt_lt, flt_powf, decide_eq_true_eq]
  norm_num only [Rat.cast_ofNat, Rat.cast_div]

/-- the inverse companding, on the threshold for the cube -/
noncomputable def labG (f : ℝ) : ℝ :=
  if 216 / 24389 < f ^ 3 then f ^ 3 else (116 * f - 16) / (24389 / 27)

theorem cube_le_iff (f : ℝ) : f ^ 3 ≤ 216 / 24389 ↔ f ≤ 6 / 29 := by
  rw [show (216 / 24389 : ℝ) = (6 / 29) ^ 3 by norm_num]
  exact Odd.pow_le_pow (by decide)

theorem labG_labF (r : ℝ) : labG (labF r) = r := by
  rw [labF_eq]
  by_cases h : 216 / 24389 < r
  · have hr : (0:ℝ) ≤ r := by linarith [show (0:ℝ) < 216 / 24389 by norm_num]
    have hc : (r ^ ((1:ℝ) / 3)) ^ 3 = r := by
      rw [← Real.rpow_natCast, ← Real.rpow_mul hr]; norm_num
    rw [if_pos h, labG, hc, if_pos h]
  · rw [if_neg h, labG, if_neg]
    · field_simp; ring
    · rw [not_lt, cube_le_iff]
      push Not at h
      linarith

theorem labF_labG (f : ℝ) : labF (labG f) = f := by
  unfold labG
  by_cases h : 216 / 24389 < f ^ 3
  · have h6 : ¬ f ≤ 6 / 29 := by rw [← cube_le_iff]; exact not_le.2 h
    have hf : (0:ℝ) ≤ f := by linarith [not_le.1 h6]
    rw [if_pos h, labF_eq, if_pos h, ← Real.rpow_natCast, ← Real.rpow_mul hf]; norm_num
  · have h6 : f ≤ 6 / 29 := by rw [← cube_le_iff]; exact not_lt.1 h
    rw [if_neg h, labF_eq, if_neg]
    · field_simp; ring
    · rw [not_lt, div_le_iff₀ (by norm_num)]; linarith

theorem labToXyz_eq (l : Lab ℝ) (w : XYZ ℝ) : labToXyz l w =
    ⟨labG (l.a / 500 + (l.L + 16) / 116) * w.x, labG ((l.L + 16) / 116) * w.y,
     labG ((l.L + 16) / 116 - l.b / 200) * w.z⟩ := by
  have hy : (if (8:ℝ) < l.L then ((l.L + 16) / 116) ^ 3 else l.L / (24389 / 27))
      = labG ((l.L + 16) / 116) := by
    unfold labG
    have hiff : (216 / 24389 : ℝ) < ((l.L + 16) / 116) ^ 3 ↔ 8 < l.L := by
      rw [← not_le, cube_le_iff, div_le_iff₀ (by norm_num), not_le]
      constructor <;> intro h <;> linarith
    by_cases h : 8 < l.L
    · rw [if_pos h, if_pos (hiff.2 h)]
    · rw [if_neg h, if_neg (fun hc => h (hiff.1 hc))]; congr 1; ring
  have hk : ((24389.0:ℚ):ℝ) / ((27.0:ℚ):ℝ) * (((216.0:ℚ):ℝ) / ((24389.0:ℚ):ℝ)) = 8 := by norm_num
  ext
  · simp only [labToXyz, Flt.gt, flt_lit, flt_lt, flt_powi, decide_eq_true_eq, XYZ.mul_x, labG]
    norm_num only [Rat.cast_ofNat, Rat.cast_div]
  · rw [← hy]
    simp only [labToXyz, Flt.gt, flt_lit, flt_lt, flt_powi, decide_eq_true_eq, XYZ.mul_y, hk]
    norm_num only [Rat.cast_ofNat, Rat.cast_div]
  · simp only [labToXyz, Flt.gt, flt_lit, flt_lt, flt_powi, decide_eq_true_eq, XYZ.mul_z, labG]
    norm_num only [Rat.cast_ofNat, Rat.cast_div]

theorem xyzToLab_eq (v w : XYZ ℝ) : xyzToLab v w =
    ⟨116 * labF (v.y / w.y) - 16, 500 * (labF (v.x / w.x) - labF (v.y / w.y)),
     200 * (labF (v.y / w.y) - labF (v.z / w.z))⟩ := by
  simp only [xyzToLab, flt_lit, XYZ.div_x, XYZ.div_y, XYZ.div_z]
  norm_num

/-- C31 [R]: XYZ -> Lab -> XYZ is the identity for every colour and every white without a zero
component. -/
theorem C31_xyz_lab_xyz (v w : XYZ ℝ) (hx : w.x ≠ 0) (hy : w.y ≠ 0) (hz : w.z ≠ 0) :
    labToXyz (xyzToLab v w) w = v := by
  rw [labToXyz_eq, xyzToLab_eq]
  have ey : (116 * labF (v.y / w.y) - 16 + 16) / 116 = labF (v.y / w.y) := by ring
  have ex : 500 * (labF (v.x / w.x) - labF (v.y / w.y)) / 500 + labF (v.y / w.y)
      = labF (v.x / w.x) := by ring
  have ez : labF (v.y / w.y) - 200 * (labF (v.y / w.y) - labF (v.z / w.z)) / 200
      = labF (v.z / w.z) := by ring
  simp only [ey, ex, ez, labG_labF, div_mul_cancel₀ _ hx, div_mul_cancel₀ _ hy,
    div_mul_cancel₀ _ hz]

/-- C31 [R]: Lab -> XYZ -> Lab is the identity likewise. -/
theorem C31_lab_xyz_lab (l : Lab ℝ) (w : XYZ ℝ) (hx : w.x ≠ 0) (hy : w.y ≠ 0) (hz : w.z ≠ 0) :
    xyzToLab (labToXyz l w) w = l := by
  rw [xyzToLab_eq, labToXyz_eq]
  simp only [mul_div_cancel_right₀ _ hx, mul_div_cancel_right₀ _ hy, mul_div_cancel_right₀ _ hz,
    labF_labG]
  ext <;> simp only <;> ring

/-- Not vacuous: D50 (as XYZ) has no zero component. -/
example : (96.42:ℝ) ≠ 0 ∧ (100:ℝ) ≠ 0 ∧ (82.49:ℝ) ≠ 0 := by norm_num

/-! ## C32 -/

/-- C32 [R]: white is (100, 0, 0), black is (0, 0, 0), multiples of white are neutral. -/
theorem C32_anchors (w : XYZ ℝ) (hx : w.x ≠ 0) (hy : w.y ≠ 0) (hz : w.z ≠ 0) :
    xyzToLab w w = ⟨100, 0, 0⟩ ∧ xyzToLab ⟨0, 0, 0⟩ w = ⟨0, 0, 0⟩ ∧
    ∀ k : ℝ, (xyzToLab ⟨k * w.x, k * w.y, k * w.z⟩ w).a = 0 ∧
      (xyzToLab ⟨k * w.x, k * w.y, k * w.z⟩ w).b = 0 := by
  refine ⟨?_, ?_, fun k => ?_⟩
  · rw [xyzToLab_eq, div_self hx, div_self hy, div_self hz, labF_eq]; norm_num
  · rw [xyzToLab_eq]; simp only [zero_div, labF_eq]; norm_num
  · rw [xyzToLab_eq]
    simp only [mul_div_cancel_right₀ _ hx, mul_div_cancel_right₀ _ hy, mul_div_cancel_right₀ _ hz]
    norm_num

theorem labF_strictMono : StrictMono (labF : ℝ → ℝ) := by
  have e : (labF : ℝ → ℝ) = fun r => if r ≤ 216 / 24389 then (24389 / 27 * r + 16) / 116
      else r ^ ((1:ℝ) / 3) := by
    funext r
    rw [labF_eq]
    by_cases h : r ≤ 216 / 24389
    · rw [if_pos h, if_neg (not_lt.2 h)]
    · rw [if_neg h, if_pos (not_le.1 h)]
  rw [e]
  refine strictMono_le_pieces (fun x y h _ => by gcongr) (fun x y hx h => ?_) ?_
  · exact Real.rpow_lt_rpow (le_trans (by norm_num) hx) h (by norm_num)
  · rw [show (216 / 24389 : ℝ) = (6 / 29) ^ 3 by norm_num, ← Real.rpow_natCast,
      ← Real.rpow_mul (by norm_num)]
    norm_num

/-- C32 [R]: lightness depends only on Y and is strictly increasing in it. -/
theorem C32_lightness (u v w : XYZ ℝ) (hw : 0 < w.y) :
    (u.y = v.y → (xyzToLab u w).L = (xyzToLab v w).L) ∧
    (u.y < v.y → (xyzToLab u w).L < (xyzToLab v w).L) := by
  rw [xyzToLab_eq, xyzToLab_eq]
  refine ⟨fun h => by simp only [h], fun h => ?_⟩
  have := labF_strictMono (div_lt_div_of_pos_right h hw)
  simp only
  linarith

/-! ## C33 -/

/-- a Lab colour as a point of Euclidean 3-space -/
noncomputable def labPoint (c : Lab ℝ) : EuclideanSpace ℝ (Fin 3) := !₂[c.L, c.a, c.b]

theorem deltaE1976_dist (c d : Lab ℝ) : deltaE1976 c d = dist (labPoint c) (labPoint d) := by
  rw [EuclideanSpace.dist_eq]
  simp only [deltaE1976, flt_sqrt, flt_powi, labPoint, Fin.sum_univ_three, Real.dist_eq, sq_abs]
  rfl

/-- C33 [R]: `delta_E_1976` is a metric. -/
theorem C33_metric (c d e : Lab ℝ) :
    0 ≤ deltaE1976 c d ∧ deltaE1976 c d = deltaE1976 d c ∧ (deltaE1976 c d = 0 ↔ c = d) ∧
    deltaE1976 c e ≤ deltaE1976 c d + deltaE1976 d e := by
  simp only [deltaE1976_dist]
  refine ⟨dist_nonneg, dist_comm _ _, ?_, dist_triangle _ _ _⟩
  rw [dist_eq_zero]
  constructor
  · intro h
    have h0 := congrFun (congrArg (WithLp.ofLp) h) 0
    have h1 := congrFun (congrArg (WithLp.ofLp) h) 1
    have h2 := congrFun (congrArg (WithLp.ofLp) h) 2
    exact Lab.ext h0 h1 h2
  · rintro rfl; rfl

/-- C33 [R]: and it is the Euclidean distance, e.g. 5 for a (3,4) step. -/
example : deltaE1976 (⟨50, 3, 0⟩ : Lab ℝ) ⟨50, 0, 4⟩ = 5 := by
  simp only [deltaE1976, flt_sqrt, flt_powi]
  rw [show ((50:ℝ) - 50) ^ 2 + (3 - 0) ^ 2 + (0 - 4) ^ 2 = 5 ^ 2 by norm_num]
  exact Real.sqrt_sq (by norm_num)

/-! ## C34, C35 -/

theorem deltaHue_swap (p q h k : ℝ) : deltaHue q p k h = - deltaHue p q h k := by
  simp only [deltaHue, Flt.gt, flt_lit, flt_lt, flt_le, flt_eqb, flt_abs, decide_eq_true_eq]
  norm_num only [Rat.cast_ofNat, Rat.cast_zero]
  rw [mul_comm q p, abs_sub_comm h k]
  by_cases h1 : p * q = 0
  · simp [h1]
  · rw [if_neg h1, if_neg h1]
    by_cases h2 : |k - h| ≤ 180
    · rw [if_pos h2, if_pos h2]; ring
    · rw [if_neg h2, if_neg h2]
      by_cases h3 : 180 < h - k
      · rw [if_pos h3, if_neg (by linarith)]; ring
      · rw [if_neg h3, if_pos ?_]
        · ring
        · by_contra h4
          exact h2 (abs_le.2 ⟨by linarith, by linarith⟩)

theorem meanHue_swap (p q h k : ℝ) : meanHue q p k h = meanHue p q h k := by
  unfold meanHue
  simp only [flt_lit, flt_lt, flt_le, flt_eqb, flt_abs]
  rw [mul_comm q p, abs_sub_comm k h, add_comm k h]

theorem ciede_swap (c d : Lab ℝ) :
    (ciede d c).dL = -(ciede c d).dL ∧ (ciede d c).dC = -(ciede c d).dC ∧
    (ciede d c).dH = -(ciede c d).dH ∧ (ciede d c).Lbar = (ciede c d).Lbar ∧
    (ciede d c).cbar = (ciede c d).cbar ∧ (ciede d c).hbar = (ciede c d).hbar := by
  have hG : (Flt.hypot d.a d.b + Flt.hypot c.a c.b : ℝ) = Flt.hypot c.a c.b + Flt.hypot d.a d.b :=
    add_comm _ _
  unfold ciede
  simp only [hG]
  generalize ciedeG ((Flt.hypot c.a c.b + Flt.hypot d.a d.b : ℝ) / Flt.lit 2.0) = G
  refine ⟨by ring, by ring, ?_, ?_, ?_, ?_⟩
  · rw [deltaHue_swap, mul_comm (Flt.hypot _ d.b) (Flt.hypot _ c.b)]
    have : ∀ x : ℝ, Flt.sin (Flt.toRad (-x / Flt.lit 2.0 : ℝ)) = -Flt.sin (Flt.toRad (x / Flt.lit 2.0)) := by
      intro x
      show Real.sin _ = -Real.sin _
      rw [← Real.sin_neg]
      congr 1
      show (-x / _) * _ = -(x / _ * _)
      ring
    rw [this]; ring
  · rw [add_comm]
  · rw [add_comm]
  · exact meanHue_swap _ _ _ _

/-- C34 [R]: `delta_E_2000` is symmetric. -/
theorem C34_symmetric (c d : Lab ℝ) : deltaE2000 c d = deltaE2000 d c := by
  obtain ⟨h1, h2, h3, h4, h5, h6⟩ := ciede_swap c d
  unfold deltaE2000 ciedeRadicand
  rw [h1, h2, h3, h4, h5, h6]
  congr 1
  simp only [sqr, neg_div]
  ring

theorem hypot_nonneg (x y : ℝ) : 0 ≤ (Flt.hypot x y : ℝ) := Real.sqrt_nonneg _

theorem hypot_eq_zero {x y : ℝ} : (Flt.hypot x y : ℝ) = 0 ↔ x = 0 ∧ y = 0 := by
  rw [flt_hypot, Real.sqrt_eq_zero (by positivity)]
  constructor
  · intro h
    constructor <;> nlinarith [sq_nonneg x, sq_nonneg y]
  · rintro ⟨rfl, rfl⟩; norm_num

theorem hypot_abs (x y : ℝ) : (Flt.hypot x y : ℝ) = ‖(⟨x, y⟩ : ℂ)‖ := by
  rw [flt_hypot, Complex.norm_def, Complex.normSq_mk]; congr 1; ring

theorem ciedeT_pos (h : ℝ) : 0.07 ≤ ciedeT h := by
  simp only [ciedeT, flt_lit, flt_cos]
  norm_num only [Rat.cast_ofNat, Rat.cast_div, Rat.cast_one]
  linarith [Real.cos_le_one (Flt.toRad (h - 30)), Real.neg_one_le_cos (Flt.toRad (2 * h)),
    Real.neg_one_le_cos (Flt.toRad (3 * h + 6)), Real.cos_le_one (Flt.toRad (4 * h - 63))]

theorem ciedeSL_pos (l : ℝ) : 0 < ciedeSL l := by
  simp only [ciedeSL, flt_lit, flt_powi, flt_sqrt]
  have h1 := sq_nonneg (l - ((50.0:ℚ):ℝ))
  have h2 : (0:ℝ) ≤ ((0.015:ℚ):ℝ) * (l - ((50.0:ℚ):ℝ)) ^ 2 /
      Real.sqrt (((20.0:ℚ):ℝ) + (l - ((50.0:ℚ):ℝ)) ^ 2) := by
    apply div_nonneg (mul_nonneg (by norm_num) h1) (Real.sqrt_nonneg _)
  have h3 : ((1.0:ℚ):ℝ) = 1 := by norm_num
  linarith

theorem ciedeSC_pos {c : ℝ} (hc : 0 ≤ c) : 0 < ciedeSC c := by
  simp only [ciedeSC, flt_lit]
  norm_num only [Rat.cast_ofNat, Rat.cast_div, Rat.cast_one]
  positivity

theorem ciedeSH_pos {c : ℝ} (hc : 0 ≤ c) (h : ℝ) : 0 < ciedeSH c h := by
  have := ciedeT_pos h
  simp only [ciedeSH, flt_lit]
  norm_num only [Rat.cast_ofNat, Rat.cast_div, Rat.cast_one]
  have : 0 ≤ ciedeT h := by linarith
  positivity

theorem ciedeRT_abs {c : ℝ} (hc : 0 ≤ c) (h : ℝ) : |ciedeRT c h| < 2 := by
  simp only [ciedeRT, flt_lit, flt_powi, flt_sqrt, flt_sin]
  rw [abs_mul, abs_neg]
  have h1 : |Real.sin (Flt.toRad (((2.0:ℚ):ℝ) * (((30.0:ℚ):ℝ) *
      Flt.exp (-sqr ((h - ((275.0:ℚ):ℝ)) / ((25.0:ℚ):ℝ))))))| ≤ 1 := Real.abs_sin_le_one _
  have h25 : (0:ℝ) < ((25.0:ℚ):ℝ) ^ 7 := by norm_num
  have h7 : 0 ≤ c ^ 7 := by positivity
  have h2 : Real.sqrt (c ^ 7 / (c ^ 7 + ((25.0:ℚ):ℝ) ^ 7)) < 1 := by
    rw [Real.sqrt_lt' one_pos, div_lt_iff₀ (by linarith)]
    linarith
  have h3 := Real.sqrt_nonneg (c ^ 7 / (c ^ 7 + ((25.0:ℚ):ℝ) ^ 7))
  have h4 : |((2.0:ℚ):ℝ) * Real.sqrt (c ^ 7 / (c ^ 7 + ((25.0:ℚ):ℝ) ^ 7))| < 2 := by
    rw [abs_of_nonneg (mul_nonneg (by norm_num) h3)]
    have : ((2.0:ℚ):ℝ) = 2 := by norm_num
    rw [this]; linarith
  calc _ ≤ 1 * |((2.0:ℚ):ℝ) * Real.sqrt (c ^ 7 / (c ^ 7 + ((25.0:ℚ):ℝ) ^ 7))| :=
        mul_le_mul_of_nonneg_right h1 (abs_nonneg _)
    _ < 2 := by rw [one_mul]; exact h4

theorem cbar_nonneg (c d : Lab ℝ) : 0 ≤ (ciede c d).cbar := by
  unfold ciede
  simp only [flt_lit]
  exact div_nonneg (add_nonneg (hypot_nonneg _ _) (hypot_nonneg _ _)) (by norm_num)

theorem radicand_form (q : Ciede ℝ) : ciedeRadicand q =
    (q.dL / ciedeSL q.Lbar) ^ 2 + (q.dC / ciedeSC q.cbar) ^ 2 + (q.dH / ciedeSH q.cbar q.hbar) ^ 2
      + ciedeRT q.cbar q.hbar * ((q.dC / ciedeSC q.cbar) * (q.dH / ciedeSH q.cbar q.hbar)) := by
  simp only [ciedeRadicand, flt_lit, sqr]
  norm_num
  ring

/-- a positive definite quadratic form -/
theorem form_nonneg (x y r : ℝ) (hr : |r| < 2) :
    0 ≤ x ^ 2 + y ^ 2 + r * (x * y) ∧ (x ^ 2 + y ^ 2 + r * (x * y) = 0 → x = 0 ∧ y = 0) := by
  have h4 : r ^ 2 < 4 := by
    have := abs_lt.1 hr
    nlinarith
  have key : x ^ 2 + y ^ 2 + r * (x * y) = (x + r * y / 2) ^ 2 + (1 - r ^ 2 / 4) * y ^ 2 := by ring
  have hp : 0 < 1 - r ^ 2 / 4 := by linarith
  rw [key]
  refine ⟨by positivity, fun h => ?_⟩
  have h1 : (1 - r ^ 2 / 4) * y ^ 2 = 0 := by
    have a1 := sq_nonneg (x + r * y / 2)
    have a2 : 0 ≤ (1 - r ^ 2 / 4) * y ^ 2 := by positivity
    linarith
  have hy : y = 0 := by
    rcases mul_eq_zero.1 h1 with h | h
    · linarith
    · exact pow_eq_zero_iff (by norm_num) |>.1 h
  subst hy
  simp at h
  exact ⟨h, rfl⟩

/-- C35 [R]: every denominator of the formula is positive and the radicand is non-negative, so the
square root and the quotients are all taken where they are defined; hence the result is a
non-negative real. -/
theorem C35_well_defined (c d : Lab ℝ) :
    0 < ciedeSL (ciede c d).Lbar ∧ 0 < ciedeSC (ciede c d).cbar ∧
    0 < ciedeSH (ciede c d).cbar (ciede c d).hbar ∧
    (∀ m : ℝ, 0 < 20 + (m - 50) ^ 2) ∧
    0 < (ciede c d).cbar ^ 7 + 25 ^ 7 ∧
    0 < ((Real.sqrt (c.a ^ 2 + c.b ^ 2) + Real.sqrt (d.a ^ 2 + d.b ^ 2)) / 2) ^ 7 + 25 ^ 7 ∧
    0 ≤ ciedeRadicand (ciede c d) ∧ 0 ≤ deltaE2000 c d := by
  have hc := cbar_nonneg c d
  refine ⟨ciedeSL_pos _, ciedeSC_pos hc, ciedeSH_pos hc _, fun m => by positivity, by positivity,
    by positivity, ?_, Real.sqrt_nonneg _⟩
  rw [radicand_form]
  have := (form_nonneg ((ciede c d).dC / ciedeSC (ciede c d).cbar)
    ((ciede c d).dH / ciedeSH (ciede c d).cbar (ciede c d).hbar) _
    (ciedeRT_abs hc (ciede c d).hbar)).1
  have h2 := sq_nonneg ((ciede c d).dL / ciedeSL (ciede c d).Lbar)
  linarith

theorem hueDeg_spec (b a : ℝ) : ∃ k : ℝ, (k = 0 ∨ k = 360) ∧
    hueDeg b a = Complex.arg ⟨a, b⟩ * (180 / Real.pi) + k ∧
    (k = 0 → 0 ≤ hueDeg b a ∧ hueDeg b a ≤ 180) ∧ (k = 360 → 180 < hueDeg b a ∧ hueDeg b a < 360) := by
  have hpi := Real.pi_pos
  have h1 := Complex.neg_pi_lt_arg ⟨a, b⟩
  have h2 := Complex.arg_le_pi ⟨a, b⟩
  have e : ∀ z : ℝ, Flt.toDeg z = z * (180 / Real.pi) := fun _ => rfl
  simp only [hueDeg, flt_lit, flt_lt, decide_eq_true_eq, flt_atan2, e]
  set t := Complex.arg ⟨a, b⟩
  have hc : (0:ℝ) < 180 / Real.pi := by positivity
  have b1 : -180 < t * (180 / Real.pi) := by
    have := mul_lt_mul_of_pos_right h1 hc
    have e : -Real.pi * (180 / Real.pi) = -180 := by field_simp
    linarith
  have b2 : t * (180 / Real.pi) ≤ 180 := by
    have := mul_le_mul_of_nonneg_right h2 hc.le
    have e : Real.pi * (180 / Real.pi) = 180 := by field_simp
    linarith
  norm_num only [Rat.cast_ofNat, Rat.cast_zero]
  by_cases h : t * (180 / Real.pi) < 0
  · exact ⟨360, Or.inr rfl, by rw [if_pos h], fun hk => by norm_num at hk,
      fun _ => by rw [if_pos h]; constructor <;> linarith⟩
  · push Not at h
    exact ⟨0, Or.inl rfl, by rw [if_neg (not_lt.2 h), add_zero],
      fun _ => by rw [if_neg (not_lt.2 h)]; exact ⟨h, b2⟩, fun hk => by norm_num at hk⟩

theorem hueDeg_range (b a : ℝ) : 0 ≤ hueDeg b a ∧ hueDeg b a < 360 := by
  obtain ⟨k, hk, -, h0, h1⟩ := hueDeg_spec b a
  rcases hk with rfl | rfl
  · have := h0 rfl; constructor <;> linarith
  · have := h1 rfl; constructor <;> linarith

theorem hueDeg_inj {b a b' a' : ℝ} (h : hueDeg b a = hueDeg b' a') :
    Complex.arg ⟨a, b⟩ = Complex.arg ⟨a', b'⟩ := by
  obtain ⟨k, hk, e, h0, h1⟩ := hueDeg_spec b a
  obtain ⟨k', hk', e', h0', h1'⟩ := hueDeg_spec b' a'
  have hpi := Real.pi_pos
  have hkk : k = k' := by
    rcases hk with rfl | rfl <;> rcases hk' with rfl | rfl
    · rfl
    · have := h0 rfl; have := h1' rfl; linarith
    · have := h1 rfl; have := h0' rfl; linarith
    · rfl
  subst hkk
  rw [e, e'] at h
  have hc : (180 / Real.pi) ≠ 0 := by positivity
  exact mul_right_cancel₀ hc (add_right_cancel h)

/-- the hue difference is in [-180, 180] and is zero only for equal hues or vanishing chroma -/
theorem deltaHue_spec {p q h k : ℝ} (hh : 0 ≤ h ∧ h < 360) (hk : 0 ≤ k ∧ k < 360)
    (hpq : p * q ≠ 0) : |deltaHue p q h k| ≤ 180 ∧ (deltaHue p q h k = 0 → h = k) := by
  simp only [deltaHue, Flt.gt, flt_lit, flt_lt, flt_le, flt_eqb, flt_abs, decide_eq_true_eq]
  norm_num only [Rat.cast_ofNat, Rat.cast_zero]
  rw [if_neg hpq]
  by_cases h2 : |k - h| ≤ 180
  · rw [if_pos h2]; exact ⟨h2, fun h => by linarith⟩
  · rw [if_neg h2]
    by_cases h3 : 180 < k - h
    · rw [if_pos h3]
      exact ⟨abs_le.2 ⟨by linarith, by linarith⟩, fun h => by linarith⟩
    · rw [if_neg h3]
      have h4 : k - h < -180 := by
        by_contra h4
        exact h2 (abs_le.2 ⟨by linarith, by linarith⟩)
      exact ⟨abs_le.2 ⟨by linarith, by linarith⟩, fun h => by linarith⟩

/-- C35 [R]: the difference is zero exactly for equal colours. -/
theorem C35_zero_iff (c d : Lab ℝ) : deltaE2000 c d = 0 ↔ c = d := by
  have hrad := (C35_well_defined c d).2.2.2.2.2.2.1
  have hc := cbar_nonneg c d
  have hz : deltaE2000 c d = 0 ↔ ciedeRadicand (ciede c d) = 0 := Real.sqrt_eq_zero hrad
  rw [hz]
  constructor
  · intro h
    rw [radicand_form] at h
    have hf := form_nonneg ((ciede c d).dC / ciedeSC (ciede c d).cbar)
      ((ciede c d).dH / ciedeSH (ciede c d).cbar (ciede c d).hbar) _
      (ciedeRT_abs hc (ciede c d).hbar)
    have hL0 : ((ciede c d).dL / ciedeSL (ciede c d).Lbar) ^ 2 = 0 := by
      have := sq_nonneg ((ciede c d).dL / ciedeSL (ciede c d).Lbar)
      linarith [hf.1]
    obtain ⟨hC0, hH0⟩ := hf.2 (by linarith)
    have hL : (ciede c d).dL = 0 := by
      have := pow_eq_zero_iff (by norm_num) |>.1 hL0
      exact (div_eq_zero_iff.1 this).resolve_right (ciedeSL_pos _).ne'
    have hC : (ciede c d).dC = 0 :=
      (div_eq_zero_iff.1 hC0).resolve_right (ciedeSC_pos hc).ne'
    have hH : (ciede c d).dH = 0 :=
      (div_eq_zero_iff.1 hH0).resolve_right (ciedeSH_pos hc _).ne'
    unfold ciede at hL hC hH
    simp only at hL hC hH
    set m := ((Flt.hypot c.a c.b + Flt.hypot d.a d.b : ℝ) / Flt.lit 2.0) with hm
    have hm0 : 0 ≤ m := div_nonneg (add_nonneg (hypot_nonneg _ _) (hypot_nonneg _ _))
      (by rw [flt_lit]; norm_num)
    have hG : 0 < Flt.lit 1.0 + ciedeG m := by
      simp only [ciedeG, flt_lit, flt_powi, flt_sqrt]
      have h25 : (0:ℝ) < ((25.0:ℚ):ℝ) ^ 7 := by norm_num
      have h7 : 0 ≤ m ^ 7 := by positivity
      have h2 : Real.sqrt (m ^ 7 / (m ^ 7 + ((25.0:ℚ):ℝ) ^ 7)) ≤ 1 := by
        rw [Real.sqrt_le_one, div_le_one (by linarith)]; linarith
      norm_num only [Rat.cast_ofNat, Rat.cast_div, Rat.cast_one] at h2 ⊢
      linarith
    set g := Flt.lit 1.0 + ciedeG m with hg
    have hcp : (Flt.hypot (g * d.a) d.b : ℝ) = Flt.hypot (g * c.a) c.b := by linarith
    have hab : c.a = d.a ∧ c.b = d.b := by
      by_cases h0 : (Flt.hypot (g * c.a) c.b : ℝ) = 0
      · rw [h0] at hcp
        obtain ⟨h1, h2⟩ := hypot_eq_zero.1 h0
        obtain ⟨h3, h4⟩ := hypot_eq_zero.1 hcp
        have h1 := (mul_eq_zero.1 h1).resolve_left hG.ne'
        have h3 := (mul_eq_zero.1 h3).resolve_left hG.ne'
        rw [h1, h2, h3, h4]; exact ⟨rfl, rfl⟩
      · have hpq : (Flt.hypot (g * c.a) c.b : ℝ) * Flt.hypot (g * d.a) d.b ≠ 0 := by
          rw [hcp]; exact mul_ne_zero h0 h0
        have hs := deltaHue_spec (hueDeg_range c.b (g * c.a)) (hueDeg_range d.b (g * d.a)) hpq
        set dh := deltaHue (Flt.hypot (g * c.a) c.b : ℝ) (Flt.hypot (g * d.a) d.b)
          (hueDeg c.b (g * c.a)) (hueDeg d.b (g * d.a)) with hdh
        have hsin : Real.sin (dh / 2 * (Real.pi / 180)) = 0 := by
          have e2 : (Flt.lit 2.0 : ℝ) = 2 := by rw [flt_lit]; norm_num
          rw [e2] at hH
          have hsq : (2:ℝ) * Flt.sqrt (Flt.hypot (g * c.a) c.b * Flt.hypot (g * d.a) d.b) ≠ 0 := by
            rw [hcp, flt_sqrt, Real.sqrt_mul_self (hypot_nonneg _ _)]
            exact mul_ne_zero two_ne_zero h0
          exact (mul_eq_zero.1 hH).resolve_left hsq
        have hpi := Real.pi_pos
        have hb := abs_le.1 hs.1
        have h0' : dh / 2 * (Real.pi / 180) = 0 := by
          refine (Real.sin_eq_zero_iff_of_lt_of_lt ?_ ?_).1 hsin
          · have : -(90:ℝ) * (Real.pi / 180) ≤ dh / 2 * (Real.pi / 180) :=
              mul_le_mul_of_nonneg_right (by linarith) (by positivity)
            linarith
          · have : dh / 2 * (Real.pi / 180) ≤ (90:ℝ) * (Real.pi / 180) :=
              mul_le_mul_of_nonneg_right (by linarith) (by positivity)
            linarith
        have hd0 : dh = 0 := by
          have := (mul_eq_zero.1 h0').resolve_right (by positivity)
          linarith
        have harg := hueDeg_inj (hs.2 hd0)
        have hz : (⟨g * c.a, c.b⟩ : ℂ) = ⟨g * d.a, d.b⟩ := by
          apply Complex.ext_norm_arg
          · rw [← hypot_abs, ← hypot_abs, hcp]
          · exact harg
        have h1 := congrArg Complex.re hz
        have h2 := congrArg Complex.im hz
        exact ⟨mul_left_cancel₀ hG.ne' h1, h2⟩
    exact Lab.ext (by linarith) hab.1 hab.2
  · rintro rfl
    obtain ⟨h1, h2, h3, -⟩ := ciede_swap c c
    have h1 : (ciede c c).dL = 0 := by linarith
    have h2 : (ciede c c).dC = 0 := by linarith
    have h3 : (ciede c c).dH = 0 := by linarith
    rw [radicand_form, h1, h2, h3]; simp

/-! ## C36 -/

/-- C36 [R]: `cct` fails exactly outside [4000, 25000]; otherwise it returns a point of the
daylight locus inside the chromaticity triangle, with Y = 1. -/
theorem C36_range (t : ℝ) :
    (cct t = none ↔ t < 4000 ∨ 25000 < t) ∧
    ∀ p, cct t = some p → p.Y = 1 ∧ p.y = -3 * p.x ^ 2 + 2.87 * p.x - 0.275 ∧
      0 < p.x ∧ 0 < p.y ∧ p.x + p.y < 1 := by
  have locus : ∀ x : ℝ, 0.23 ≤ x → x ≤ 0.5 →
      0 < x ∧ 0 < -3 * x * x + 2.87 * x - 0.275 ∧ x + (-3 * x * x + 2.87 * x - 0.275) < 1 := by
    intro x h1 h2
    refine ⟨by linarith, by nlinarith, by nlinarith [sq_nonneg (x - 0.645)]⟩
  have bound : ∀ (a b c d t0 : ℝ), 0 ≤ a → 0 ≤ b → 0 ≤ c → 0.23 ≤ d → 0 < t0 → a ≤ b * t0 →
      b / t0 ^ 2 + c / t0 + d ≤ 0.5 → t0 ≤ t →
      0.23 ≤ -a / (t * t * t) + b / (t * t) + c / t + d ∧
      -a / (t * t * t) + b / (t * t) + c / t + d ≤ 0.5 := by
    intro a b c d t0 ha hb hc hd ht0 hab hs ht
    have htp : 0 < t := lt_of_lt_of_le ht0 ht
    have e : -a / (t * t * t) + b / (t * t) = (b * t - a) / (t * t * t) := by
      field_simp; ring
    have h1 : 0 ≤ (b * t - a) / (t * t * t) := by
      apply div_nonneg _ (by positivity)
      nlinarith
    have h2 : 0 ≤ c / t := by positivity
    have h3 : 0 ≤ a / (t * t * t) := by positivity
    have h4 : b / (t * t) ≤ b / t0 ^ 2 := by
      rw [← sq]; gcongr
    have h5 : c / t ≤ c / t0 := by gcongr
    constructor
    · rw [e]; linarith
    · rw [neg_div]; linarith
  have e0 : ((0.244063:ℚ):ℝ) = 0.244063 := by norm_num
  simp only [cct, Flt.gt, flt_lit, flt_lt, flt_le, Bool.or_eq_true, decide_eq_true_eq]
  norm_num only [Rat.cast_ofNat, Rat.cast_div, Rat.cast_one]
  by_cases h : t < 4000 ∨ 25000 < t
  · simp [h]
  · rw [if_neg h]
    push Not at h
    by_cases h7 : t ≤ 7000
    · rw [if_pos h7]
      obtain ⟨b1, b2⟩ := bound 4607000000 2967800 (9911/100) (244063/1000000) 4000
        (by norm_num) (by norm_num) (by norm_num) (by norm_num) (by norm_num) (by norm_num)
        (by norm_num) h.1
      refine ⟨by simp; constructor <;> linarith, fun p hp => ?_⟩
      cases hp
      obtain ⟨l1, l2, l3⟩ := locus _ b1 b2
      norm_num only at l1 l2 l3 ⊢
      exact ⟨trivial, by ring, l1, l2, l3⟩
    · rw [if_neg h7]
      push Not at h7
      obtain ⟨b1, b2⟩ := bound 2006400000 1901800 (6187/25) (5926/25000) 7000
        (by norm_num) (by norm_num) (by norm_num) (by norm_num) (by norm_num) (by norm_num)
        (by norm_num) h7.le
      refine ⟨by simp; constructor <;> linarith, fun p hp => ?_⟩
      cases hp
      obtain ⟨l1, l2, l3⟩ := locus _ b1 b2
      norm_num only at l1 l2 l3 ⊢
      exact ⟨trivial, by ring, l1, l2, l3⟩

/-- Not vacuous: 6504 K is accepted. -/
example : ∃ p, cct (6504 : ℝ) = some p := by
  cases h : cct (6504 : ℝ) with
  | some p => exact ⟨p, rfl⟩
  | none => rcases ((C36_range 6504).1.1 h) with h | h <;> norm_num at h

theorem FP.nan_ops {f : Fmt} (a : FP f) :
    FP.nan * a = FP.nan ∧ a * FP.nan = FP.nan ∧ a / FP.nan = FP.nan ∧ FP.nan + a = FP.nan ∧
    a + FP.nan = FP.nan ∧ FP.nan - a = FP.nan := by
  refine ⟨rfl, by cases a <;> rfl, by cases a <;> rfl, rfl, by cases a <;> rfl, rfl⟩

/-- C36 [F]: in every format with at least 15 bits of precision (binary32, binary64), `cct` fails
exactly for (possibly infinite) temperatures below 4000 or above 25000; NaN is accepted, and then
x and y are NaN. -/
theorem C36_ieee {f : Fmt} [Libm f] (hp : 25000 ≤ 2 ^ f.p) (t : FP f) :
    (cct t = none ↔ ∃ e, t.ext = some e ∧
      (e < (((4000 : ℚ) : WithTop ℚ) : WithBot (WithTop ℚ)) ∨
        (((25000 : ℚ) : WithTop ℚ) : WithBot (WithTop ℚ)) < e)) ∧
    (∃ p, cct (FP.nan : FP f) = some p ∧ p.x = FP.nan ∧ p.y = FP.nan) := by
  have e4 : (FP.lit 4000.0 : FP f).ext
      = some (((4000 : ℚ) : WithTop ℚ) : WithBot (WithTop ℚ)) := by
    have h := FP.lit_nat (f := f) 4000 (by omega) (by norm_num)
    rw [show (4000.0 : ℚ) = ((4000 : ℕ) : ℚ) by norm_num, h]
    rfl
  have e25 : (FP.lit 25000.0 : FP f).ext
      = some (((25000 : ℚ) : WithTop ℚ) : WithBot (WithTop ℚ)) := by
    have h := FP.lit_nat (f := f) 25000 (by omega) (by norm_num)
    rw [show (25000.0 : ℚ) = ((25000 : ℕ) : ℚ) by norm_num, h]
    rfl
  constructor
  · have hcond : (Flt.lt t (Flt.lit 4000.0) || Flt.gt t (Flt.lit 25000.0)) = true ↔
        ∃ e, t.ext = some e ∧ (e < (((4000 : ℚ) : WithTop ℚ) : WithBot (WithTop ℚ)) ∨
          (((25000 : ℚ) : WithTop ℚ) : WithBot (WithTop ℚ)) < e) := by
      rw [Bool.or_eq_true]
      show FP.lt t (FP.lit 4000.0) = true ∨ FP.lt (FP.lit 25000.0) t = true ↔ _
      rw [FP.lt_iff, FP.lt_iff, e4, e25]
      constructor
      · rintro (⟨x, y, h1, h2, h3⟩ | ⟨x, y, h1, h2, h3⟩)
        · cases h2; exact ⟨x, h1, Or.inl h3⟩
        · cases h1; exact ⟨y, h2, Or.inr h3⟩
      · rintro ⟨e, h1, h2 | h2⟩
        · exact Or.inl ⟨e, _, h1, rfl, h2⟩
        · exact Or.inr ⟨_, e, rfl, h1, h2⟩
    rw [← hcond]
    unfold cct
    by_cases hb : (Flt.lt t (Flt.lit 4000.0) || Flt.gt t (Flt.lit 25000.0)) = true
    · simp only [hb, if_true]
    · simp only [hb, Bool.false_eq_true, if_false, iff_false]
      split <;> simp
  · have c0 : (Flt.lt (FP.nan : FP f) (Flt.lit 4000.0) || Flt.gt (FP.nan : FP f) (Flt.lit 25000.0))
        = false := by
      show (false || FP.lt (FP.lit 25000.0) FP.nan) = false
      unfold FP.lt
      rw [e25]; rfl
    have c1 : Flt.le (FP.nan : FP f) (Flt.lit 7000.0) = false := rfl
    unfold cct
    simp only [c0, c1, Bool.false_eq_true, if_false]
    refine ⟨_, rfl, ?_, ?_⟩ <;>
      simp only [(FP.nan_ops _).1, (FP.nan_ops _).2.1, (FP.nan_ops _).2.2.1, (FP.nan_ops _).2.2.2.1,
        (FP.nan_ops _).2.2.2.2.1, (FP.nan_ops _).2.2.2.2.2]

/-- Not vacuous: both formats have the required precision, and an infinite temperature fails. -/
example : 25000 ≤ 2 ^ Fmt.b32.p ∧ 25000 ≤ 2 ^ Fmt.b64.p := by decide
example [Libm Fmt.b64] : cct (FP.pinf : FP Fmt.b64) = none :=
  (C36_ieee (by decide) _).1.2 ⟨_, rfl, Or.inr (WithBot.coe_lt_coe.2 (WithTop.coe_lt_top _))⟩

end CS

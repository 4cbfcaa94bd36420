import Verif.Props.Differences

/-!
# Small changes of XYZ are small colour differences, and conversely (C123)
-/

namespace CS

/-! ### specification -/

/-- each component between black and white -/
def Spec.BelowWhite (v w : XYZ ℝ) : Prop :=
  0 ≤ v.x ∧ v.x ≤ w.x ∧ 0 ≤ v.y ∧ v.y ≤ w.y ∧ 0 ≤ v.z ∧ v.z ≤ w.z

/-- each component of `u` and `v` within a fraction `e` of white's -/
def Spec.NearXyz (u v w : XYZ ℝ) (e : ℝ) : Prop :=
  |u.x - v.x| ≤ e * w.x ∧ |u.y - v.y| ≤ e * w.y ∧ |u.z - v.z| ≤ e * w.z

/-! ### proofs -/

/-- the slope of the inverse companding is at least 108/841, and at most 3 up to white -/
theorem labG_slope {f g : ℝ} (h : f ≤ g) :
    108 / 841 * (g - f) ≤ labG g - labG f ∧ (g ≤ 1 → labG g - labG f ≤ 3 * (g - f)) := by
  have lin : ∀ {t : ℝ}, t ≤ 6 / 29 → labG t = 108 / 841 * (t - 4 / 29) := by
    intro t ht
    unfold labG
    rw [if_neg (not_lt.2 ((cube_le_iff t).2 ht))]
    ring
  have cub : ∀ {t : ℝ}, 6 / 29 < t → labG t = t ^ 3 := by
    intro t ht
    unfold labG
    rw [if_pos (not_le.1 fun k => absurd ((cube_le_iff t).1 k) (not_le.2 ht))]
  rcases le_or_gt g (6 / 29) with hg | hg
  · rw [lin hg, lin (h.trans hg)]
    constructor
    · linarith
    · intro _; nlinarith
  · rw [cub hg]
    rcases le_or_gt f (6 / 29) with hf | hf
    · rw [lin hf]
      have e : g ^ 3 - (6 / 29) ^ 3 = (g - 6 / 29) * (g ^ 2 + g * (6 / 29) + (6 / 29) ^ 2) := by ring
      have d : 0 < g - 6 / 29 := by linarith
      constructor
      · have : 108 / 841 * (g - 6 / 29) ≤ (g - 6 / 29) * (g ^ 2 + g * (6 / 29) + (6 / 29) ^ 2) := by
          rw [mul_comm]
          refine mul_le_mul_of_nonneg_left ?_ d.le
          nlinarith
        norm_num at this e ⊢
        linarith
      · intro g1
        have : (g - 6 / 29) * (g ^ 2 + g * (6 / 29) + (6 / 29) ^ 2) ≤ (g - 6 / 29) * 3 := by
          refine mul_le_mul_of_nonneg_left ?_ d.le
          nlinarith
        norm_num at this e ⊢
        linarith
    · rw [cub hf]
      have e : g ^ 3 - f ^ 3 = (g - f) * (g ^ 2 + g * f + f ^ 2) := by ring
      rw [e]
      have d : 0 ≤ g - f := by linarith
      constructor
      · rw [mul_comm]
        refine mul_le_mul_of_nonneg_left ?_ d
        nlinarith
      · intro g1
        rw [mul_comm 3]
        refine mul_le_mul_of_nonneg_left ?_ d
        nlinarith

theorem labF_lipschitz (r s : ℝ) : |labF r - labF s| ≤ 841 / 108 * |r - s| := by
  have key : ∀ {r s : ℝ}, r ≤ s → |labF r - labF s| ≤ 841 / 108 * |r - s| := by
    intro r s h
    have h1 := labF_strictMono.monotone h
    have h2 := (labG_slope h1).1
    rw [labG_labF, labG_labF] at h2
    rw [abs_of_nonpos (by linarith), abs_of_nonpos (by linarith)]
    linarith
  rcases le_total r s with h | h
  · exact key h
  · rw [abs_sub_comm, abs_sub_comm r]; exact key h

theorem labF_one : labF (1:ℝ) = 1 := by
  rw [labF_eq, if_pos (by norm_num), Real.one_rpow]

theorem labF_zero : labF (0:ℝ) = 4 / 29 := by
  rw [labF_eq, if_neg (by norm_num)]; norm_num

theorem labF_anti (r s : ℝ) (hr : r ≤ 1) (hs : s ≤ 1) : |r - s| ≤ 3 * |labF r - labF s| := by
  have key : ∀ {r s : ℝ}, s ≤ 1 → r ≤ s → |r - s| ≤ 3 * |labF r - labF s| := by
    intro r s hs h
    have h1 := labF_strictMono.monotone h
    have h2 := (labG_slope h1).2 (by rw [← labF_one]; exact labF_strictMono.monotone hs)
    rw [labG_labF, labG_labF] at h2
    rw [abs_of_nonpos (by linarith), abs_of_nonpos (by linarith)]
    linarith
  rcases le_total r s with h | h
  · exact key hs h
  · rw [abs_sub_comm, abs_sub_comm (labF r)]; exact key hr h

theorem frac_abs {p q w e : ℝ} (hw : 0 < w) (h : |p - q| ≤ e * w) : |p / w - q / w| ≤ e := by
  rw [← sub_div, abs_div, abs_of_pos hw, div_le_iff₀ hw]; exact h

/-- C123 [R]: if the components of two colours agree to within a fraction `e` of white's, then `delta_E_1976` of their
L*a*b* coordinates is at most 8436 `e` and `delta_E_2000` at most 17294 `e`. There is no condition on the colours: they may
be black, negative or brighter than white. -/
theorem C123_stable (u v w : XYZ ℝ) (hx : 0 < w.x) (hy : 0 < w.y) (hz : 0 < w.z) {e : ℝ} (h : Spec.NearXyz u v w e) :
    deltaE1976 (xyzToLab u w) (xyzToLab v w) ≤ 8436 * e ∧ deltaE2000 (xyzToLab u w) (xyzToLab v w) ≤ 17294 * e := by
  obtain ⟨h1, h2, h3⟩ := h
  have a1 := (labF_lipschitz (u.x / w.x) (v.x / w.x)).trans (mul_le_mul_of_nonneg_left (frac_abs hx h1) (by norm_num))
  have a2 := (labF_lipschitz (u.y / w.y) (v.y / w.y)).trans (mul_le_mul_of_nonneg_left (frac_abs hy h2) (by norm_num))
  have a3 := (labF_lipschitz (u.z / w.z) (v.z / w.z)).trans (mul_le_mul_of_nonneg_left (frac_abs hz h3) (by norm_num))
  have e0 : 0 ≤ e := (abs_nonneg _).trans (frac_abs hx h1)
  have key : deltaE1976 (xyzToLab u w) (xyzToLab v w) ≤ 8436 * e := by
    refine (le_abs_self _).trans (abs_le_of_sq_le_sq ?_ (by positivity))
    rw [de1976_sq, xyzToLab_eq, xyzToLab_eq]
    generalize labF (u.x / w.x) = ux at *
    generalize labF (v.x / w.x) = vx at *
    generalize labF (u.y / w.y) = uy at *
    generalize labF (v.y / w.y) = vy at *
    generalize labF (u.z / w.z) = uz at *
    generalize labF (v.z / w.z) = vz at *
    dsimp only
    have b1 : (116 * vy - 16 - (116 * uy - 16)) ^ 2 ≤ (116 * (841 / 108 * e)) ^ 2 := by
      rw [sq_le_sq, abs_of_nonneg (by positivity : 0 ≤ 116 * (841 / 108 * e))]
      rw [abs_le] at a2 ⊢
      constructor <;> linarith [a2.1, a2.2]
    have b2 : (500 * (vx - vy) - 500 * (ux - uy)) ^ 2 ≤ (1000 * (841 / 108 * e)) ^ 2 := by
      rw [sq_le_sq, abs_of_nonneg (by positivity : 0 ≤ 1000 * (841 / 108 * e))]
      rw [abs_le] at a1 a2 ⊢
      constructor <;> linarith [a1.1, a1.2, a2.1, a2.2]
    have b3 : (200 * (vy - vz) - 200 * (uy - uz)) ^ 2 ≤ (400 * (841 / 108 * e)) ^ 2 := by
      rw [sq_le_sq, abs_of_nonneg (by positivity : 0 ≤ 400 * (841 / 108 * e))]
      rw [abs_le] at a3 a2 ⊢
      constructor <;> linarith [a3.1, a3.2, a2.1, a2.2]
    nlinarith [sq_nonneg e]
  refine ⟨key, (C122_upper _ _).trans ?_⟩
  norm_num at key ⊢
  linarith

/-- C123 [R]: conversely, if two colours are not brighter than white in any component, then each component agrees to
within 3% of white's per unit of `delta_E_1976`. -/
theorem C123_separate_1976 (u v w : XYZ ℝ) (hx : 0 < w.x) (hy : 0 < w.y) (hz : 0 < w.z)
    (hu : u.x ≤ w.x ∧ u.y ≤ w.y ∧ u.z ≤ w.z) (hv : v.x ≤ w.x ∧ v.y ≤ w.y ∧ v.z ≤ w.z) :
    Spec.NearXyz u v w (0.03 * deltaE1976 (xyzToLab u w) (xyzToLab v w)) := by
  have d1 : ∀ {p q : ℝ}, 0 < q → p ≤ q → p / q ≤ 1 := fun hq h => (div_le_one hq).2 h
  have a1 := labF_anti _ _ (d1 hx hu.1) (d1 hx hv.1)
  have a2 := labF_anti _ _ (d1 hy hu.2.1) (d1 hy hv.2.1)
  have a3 := labF_anti _ _ (d1 hz hu.2.2) (d1 hz hv.2.2)
  have D0 := (C33_metric (xyzToLab u w) (xyzToLab v w) (xyzToLab v w)).1
  have hD := de1976_sq (xyzToLab u w) (xyzToLab v w)
  generalize deltaE1976 (xyzToLab u w) (xyzToLab v w) = D at *
  rw [xyzToLab_eq u, xyzToLab_eq v] at hD
  dsimp only at hD
  have back : ∀ {p q w : ℝ} {t : ℝ}, 0 < w → |p / w - q / w| ≤ t → |p - q| ≤ t * w := by
    intro p q w t hw h
    rw [← sub_div, abs_div, abs_of_pos hw, div_le_iff₀ hw] at h; exact h
  have bound : ∀ {t : ℝ}, t ^ 2 ≤ (0.01 * D) ^ 2 → 3 * |t| ≤ 0.03 * D := by
    intro t ht
    have := abs_le_of_sq_le_sq ht (by positivity)
    norm_num at this ⊢
    linarith
  refine ⟨back hx (a1.trans (bound ?_)), back hy (a2.trans (bound ?_)), back hz (a3.trans (bound ?_))⟩ <;>
  · generalize labF (u.x / w.x) = ux at *
    generalize labF (v.x / w.x) = vx at *
    generalize labF (u.y / w.y) = uy at *
    generalize labF (v.y / w.y) = vy at *
    generalize labF (u.z / w.z) = uz at *
    generalize labF (v.z / w.z) = vz at *
    rw [mul_pow, hD]
    norm_num
    nlinarith [sq_nonneg ((uy - vy) * 116 ^ 2 - (vx - vy - (ux - uy)) * 500 ^ 2),
      sq_nonneg ((uy - vy) * 116 ^ 2 - (vy - vz - (uy - uz)) * 200 ^ 2),
      sq_nonneg (vx - vy - (ux - uy)), sq_nonneg (vy - vz - (uy - uz)), sq_nonneg (uy - vy)]

/-- C123 [R]: the L*a*b* coordinates of a colour between black and white: lightness 0 to 100, `a` at most 432 and `b` at most
173 in size. -/
theorem C123_range (v w : XYZ ℝ) (hx : 0 < w.x) (hy : 0 < w.y) (hz : 0 < w.z) (hv : Spec.BelowWhite v w) :
    0 ≤ (xyzToLab v w).L ∧ (xyzToLab v w).L ≤ 100 ∧ |(xyzToLab v w).a| ≤ 432 ∧ |(xyzToLab v w).b| ≤ 173 := by
  obtain ⟨x0, x1, y0, y1, z0, z1⟩ := hv
  have rng : ∀ {p q : ℝ}, 0 < q → 0 ≤ p → p ≤ q → 4 / 29 ≤ labF (p / q) ∧ labF (p / q) ≤ 1 := by
    intro p q hq h0 h1
    rw [← labF_zero, ← labF_one]
    exact ⟨labF_strictMono.monotone (by positivity), labF_strictMono.monotone ((div_le_one hq).2 h1)⟩
  obtain ⟨a1, a2⟩ := rng hx x0 x1
  obtain ⟨b1, b2⟩ := rng hy y0 y1
  obtain ⟨c1, c2⟩ := rng hz z0 z1
  rw [xyzToLab_eq]
  dsimp only
  refine ⟨by linarith, by linarith, abs_le.2 ⟨by linarith, by linarith⟩, abs_le.2 ⟨by linarith, by linarith⟩⟩

/-- C123 [R]: for colours between black and white each component agrees to within 2.83 times white's per unit of
`delta_E_2000`: if the formula reports a difference of 0.001 the two colours do not differ by 0.3% of white. -/
theorem C123_separate_2000 (u v w : XYZ ℝ) (hx : 0 < w.x) (hy : 0 < w.y) (hz : 0 < w.z)
    (hu : Spec.BelowWhite u w) (hv : Spec.BelowWhite v w) :
    Spec.NearXyz u v w (2.83 * deltaE2000 (xyzToLab u w) (xyzToLab v w)) := by
  obtain ⟨u1, u2, u3, u4⟩ := C123_range u w hx hy hz hu
  obtain ⟨v1, v2, v3, v4⟩ := C123_range v w hx hy hz hv
  have h := C123_separate_1976 u v w hx hy hz ⟨hu.2.1, hu.2.2.2.1, hu.2.2.2.2.2⟩ ⟨hv.2.1, hv.2.2.2.1, hv.2.2.2.2.2⟩
  have k := C122_lower (xyzToLab u w) (xyzToLab v w) (by linarith) (by linarith)
  have ch : ∀ {a b : ℝ}, |a| ≤ 432 → |b| ≤ 173 → √(a ^ 2 + b ^ 2) ≤ 466 := by
    intro a b ha hb
    rw [Real.sqrt_le_left (by norm_num)]
    have := sq_le_sq' (abs_le.1 ha).1 (abs_le.1 ha).2
    have := sq_le_sq' (abs_le.1 hb).1 (abs_le.1 hb).2
    linarith
  have p0 : 0 ≤ deltaE2000 (xyzToLab u w) (xyzToLab v w) := Real.sqrt_nonneg _
  have k2 : deltaE1976 (xyzToLab u w) (xyzToLab v w) ≤ 94.2 * deltaE2000 (xyzToLab u w) (xyzToLab v w) := by
    refine k.trans (mul_le_mul_of_nonneg_right ?_ p0)
    have := ch u3 u4
    have := ch v3 v4
    norm_num
    linarith
  have k3 : 0.03 * deltaE1976 (xyzToLab u w) (xyzToLab v w) ≤ 2.83 * deltaE2000 (xyzToLab u w) (xyzToLab v w) := by
    norm_num at k2 ⊢
    linarith
  exact ⟨h.1.trans (mul_le_mul_of_nonneg_right k3 hx.le), h.2.1.trans (mul_le_mul_of_nonneg_right k3 hy.le),
    h.2.2.trans (mul_le_mul_of_nonneg_right k3 hz.le)⟩

/-- Not vacuous: two mid greys a thousandth apart under D65. -/
example : let w : XYZ ℝ := ⟨95, 100, 109⟩
    let u : XYZ ℝ := ⟨20, 18, 15⟩
    let v : XYZ ℝ := ⟨20.05, 18.05, 15.1⟩
    Spec.NearXyz u v w 0.001 ∧ Spec.BelowWhite u w ∧ Spec.BelowWhite v w := by
  unfold Spec.NearXyz Spec.BelowWhite
  norm_num [abs_of_neg]

end CS

import Verif.Lemmas.Perceptual
import Verif.Props.Differences
import Verif.Model.Shipped

/-!
# One encoded component at a time: what it does to L*a*b*
-/

namespace CS

/-- A decoding curve whose lightness changes by at most `K` per unit of the encoded component, up to a jump `J`. -/
structure Gentle (d : ℝ → ℝ) (K J : ℝ) : Prop where
  nonneg : ∀ {t}, 0 ≤ t → 0 ≤ d t
  mono : ∀ {s t}, 0 ≤ s → s ≤ t → d s ≤ d t
  lip : ∀ {s t}, 0 ≤ s → s ≤ t → labF (d t) - labF (d s) ≤ K * (t - s) + J

theorem srgb_dec_nonneg {t : ℝ} (h : 0 ≤ t) : 0 ≤ decode.srgb_t t := by
  have := C30_strictly_increasing.1.monotone h
  rw [dec_srgb 0, if_pos (by norm_num), zero_div] at this
  exact this

theorem srgb_gentle : Gentle decode.srgb_t 1.125 3e-8 :=
  ⟨srgb_dec_nonneg, fun _ h => C30_strictly_increasing.1.monotone h, srgb_light_lip⟩

/-- no primary has a negative component, or a larger one than white's -/
def Spec.PrimariesBelow (m : Matrix33 ℝ) (w : XYZ ℝ) : Prop :=
  (0 ≤ m.x0 ∧ 100 * m.x0 ≤ w.x) ∧ (0 ≤ m.x1 ∧ 100 * m.x1 ≤ w.x) ∧ (0 ≤ m.x2 ∧ 100 * m.x2 ≤ w.x) ∧
  (0 ≤ m.x3 ∧ 100 * m.x3 ≤ w.y) ∧ (0 ≤ m.x4 ∧ 100 * m.x4 ≤ w.y) ∧ (0 ≤ m.x5 ∧ 100 * m.x5 ≤ w.y) ∧
  (0 ≤ m.x6 ∧ 100 * m.x6 ≤ w.z) ∧ (0 ≤ m.x7 ∧ 100 * m.x7 ≤ w.z) ∧ (0 ≤ m.x8 ∧ 100 * m.x8 ≤ w.z)

/-- L*a*b* from companded coordinates -/
def labOf (X Y Z : ℝ) : Lab ℝ := ⟨116 * Y - 16, 500 * (X - Y), 200 * (Y - Z)⟩

theorem labOf_step {X Y Z X' Y' Z' η : ℝ} (hx : 0 ≤ X' - X ∧ X' - X ≤ η) (hy : 0 ≤ Y' - Y ∧ Y' - Y ≤ η)
    (hz : 0 ≤ Z' - Z ∧ Z' - Z ≤ η) : deltaE1976 (labOf X Y Z) (labOf X' Y' Z') ≤ 551 * η := by
  have h0 : 0 ≤ η := hx.1.trans hx.2
  refine (le_abs_self _).trans (abs_le_of_sq_le_sq ?_ (by positivity))
  rw [de1976_sq]
  simp only [labOf]
  have b1 : (116 * Y' - 16 - (116 * Y - 16)) ^ 2 ≤ (116 * η) ^ 2 := by
    refine sq_le_sq' ?_ ?_ <;> linarith [hy.1, hy.2]
  have b2 : (500 * (X' - Y') - 500 * (X - Y)) ^ 2 ≤ (500 * η) ^ 2 := by
    refine sq_le_sq' ?_ ?_ <;> linarith [hy.1, hy.2, hx.1, hx.2]
  have b3 : (200 * (Y' - Z') - 200 * (Y - Z)) ^ 2 ≤ (200 * η) ^ 2 := by
    refine sq_le_sq' ?_ ?_ <;> linarith [hy.1, hy.2, hz.1, hz.2]
  nlinarith [sq_nonneg η]

theorem curveLab_eq (d : ℝ → ℝ) (m : Matrix33 ℝ) (w : XYZ ℝ) (c : RGBf ℝ) : xyzToLab (rgbToXyz m (c.mapc d)) w =
    labOf (labF (100 * m.x0 / w.x * d c.r + 100 * m.x1 / w.x * d c.g +
        100 * m.x2 / w.x * d c.b))
      (labF (100 * m.x3 / w.y * d c.r + 100 * m.x4 / w.y * d c.g +
        100 * m.x5 / w.y * d c.b))
      (labF (100 * m.x6 / w.z * d c.r + 100 * m.x7 / w.z * d c.g +
        100 * m.x8 / w.z * d c.b)) := by
  have h100 : (Flt.lit 100.0 : ℝ) = 100 := by rw [flt_lit]; norm_num
  have hx : (rgbToXyz m (c.mapc d)).x / w.x = 100 * m.x0 / w.x * d c.r +
      100 * m.x1 / w.x * d c.g + 100 * m.x2 / w.x * d c.b := by
    show (m.x0 * d c.r + m.x1 * d c.g + m.x2 * d c.b) * (Flt.lit 100.0 : ℝ) / w.x = _
    rw [h100]; ring
  have hy : (rgbToXyz m (c.mapc d)).y / w.y = 100 * m.x3 / w.y * d c.r +
      100 * m.x4 / w.y * d c.g + 100 * m.x5 / w.y * d c.b := by
    show (m.x3 * d c.r + m.x4 * d c.g + m.x5 * d c.b) * (Flt.lit 100.0 : ℝ) / w.y = _
    rw [h100]; ring
  have hz : (rgbToXyz m (c.mapc d)).z / w.z = 100 * m.x6 / w.z * d c.r +
      100 * m.x7 / w.z * d c.g + 100 * m.x8 / w.z * d c.b := by
    show (m.x6 * d c.r + m.x7 * d c.g + m.x8 * d c.b) * (Flt.lit 100.0 : ℝ) / w.z = _
    rw [h100]; ring
  rw [xyzToLab_eq, hx, hy, hz]
  rfl

/-- one component changes, whatever the weights and the other light -/
theorem weighted_step {d : ℝ → ℝ} {K J : ℝ} (hd : Gentle d K J) {p c s t : ℝ} (hp : 0 ≤ p) (hp1 : p ≤ 1) (hc : 0 ≤ c) (hs : 0 ≤ s) (h : s ≤ t) :
    0 ≤ labF (p * d t + c) - labF (p * d s + c) ∧
    labF (p * d t + c) - labF (p * d s + c) ≤ K * (t - s) + J := by
  have m := hd.mono hs h
  constructor
  · have := labF_strictMono.monotone (show p * d s + c ≤ p * d t + c by
      linarith [mul_le_mul_of_nonneg_left m hp])
    linarith
  · exact (labF_weighted hp hp1 hc (hd.nonneg hs) m).trans (hd.lip hs h)

/-- the three coordinates as functions of one component -/
theorem channel_step {d : ℝ → ℝ} {K J : ℝ} (hd : Gentle d K J) (hK : 0 ≤ K) {p q r a b c s t δ : ℝ} (hp : 0 ≤ p ∧ p ≤ 1) (hq : 0 ≤ q ∧ q ≤ 1) (hr : 0 ≤ r ∧ r ≤ 1)
    (ha : 0 ≤ a) (hb : 0 ≤ b) (hc : 0 ≤ c) (hs : 0 ≤ s) (ht : 0 ≤ t) (h : |s - t| ≤ δ) :
    deltaE1976 (labOf (labF (p * d s + a)) (labF (q * d s + b)) (labF (r * d s + c)))
      (labOf (labF (p * d t + a)) (labF (q * d t + b)) (labF (r * d t + c))) ≤
    551 * (K * δ + J) := by
  have key : ∀ {s t : ℝ}, 0 ≤ s → s ≤ t → |s - t| ≤ δ →
      deltaE1976 (labOf (labF (p * d s + a)) (labF (q * d s + b)) (labF (r * d s + c)))
        (labOf (labF (p * d t + a)) (labF (q * d t + b)) (labF (r * d t + c))) ≤
      551 * (K * δ + J) := by
    intro s t hs h hδ
    rw [abs_of_nonpos (by linarith)] at hδ
    replace hδ : t - s ≤ δ := by linarith
    refine (labOf_step (weighted_step hd hp.1 hp.2 ha hs h) (weighted_step hd hq.1 hq.2 hb hs h)
      (weighted_step hd hr.1 hr.2 hc hs h)).trans ?_
    have := mul_le_mul_of_nonneg_left hδ hK
    linarith
  rcases le_total s t with k | k
  · exact key hs k h
  · rw [(C33_metric _ _ (labOf 0 0 0)).2.1]
    exact key ht k (by rwa [abs_sub_comm])

theorem curve_components {d : ℝ → ℝ} {K J : ℝ} (hd : Gentle d K J) (hK : 0 ≤ K) (m : Matrix33 ℝ) (w : XYZ ℝ) (hx : 0 < w.x)
    (hy : 0 < w.y) (hz : 0 < w.z) (hm : Spec.PrimariesBelow m w) (u v : RGBf ℝ) (hu : 0 ≤ u.r ∧ 0 ≤ u.g ∧ 0 ≤ u.b)
    (hv : 0 ≤ v.r ∧ 0 ≤ v.g ∧ 0 ≤ v.b) {δ : ℝ} (hr : |u.r - v.r| ≤ δ) (hg : |u.g - v.g| ≤ δ) (hb : |u.b - v.b| ≤ δ) :
    deltaE1976 (xyzToLab (rgbToXyz m (u.mapc d)) w) (xyzToLab (rgbToXyz m (v.mapc d)) w) ≤ 1653 * (K * δ + J) := by
  have wt : ∀ {a b : ℝ}, 0 < b → 0 ≤ a ∧ 100 * a ≤ b → 0 ≤ 100 * a / b ∧ 100 * a / b ≤ 1 := by
    intro a b hb h
    exact ⟨div_nonneg (by linarith [h.1]) hb.le, (div_le_one hb).2 h.2⟩
  obtain ⟨h0, h1, h2, h3, h4, h5, h6, h7, h8⟩ := hm
  have w0 := wt hx h0; have w1 := wt hx h1; have w2 := wt hx h2
  have w3 := wt hy h3; have w4 := wt hy h4; have w5 := wt hy h5
  have w6 := wt hz h6; have w7 := wt hz h7; have w8 := wt hz h8
  rw [curveLab_eq, curveLab_eq]
  generalize 100 * m.x0 / w.x = p0 at *
  generalize 100 * m.x1 / w.x = p1 at *
  generalize 100 * m.x2 / w.x = p2 at *
  generalize 100 * m.x3 / w.y = p3 at *
  generalize 100 * m.x4 / w.y = p4 at *
  generalize 100 * m.x5 / w.y = p5 at *
  generalize 100 * m.x6 / w.z = p6 at *
  generalize 100 * m.x7 / w.z = p7 at *
  generalize 100 * m.x8 / w.z = p8 at *
  have nn : ∀ {p q s t : ℝ}, 0 ≤ p ∧ p ≤ 1 → 0 ≤ q ∧ q ≤ 1 → 0 ≤ s → 0 ≤ t →
      0 ≤ p * d s + q * d t := fun hp hq hs ht =>
    add_nonneg (mul_nonneg hp.1 (hd.nonneg hs)) (mul_nonneg hq.1 (hd.nonneg ht))
  have sr := channel_step hd hK w0 w3 w6 (nn w1 w2 hu.2.1 hu.2.2) (nn w4 w5 hu.2.1 hu.2.2) (nn w7 w8 hu.2.1 hu.2.2) hu.1 hv.1 hr
  have sg := channel_step hd hK w1 w4 w7 (nn w0 w2 hv.1 hu.2.2) (nn w3 w5 hv.1 hu.2.2) (nn w6 w8 hv.1 hu.2.2) hu.2.1 hv.2.1 hg
  have sb := channel_step hd hK w2 w5 w8 (nn w0 w1 hv.1 hv.2.1) (nn w3 w4 hv.1 hv.2.1) (nn w6 w7 hv.1 hv.2.1) hu.2.2 hv.2.2 hb
  have ar : ∀ a b c : ℝ, a + (b + c) = a + b + c := fun a b c => by ring
  have ag : ∀ a b c : ℝ, b + (a + c) = a + b + c := fun a b c => by ring
  have ab : ∀ a b c : ℝ, c + (a + b) = a + b + c := fun a b c => by ring
  simp only [ar] at sr
  rw [ag, ag, ag, ag, ag, ag] at sg
  rw [ab, ab, ab, ab, ab, ab] at sb
  have t1 := fun a b c => (C33_metric a b c).2.2.2
  refine (t1 _ _ _).trans ((add_le_add sr ((t1 _ _ _).trans (add_le_add sg sb))).trans ?_)
  linarith

end CS

import Verif.Lemmas.Channels
import Verif.Props.Stability
import Verif.Props.Quant
import Verif.Model.Shipped

/-!
# How far storing an sRGB colour in 8 or 16 bits can move it (C124)
-/

namespace CS

/-! ### specification -/

/-- the L*a*b* coordinates of an sRGB-encoded colour: decode it, go to XYZ by `m`, compare with white `w` -/
noncomputable def Spec.srgbLab (m : Matrix33 ℝ) (w : XYZ ℝ) (c : RGBf ℝ) : Lab ℝ :=
  xyzToLab (rgbToXyz m (decode.srgb c)) w

/-- components from 0 to 1 -/
def Spec.InRange (c : RGBf ℝ) : Prop := (0 ≤ c.r ∧ c.r ≤ 1) ∧ (0 ≤ c.g ∧ c.g ≤ 1) ∧ (0 ≤ c.b ∧ c.b ≤ 1)

/-! ### proofs -/

/-- C124 [R]: let the sRGB-encoded components of two colours, none negative, differ by at most `δ`. Then the colours differ by
at most 1860 `δ` + 0.0001 in `delta_E_1976`, for every matrix to XYZ whose primaries are not negative and no brighter than
white. (The additive 0.0001 is the small jump of `decode::srgb` at its seam.) -/
theorem C124_components (m : Matrix33 ℝ) (w : XYZ ℝ) (hx : 0 < w.x) (hy : 0 < w.y) (hz : 0 < w.z)
    (hm : Spec.PrimariesBelow m w) (u v : RGBf ℝ) (hu : 0 ≤ u.r ∧ 0 ≤ u.g ∧ 0 ≤ u.b) (hv : 0 ≤ v.r ∧ 0 ≤ v.g ∧ 0 ≤ v.b)
    {δ : ℝ} (hr : |u.r - v.r| ≤ δ) (hg : |u.g - v.g| ≤ δ) (hb : |u.b - v.b| ≤ δ) :
    deltaE1976 (Spec.srgbLab m w u) (Spec.srgbLab m w v) ≤ 1860 * δ + 0.0001 := by
  refine (curve_components srgb_gentle (by norm_num) m w hx hy hz hm u v hu hv hr hg hb).trans ?_
  have : 0 ≤ δ := (abs_nonneg _).trans hr
  norm_num
  linarith

/-- C124 [R]: for greys the lightness moves by at most 130.5 `δ` + 0.00001. -/
theorem C124_grey (m : Matrix33 ℝ) (w : XYZ ℝ) (hy : 0 < w.y) (hm : 0 ≤ m.x3 + m.x4 + m.x5)
    (hw : 100 * (m.x3 + m.x4 + m.x5) ≤ w.y) {s t δ : ℝ} (hs : 0 ≤ s) (ht : 0 ≤ t) (h : |s - t| ≤ δ) :
    |(Spec.srgbLab m w ⟨s, s, s⟩).L - (Spec.srgbLab m w ⟨t, t, t⟩).L| ≤ 130.5 * δ + 0.00001 := by
  have key : ∀ {s t : ℝ}, 0 ≤ s → s ≤ t → |s - t| ≤ δ →
      |(Spec.srgbLab m w ⟨t, t, t⟩).L - (Spec.srgbLab m w ⟨s, s, s⟩).L| ≤ 130.5 * δ + 0.00001 := by
    intro s t hs h hd
    rw [abs_of_nonpos (by linarith)] at hd
    rw [show Spec.srgbLab m w ⟨t, t, t⟩ = _ from curveLab_eq decode.srgb_t m w _,
      show Spec.srgbLab m w ⟨s, s, s⟩ = _ from curveLab_eq decode.srgb_t m w _]
    have e : ∀ d : ℝ, 100 * m.x3 / w.y * d + 100 * m.x4 / w.y * d + 100 * m.x5 / w.y * d =
        100 * (m.x3 + m.x4 + m.x5) / w.y * d + 0 := fun d => by ring
    simp only [labOf, e]
    obtain ⟨a, b⟩ := weighted_step srgb_gentle (p := 100 * (m.x3 + m.x4 + m.x5) / w.y) (div_nonneg (by linarith) hy.le)
      ((div_le_one hy).2 hw) le_rfl hs h
    generalize labF (100 * (m.x3 + m.x4 + m.x5) / w.y * decode.srgb_t t + 0) = A at *
    generalize labF (100 * (m.x3 + m.x4 + m.x5) / w.y * decode.srgb_t s + 0) = B at *
    rw [abs_of_nonneg (by linarith)]
    norm_num at b ⊢
    linarith
  rcases le_total s t with k | k
  · rw [abs_sub_comm]; exact key hs k h
  · exact key ht k (by rwa [abs_sub_comm])

theorem srgb_below (w : XYZ ℝ) (hx : 41.24 ≤ w.x) (hy : 71.52 ≤ w.y) (hz : 95.05 ≤ w.z) :
    Spec.PrimariesBelow (Shipped.srgb (fun q => (q : ℝ))).xf_rgb_to_xyz w := by
  norm_num at hx hy hz
  unfold Spec.PrimariesBelow
  simp only [Shipped.srgb, ColorSpaceRGB.newWithMatrices]
  norm_num
  refine ⟨?_, ?_, ?_, ?_, ?_, ?_, ?_, ?_, ?_⟩ <;> linarith

theorem code_near {n : ℕ} {x N : ℝ} (hN : 0 < N) (h : |(n : ℝ) - N * x| ≤ 1 / 2) : |x - n / N| ≤ 1 / (2 * N) := by
  rw [show x - n / N = -((n - N * x) / N) by field_simp; ring, abs_neg, abs_div, abs_of_pos hN, div_le_iff₀ hN]
  rw [show 1 / (2 * N) * N = 1 / 2 by field_simp]
  exact h

theorem unq8 (n : UInt8) : (unquant8 n : ℝ) = n.toNat / 255 := by
  unfold unquant8; rw [flt_lit]; norm_num

theorem unq16 (n : UInt16) : (unquant16 n : ℝ) = n.toNat / 65535 := by
  unfold unquant16; rw [flt_lit]; norm_num

/-- C124 [R]: storing an `SRGB` colour in 8 bits moves it by at most 3.65 in `delta_E_1976` (7.5 in `delta_E_2000`), and
storing it in 16 bits by at most 0.0143 (0.03), for D65 and every other white at least as large as the matrix's own
primaries. -/
theorem C124_bits (w : XYZ ℝ) (hx : 41.24 ≤ w.x) (hy : 71.52 ≤ w.y) (hz : 95.05 ≤ w.z) (c : RGBf ℝ) (hc : Spec.InRange c) :
    let m := (Shipped.srgb (fun q => (q : ℝ))).xf_rgb_to_xyz
    deltaE1976 (Spec.srgbLab m w c) (Spec.srgbLab m w c.toU8.toF) ≤ 3.65 ∧
    deltaE2000 (Spec.srgbLab m w c) (Spec.srgbLab m w c.toU8.toF) ≤ 7.5 ∧
    deltaE1976 (Spec.srgbLab m w c) (Spec.srgbLab m w c.toU16.toF) ≤ 0.0143 ∧
    deltaE2000 (Spec.srgbLab m w c) (Spec.srgbLab m w c.toU16.toF) ≤ 0.03 := by
  intro m
  have hm := srgb_below w hx hy hz
  have x0 : 0 < w.x := lt_of_lt_of_le (by norm_num) hx
  have y0 : 0 < w.y := lt_of_lt_of_le (by norm_num) hy
  have z0 : 0 < w.z := lt_of_lt_of_le (by norm_num) hz
  obtain ⟨⟨r0, r1⟩, ⟨g0, g1⟩, ⟨b0, b1⟩⟩ := hc
  have n8 : ∀ {x : ℝ}, 0 ≤ x → x ≤ 1 → |x - unquant8 (quant8 x)| ≤ 1 / (2 * 255) := fun h0 h1 => by
    rw [unq8]; exact code_near (by norm_num) (C05_quant8_nearest_real _ h0 h1)
  have n16 : ∀ {x : ℝ}, 0 ≤ x → x ≤ 1 → |x - unquant16 (quant16 x)| ≤ 1 / (2 * 65535) := fun h0 h1 => by
    rw [unq16]; exact code_near (by norm_num) (C05_quant16_nearest_real _ h0 h1)
  have p8 : ∀ n : UInt8, (0:ℝ) ≤ unquant8 n := fun n => by rw [unq8]; positivity
  have p16 : ∀ n : UInt16, (0:ℝ) ≤ unquant16 n := fun n => by rw [unq16]; positivity
  have a := C124_components m w x0 y0 z0 hm c c.toU8.toF ⟨r0, g0, b0⟩ ⟨p8 _, p8 _, p8 _⟩ (n8 r0 r1) (n8 g0 g1) (n8 b0 b1)
  have b := C124_components m w x0 y0 z0 hm c c.toU16.toF ⟨r0, g0, b0⟩ ⟨p16 _, p16 _, p16 _⟩ (n16 r0 r1) (n16 g0 g1)
    (n16 b0 b1)
  have a2 := C122_upper (Spec.srgbLab m w c) (Spec.srgbLab m w c.toU8.toF)
  have b2 := C122_upper (Spec.srgbLab m w c) (Spec.srgbLab m w c.toU16.toF)
  norm_num at a b a2 b2 ⊢
  refine ⟨?_, ?_, ?_, ?_⟩ <;> linarith

/-- C124 [R]: and the lightness of a grey by at most 0.256 in 8 bits. -/
theorem C124_grey_bits (w : XYZ ℝ) (hy : 100 ≤ w.y) (g : ℝ) (h0 : 0 ≤ g) (h1 : g ≤ 1) :
    let m := (Shipped.srgb (fun q => (q : ℝ))).xf_rgb_to_xyz
    let c : RGBf ℝ := ⟨g, g, g⟩
    |(Spec.srgbLab m w c).L - (Spec.srgbLab m w c.toU8.toF).L| ≤ 0.256 := by
  intro m c
  have hn : |g - unquant8 (quant8 g)| ≤ 1 / (2 * 255) := by
    rw [unq8]; exact code_near (by norm_num) (C05_quant8_nearest_real _ h0 h1)
  have hm : m.x3 + m.x4 + m.x5 = 1 := by
    simp only [m, Shipped.srgb, ColorSpaceRGB.newWithMatrices]; norm_num
  have := C124_grey m w (by linarith) (by rw [hm]; norm_num) (by rw [hm]; linarith) h0
    (show (0:ℝ) ≤ unquant8 (quant8 g) by rw [unq8]; positivity) hn
  refine this.trans ?_
  norm_num

/-- a power of the encoded component -/
theorem power_gentle {γ : ℝ} (h1 : 1 ≤ γ) (h3 : γ ≤ 3) :
    Gentle (fun t => t ^ γ) (γ / 3 * (29 / 6) ^ (3 / γ - 1)) 0 := by
  have g0 : 0 < γ := by linarith
  refine ⟨fun h => Real.rpow_nonneg h _, fun hs h => Real.rpow_le_rpow hs h g0.le, fun {s t} hs h => ?_⟩
  obtain ⟨e, he⟩ : ∃ e : ℝ, e = 6 / 29 := ⟨_, rfl⟩
  have e0 : 0 < e := by rw [he]; norm_num
  have inv : (29 / 6 : ℝ) ^ (3 / γ - 1) = e ^ (1 - 3 / γ) := by
    rw [show (29 / 6 : ℝ) = e⁻¹ by rw [he]; norm_num, Real.inv_rpow e0.le, ← Real.rpow_neg e0.le]
    congr 1; ring
  rw [inv]
  have u0 : 0 < e ^ (3 / γ) := Real.rpow_pos_of_pos e0 _
  have ue : (e ^ (3 / γ)) ^ γ = 216 / 24389 := by
    rw [← Real.rpow_mul e0.le, div_mul_cancel₀ _ g0.ne', show (3:ℝ) = ((3:ℕ):ℝ) by norm_num, Real.rpow_natCast, he]
    norm_num
  have := mono_split (g := fun t => γ / 3 * e ^ (1 - 3 / γ) * t - labF (t ^ γ)) (e ^ (3 / γ)) (fun x y hx h hy => ?_)
    (fun x y hx0 hx h => ?_) hs h
  · linarith
  · rcases (hx.trans h).eq_or_lt with y0 | y0
    · have : x = y := le_antisymm h (by linarith)
      rw [this]
    have ly : y ^ γ ≤ 216 / 24389 := by rw [← ue]; exact Real.rpow_le_rpow y0.le hy g0.le
    have lx : x ^ γ ≤ 216 / 24389 := (Real.rpow_le_rpow hx h g0.le).trans ly
    rw [labF_line ly, labF_line lx]
    have b := one_add_mul_self_le_rpow_one_add (s := x / y - 1) (by have := div_nonneg hx y0.le; linarith) h1
    rw [show 1 + (x / y - 1) = x / y by ring, Real.div_rpow hx y0.le, le_div_iff₀ (Real.rpow_pos_of_pos y0 _)] at b
    have ys : y ^ γ = y ^ (γ - 1) * y := by
      rw [Real.rpow_sub_one y0.ne']; field_simp
    have d : y ^ γ - x ^ γ ≤ γ * y ^ (γ - 1) * (y - x) := by
      have : (1 + γ * (x / y - 1)) * y ^ γ = y ^ γ - γ * y ^ (γ - 1) * (y - x) := by
        rw [ys]; field_simp; ring
      linarith
    have yb : y ^ (γ - 1) ≤ e ^ 2 * e ^ (1 - 3 / γ) := by
      have := Real.rpow_le_rpow y0.le hy (show 0 ≤ γ - 1 by linarith)
      rw [← Real.rpow_mul e0.le] at this
      refine this.trans (le_of_eq ?_)
      rw [← Real.rpow_natCast, ← Real.rpow_add e0]
      congr 1
      field_simp
      push_cast
      ring
    have d2 : γ * y ^ (γ - 1) * (y - x) ≤ γ * (e ^ 2 * e ^ (1 - 3 / γ)) * (y - x) :=
      mul_le_mul_of_nonneg_right (mul_le_mul_of_nonneg_left yb g0.le) (by linarith)
    have e2 : e ^ 2 = 36 / 841 := by rw [he]; norm_num
    rw [e2] at d2
    linarith
  · have x0 : 0 < x := u0.trans_le hx
    have y0 : 0 < y := x0.trans_le h
    have cub : ∀ {z : ℝ}, 0 < z → e ^ (3 / γ) ≤ z → labF (z ^ γ) = z ^ (γ / 3) := by
      intro z z0 hz
      have lz : 216 / 24389 ≤ z ^ γ := by rw [← ue]; exact Real.rpow_le_rpow u0.le hz g0.le
      obtain ⟨a, b⟩ := labF_cube' lz
      refine (pow_left_inj₀ (by linarith) (Real.rpow_nonneg z0.le _) three_ne_zero).1 ?_
      rw [a, ← Real.rpow_natCast, ← Real.rpow_mul z0.le]
      congr 1; push_cast; ring
    rw [cub x0 hx, cub y0 (hx.trans h)]
    have b := rpow_one_add_le_one_add_mul_self (s := y / x - 1) (p := γ / 3)
      (by have := div_nonneg y0.le x0.le; linarith) (by linarith) (by linarith)
    rw [show 1 + (y / x - 1) = y / x by ring, Real.div_rpow y0.le x0.le, div_le_iff₀ (Real.rpow_pos_of_pos x0 _)] at b
    have xs : x ^ (γ / 3) = x ^ (γ / 3 - 1) * x := by
      rw [Real.rpow_sub_one x0.ne']; field_simp
    have d : y ^ (γ / 3) - x ^ (γ / 3) ≤ γ / 3 * x ^ (γ / 3 - 1) * (y - x) := by
      have : (1 + γ / 3 * (y / x - 1)) * x ^ (γ / 3) = x ^ (γ / 3) + γ / 3 * x ^ (γ / 3 - 1) * (y - x) := by
        rw [xs]; field_simp
      linarith
    have xb : x ^ (γ / 3 - 1) ≤ e ^ (1 - 3 / γ) := by
      have := Real.rpow_le_rpow_of_nonpos u0 hx (show γ / 3 - 1 ≤ 0 by linarith)
      rw [← Real.rpow_mul e0.le] at this
      refine this.trans (le_of_eq ?_)
      congr 1
      field_simp
    have d2 : γ / 3 * x ^ (γ / 3 - 1) * (y - x) ≤ γ / 3 * e ^ (1 - 3 / γ) * (y - x) :=
      mul_le_mul_of_nonneg_right (mul_le_mul_of_nonneg_left xb (by positivity)) (by linarith)
    linarith

/-- C124 [R]: the same for spaces that decode by a power `γ` from 1 to 3, such as `DCI_P3`, `DCI_P3_D65` (2.6) and
`ADOBE_RGB_1998` (2.19921875): at most 551 γ (29/6)^(3/γ - 1) `δ`. -/
theorem C124_power {γ : ℝ} (h1 : 1 ≤ γ) (h3 : γ ≤ 3) (m : Matrix33 ℝ) (w : XYZ ℝ) (hx : 0 < w.x) (hy : 0 < w.y)
    (hz : 0 < w.z) (hm : Spec.PrimariesBelow m w) (u v : RGBf ℝ) (hu : 0 ≤ u.r ∧ 0 ≤ u.g ∧ 0 ≤ u.b)
    (hv : 0 ≤ v.r ∧ 0 ≤ v.g ∧ 0 ≤ v.b) {δ : ℝ} (hr : |u.r - v.r| ≤ δ) (hg : |u.g - v.g| ≤ δ) (hb : |u.b - v.b| ≤ δ) :
    deltaE1976 (xyzToLab (rgbToXyz m (u.powf γ)) w) (xyzToLab (rgbToXyz m (v.powf γ)) w) ≤
      551 * γ * (29 / 6) ^ (3 / γ - 1) * δ := by
  refine (curve_components (power_gentle h1 h3) ?_ m w hx hy hz hm u v hu hv hr hg hb).trans (le_of_eq ?_)
  · have := Real.rpow_nonneg (show (0:ℝ) ≤ 29 / 6 by norm_num) (3 / γ - 1)
    have : 0 ≤ γ := by linarith
    positivity
  · ring

theorem adobe_below (w : XYZ ℝ) (hx : 57.667 ≤ w.x) (hy : 62.736 ≤ w.y) (hz : 99.134 ≤ w.z) :
    Spec.PrimariesBelow (Shipped.adobeRgb1998 (fun q => (q : ℝ))).xf_rgb_to_xyz w := by
  norm_num at hx hy hz
  unfold Spec.PrimariesBelow
  simp only [Shipped.adobeRgb1998, ColorSpaceRGB.newWithMatrices]
  norm_num
  refine ⟨?_, ?_, ?_, ?_, ?_, ?_, ?_, ?_, ?_⟩ <;> linarith

/-- C124 [R]: storing an `ADOBE_RGB_1998` colour in 8 bits moves it by at most 4.23 in `delta_E_1976`, in 16 bits by at most
0.0165. -/
theorem C124_adobe (w : XYZ ℝ) (hx : 57.667 ≤ w.x) (hy : 62.736 ≤ w.y) (hz : 99.134 ≤ w.z) (c : RGBf ℝ)
    (hc : Spec.InRange c) :
    let cs : ColorSpaceRGB ℝ := Shipped.adobeRgb1998 (fun q => (q : ℝ))
    let lab := fun c => xyzToLab (rgbToXyz cs.xf_rgb_to_xyz (cs.decode c)) w
    deltaE1976 (lab c) (lab c.toU8.toF) ≤ 4.23 ∧ deltaE1976 (lab c) (lab c.toU16.toF) ≤ 0.0165 := by
  intro cs lab
  have hm := adobe_below w hx hy hz
  have x0 : 0 < w.x := lt_of_lt_of_le (by norm_num) hx
  have y0 : 0 < w.y := lt_of_lt_of_le (by norm_num) hy
  have z0 : 0 < w.z := lt_of_lt_of_le (by norm_num) hz
  obtain ⟨⟨r0, r1⟩, ⟨g0, g1⟩, ⟨b0, b1⟩⟩ := hc
  have n8 : ∀ {x : ℝ}, 0 ≤ x → x ≤ 1 → |x - unquant8 (quant8 x)| ≤ 1 / (2 * 255) := fun h0 h1 => by
    rw [unq8]; exact code_near (by norm_num) (C05_quant8_nearest_real _ h0 h1)
  have n16 : ∀ {x : ℝ}, 0 ≤ x → x ≤ 1 → |x - unquant16 (quant16 x)| ≤ 1 / (2 * 65535) := fun h0 h1 => by
    rw [unq16]; exact code_near (by norm_num) (C05_quant16_nearest_real _ h0 h1)
  have p8 : ∀ n : UInt8, (0:ℝ) ≤ unquant8 n := fun n => by rw [unq8]; positivity
  have p16 : ∀ n : UInt16, (0:ℝ) ≤ unquant16 n := fun n => by rw [unq16]; positivity
  have γ1 : (1:ℝ) ≤ ((2.19921875 : ℚ) : ℝ) := by norm_num
  have γ3 : ((2.19921875 : ℚ) : ℝ) ≤ 3 := by norm_num
  have a := C124_power γ1 γ3 cs.xf_rgb_to_xyz w x0 y0 z0 hm c c.toU8.toF ⟨r0, g0, b0⟩ ⟨p8 _, p8 _, p8 _⟩ (n8 r0 r1) (n8 g0 g1)
    (n8 b0 b1)
  have b := C124_power γ1 γ3 cs.xf_rgb_to_xyz w x0 y0 z0 hm c c.toU16.toF ⟨r0, g0, b0⟩ ⟨p16 _, p16 _, p16 _⟩ (n16 r0 r1)
    (n16 g0 g1) (n16 b0 b1)
  have k : (29 / 6 : ℝ) ^ (3 / ((2.19921875 : ℚ) : ℝ) - 1) ≤ 1.776 := by
    refine (Real.rpow_le_rpow_of_exponent_le (by norm_num) (show _ ≤ ((47:ℕ):ℝ) / ((129:ℕ):ℝ) by norm_num)).trans ?_
    exact (rpow_le_iff (by norm_num) (by norm_num) 47 129 (by norm_num)).2 (by norm_num)
  have e : ∀ {δ : ℝ}, 0 ≤ δ → 551 * ((2.19921875 : ℚ) : ℝ) * (29 / 6) ^ (3 / ((2.19921875 : ℚ) : ℝ) - 1) * δ ≤ 2153 * δ := by
    intro δ hδ
    refine mul_le_mul_of_nonneg_right ?_ hδ
    generalize (29 / 6 : ℝ) ^ (3 / ((2.19921875 : ℚ) : ℝ) - 1) = Q at *
    norm_num at k ⊢
    linarith
  exact ⟨a.trans ((e (by norm_num)).trans (by norm_num)), b.trans ((e (by norm_num)).trans (by norm_num))⟩

/-- Not vacuous: D65 on the scale of 100, a saturated colour and its 8-bit neighbour. -/
example : let w : XYZ ℝ := ⟨95.047, 100, 108.883⟩
    let u : RGBf ℝ := ⟨0.8, 0.1, 0.03⟩
    (41.24 ≤ w.x ∧ 71.52 ≤ w.y ∧ 95.05 ≤ w.z) ∧ Spec.InRange u ∧
    Spec.PrimariesBelow (Shipped.srgb (fun q => (q : ℝ))).xf_rgb_to_xyz w := by
  refine ⟨by norm_num, by unfold Spec.InRange; norm_num, srgb_below _ ?_ ?_ ?_⟩ <;> norm_num

end CS

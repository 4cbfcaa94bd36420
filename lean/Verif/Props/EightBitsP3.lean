import Verif.Props.EightBits
import Verif.Props.Space

/-!
# Storing a colour of a space derived from its primaries in 8 or 16 bits (C124)
-/

namespace CS
open Spec

/-! ### specification -/

/-- a point of the chromaticity triangle: no coordinate is negative -/
def Spec.Physical (p : XYY ℝ) : Prop := 0 ≤ p.x ∧ 0 ≤ p.y ∧ p.x + p.y ≤ 1

/-- `w` is inside the triangle of `r`, `g` and `b`, listed counterclockwise -/
def Spec.Inside (r g b w : XYY ℝ) : Prop := 0 < tri w g b ∧ 0 < tri r w b ∧ 0 < tri r g w

/-! ### proofs -/

theorem inverse_entries {A B : Matrix33 ℝ} (h : IsInverse A B) (v : XYZ ℝ) :
    B.x0 * (A * v).x + B.x1 * (A * v).y + B.x2 * (A * v).z = v.x ∧
    B.x3 * (A * v).x + B.x4 * (A * v).y + B.x5 * (A * v).z = v.y ∧
    B.x6 * (A * v).x + B.x7 * (A * v).y + B.x8 * (A * v).z = v.z := by
  have e : B * A = Matrix33.identity := ((isInverse_iff A B).1 h).2
  rw [mul_def] at e
  simp only [mulX_def]
  have e0 := congrArg Matrix33.x0 e
  have e1 := congrArg Matrix33.x1 e
  have e2 := congrArg Matrix33.x2 e
  have e3 := congrArg Matrix33.x3 e
  have e4 := congrArg Matrix33.x4 e
  have e5 := congrArg Matrix33.x5 e
  have e6 := congrArg Matrix33.x6 e
  have e7 := congrArg Matrix33.x7 e
  have e8 := congrArg Matrix33.x8 e
  simp only [Matrix33.identity, Flt.one, Flt.zero, flt_lit, Rat.cast_one, Rat.cast_zero] at e0 e1 e2 e3 e4 e5 e6 e7 e8
  refine ⟨?_, ?_, ?_⟩
  · linear_combination v.x * e0 + v.y * e1 + v.z * e2
  · linear_combination v.x * e3 + v.y * e4 + v.z * e5
  · linear_combination v.x * e6 + v.y * e7 + v.z * e8

/-- the matrix of a space built from its primaries: each column is a positive multiple of a primary, in proportion to areas,
and the multiples add up to white -/
theorem derived_columns (r g b w : XYY ℝ) (o e : RGBf ℝ → RGBf ℝ) (cs : ColorSpaceRGB ℝ)
    (hcs : ColorSpaceRGB.new r g b w o e = .ok cs) (hi : IsInverse cs.xf_xyz_to_rgb cs.xf_rgb_to_xyz) (hw : 0 < w.y)
    (hin : Spec.Inside r g b w) : ∃ cr cg cb : ℝ, 0 < cr ∧ 0 < cg ∧ 0 < cb ∧
      cr * (w.y * tri r g b) = tri w g b ∧ cg * (w.y * tri r g b) = tri r w b ∧ cb * (w.y * tri r g b) = tri r g w ∧
      cs.xf_rgb_to_xyz = ⟨cr * r.x, cg * g.x, cb * b.x, cr * r.y, cg * g.y, cb * b.y,
        cr * (1 - r.x - r.y), cg * (1 - g.x - g.y), cb * (1 - b.x - b.y)⟩ ∧
      cr * r.x + cg * g.x + cb * b.x = w.x / w.y ∧ cr * r.y + cg * g.y + cb * b.y = 1 ∧
      cr * (1 - r.x - r.y) + cg * (1 - g.x - g.y) + cb * (1 - b.x - b.y) = (1 - w.x - w.y) / w.y := by
  obtain ⟨t1, t2, t3⟩ := hin
  have tsum : tri r g b = tri w g b + tri r w b + tri r g w := by unfold tri; ring
  have t0 : 0 < tri r g b := by linarith
  obtain ⟨hwhite, ⟨kr, er, nr⟩, ⟨kg, eg, ng⟩, ⟨kb, eb, nb⟩⟩ :=
    C19_white_and_primaries r g b w o e cs hcs hw.ne' t1.ne' t2.ne' t3.ne'
  have nr := nr t0.ne'
  have ng := ng t0.ne'
  have nb := nb t0.ne'
  have hxy : (XYZ.fromXy w.x w.y : XYZ ℝ) / (XYZ.fromScalar (Flt.lit 100.0) : XYZ ℝ)
      = ⟨w.x / w.y, 1, (1 - w.x - w.y) / w.y⟩ := by
    ext <;> simp [XYZ.fromXy, XYZ.fromChromaticity, XYZ.fromScalar, Flt.one] <;> norm_num
  unfold xyzToRgb at hwhite
  rw [hxy] at hwhite
  have r3 := inverse_entries hi ⟨r.x, r.y, 1 - r.x - r.y⟩
  have g3 := inverse_entries hi ⟨g.x, g.y, 1 - g.x - g.y⟩
  have b3 := inverse_entries hi ⟨b.x, b.y, 1 - b.x - b.y⟩
  have w3 := inverse_entries hi ⟨w.x / w.y, 1, (1 - w.x - w.y) / w.y⟩
  rw [er] at r3
  rw [eg] at g3
  rw [eb] at b3
  simp only [RGBf.mk.injEq] at hwhite
  rw [hwhite.1, hwhite.2.1, hwhite.2.2] at w3
  generalize cs.xf_rgb_to_xyz = B at *
  simp only [mul_zero, add_zero, zero_add, mul_one] at r3 g3 b3 w3
  obtain ⟨r1, r2, r3⟩ := r3
  obtain ⟨g1, g2, g3⟩ := g3
  obtain ⟨b1, b2, b3⟩ := b3
  obtain ⟨w1, w2, w3⟩ := w3
  -- the multiples of the primaries are areas of triangles, so they are positive
  have kinv : ∀ {k : ℝ}, k ≠ 0 → ∃ c, c * k = 1 := fun h => ⟨_, inv_mul_cancel₀ h⟩
  obtain ⟨cr, hcr⟩ := kinv nr
  obtain ⟨cg, hcg⟩ := kinv ng
  obtain ⟨cb, hcb⟩ := kinv nb
  have B0 : B.x0 = cr * r.x := by linear_combination -B.x0 * hcr + cr * r1
  have B3 : B.x3 = cr * r.y := by linear_combination -B.x3 * hcr + cr * r2
  have B6 : B.x6 = cr * (1 - r.x - r.y) := by linear_combination -B.x6 * hcr + cr * r3
  have B1 : B.x1 = cg * g.x := by linear_combination -B.x1 * hcg + cg * g1
  have B4 : B.x4 = cg * g.y := by linear_combination -B.x4 * hcg + cg * g2
  have B7 : B.x7 = cg * (1 - g.x - g.y) := by linear_combination -B.x7 * hcg + cg * g3
  have B2 : B.x2 = cb * b.x := by linear_combination -B.x2 * hcb + cb * b1
  have B5 : B.x5 = cb * b.y := by linear_combination -B.x5 * hcb + cb * b2
  have B8 : B.x8 = cb * (1 - b.x - b.y) := by linear_combination -B.x8 * hcb + cb * b3
  rw [B0, B1, B2] at w1
  rw [B3, B4, B5] at w2
  rw [B6, B7, B8] at w3
  have v1 : (cr * r.x + cg * g.x + cb * b.x) * w.y = w.x := by rw [w1]; field_simp
  have v3 : (cr * (1 - r.x - r.y) + cg * (1 - g.x - g.y) + cb * (1 - b.x - b.y)) * w.y = 1 - w.x - w.y := by
    rw [w3]; field_simp
  have v0 : (cr + cg + cb) * w.y = 1 := by linear_combination v1 + v3 + w.y * w2
  have ar : cr * (w.y * tri r g b) = tri w g b := by
    unfold tri
    linear_combination (g.y - b.y) * v1 + (b.x - g.x) * w.y * w2 + (g.x * b.y - b.x * g.y) * v0
  have ag : cg * (w.y * tri r g b) = tri r w b := by
    unfold tri
    linear_combination (b.y - r.y) * v1 + (r.x - b.x) * w.y * w2 + (b.x * r.y - r.x * b.y) * v0
  have ab : cb * (w.y * tri r g b) = tri r g w := by
    unfold tri
    linear_combination (r.y - g.y) * v1 + (g.x - r.x) * w.y * w2 + (r.x * g.y - g.x * r.y) * v0
  have pos : ∀ {c t : ℝ}, c * (w.y * tri r g b) = t → 0 < t → 0 < c := by
    intro c t h ht
    exact pos_of_mul_pos_left (h ▸ ht) (mul_pos hw t0).le
  have pr := pos ar t1
  have pg := pos ag t2
  have pb := pos ab t3
  refine ⟨cr, cg, cb, pr, pg, pb, ar, ag, ab, ?_, w1, w2, w3⟩
  ext <;> assumption

/-- C124 [R]: a space built from physical primaries with its white inside their triangle meets the condition on the
primaries: none has a negative component or a larger one than white's. -/
theorem C124_derived (r g b w : XYY ℝ) (o e : RGBf ℝ → RGBf ℝ) (cs : ColorSpaceRGB ℝ)
    (hcs : ColorSpaceRGB.new r g b w o e = .ok cs) (hi : IsInverse cs.xf_xyz_to_rgb cs.xf_rgb_to_xyz) (hw : 0 < w.y)
    (hr : Spec.Physical r) (hg : Spec.Physical g) (hb : Spec.Physical b) (hin : Spec.Inside r g b w) :
    Spec.PrimariesBelow cs.xf_rgb_to_xyz (XYZ.fromXy w.x w.y) := by
  obtain ⟨cr, cg, cb, pr, pg, pb, -, -, -, hB, w1, w2, w3⟩ := derived_columns r g b w o e cs hcs hi hw hin
  replace pr := pr.le
  replace pg := pg.le
  replace pb := pb.le
  have hX : (XYZ.fromXy w.x w.y : XYZ ℝ) = ⟨100 * (w.x / w.y), 100, 100 * ((1 - w.x - w.y) / w.y)⟩ := by
    ext <;> simp [XYZ.fromXy, XYZ.fromChromaticity, Flt.one] <;> ring
  rw [hX, hB]
  obtain ⟨rx, ry, rz⟩ := hr
  obtain ⟨gx, gy, gz⟩ := hg
  obtain ⟨bx, bY, bz⟩ := hb
  have m0 := mul_nonneg pr rx
  have m1 := mul_nonneg pg gx
  have m2 := mul_nonneg pb bx
  have m3 := mul_nonneg pr ry
  have m4 := mul_nonneg pg gy
  have m5 := mul_nonneg pb bY
  have m6 := mul_nonneg pr (show 0 ≤ 1 - r.x - r.y by linarith)
  have m7 := mul_nonneg pg (show 0 ≤ 1 - g.x - g.y by linarith)
  have m8 := mul_nonneg pb (show 0 ≤ 1 - b.x - b.y by linarith)
  unfold Spec.PrimariesBelow
  dsimp only
  refine ⟨⟨m0, ?_⟩, ⟨m1, ?_⟩, ⟨m2, ?_⟩, ⟨m3, ?_⟩, ⟨m4, ?_⟩, ⟨m5, ?_⟩, ⟨m6, ?_⟩, ⟨m7, ?_⟩, ⟨m8, ?_⟩⟩ <;> linarith

/-- C124 [R]: storing a `DCI_P3` or `DCI_P3_D65` colour in 8 bits moves it by at most 3.59 in `delta_E_1976`, with respect to
the white of the space, and in 16 bits by at most 0.014. -/
theorem C124_p3 (r : Res (ColorSpaceRGB ℝ)) (hr : r = Shipped.dciP3 ratLit ∨ r = Shipped.dciP3D65 ratLit) :
    ∃ cs, r = .ok cs ∧ ∀ c : RGBf ℝ, Spec.InRange c →
      let lab := fun c => xyzToLab (rgbToXyz cs.xf_rgb_to_xyz (cs.decode c)) (XYZ.fromXy cs.white.x cs.white.y)
      deltaE1976 (lab c) (lab c.toU8.toF) ≤ 3.59 ∧ deltaE1976 (lab c) (lab c.toU16.toF) ≤ 0.014 := by
  have key : ∀ (w : XYY ℝ) (o : RGBf ℝ → RGBf ℝ) (cs : ColorSpaceRGB ℝ),
      0 < w.x → 0 < w.y → w.x + w.y < 1 →
      Spec.Inside ⟨ratLit 0.680, ratLit 0.320, ratLit 1.0⟩ ⟨ratLit 0.265, ratLit 0.690, ratLit 1.0⟩
        ⟨ratLit 0.150, ratLit 0.060, ratLit 1.0⟩ w →
      ColorSpaceRGB.new ⟨ratLit 0.680, ratLit 0.320, ratLit 1.0⟩ ⟨ratLit 0.265, ratLit 0.690, ratLit 1.0⟩
        ⟨ratLit 0.150, ratLit 0.060, ratLit 1.0⟩ w o (fun c => c.powf (ratLit 2.6)) = .ok cs →
      IsInverse cs.xf_xyz_to_rgb cs.xf_rgb_to_xyz → ∀ c : RGBf ℝ, Spec.InRange c →
      let lab := fun c => xyzToLab (rgbToXyz cs.xf_rgb_to_xyz (cs.decode c)) (XYZ.fromXy cs.white.x cs.white.y)
      deltaE1976 (lab c) (lab c.toU8.toF) ≤ 3.59 ∧ deltaE1976 (lab c) (lab c.toU16.toF) ≤ 0.014 := by
    intro w o cs wx wy wz hin hcs hi c hc lab
    have hp := C124_derived _ _ _ _ _ _ cs hcs hi wy ⟨by norm_num, by norm_num, by norm_num⟩
      ⟨by norm_num, by norm_num, by norm_num⟩ ⟨by norm_num, by norm_num, by norm_num⟩ hin
    have hwh : cs.white = w := (new_ok hcs).2.2
    have hdec : cs.eotf = fun c => c.powf (ratLit 2.6) := (new_transfer _ _ _ _ _ _ hcs).2
    have hX : (XYZ.fromXy w.x w.y : XYZ ℝ) = ⟨100 * (w.x / w.y), 100, 100 * ((1 - w.x - w.y) / w.y)⟩ := by
      ext <;> simp [XYZ.fromXy, XYZ.fromChromaticity, Flt.one] <;> ring
    have z0 : 0 < 1 - w.x - w.y := by linarith
    obtain ⟨⟨r0, r1⟩, ⟨g0, g1⟩, ⟨b0, b1⟩⟩ := hc
    have n8 : ∀ {x : ℝ}, 0 ≤ x → x ≤ 1 → |x - unquant8 (quant8 x)| ≤ 1 / (2 * 255) := fun h0 h1 => by
      rw [unq8]; exact code_near (by norm_num) (C05_quant8_nearest_real _ h0 h1)
    have n16 : ∀ {x : ℝ}, 0 ≤ x → x ≤ 1 → |x - unquant16 (quant16 x)| ≤ 1 / (2 * 65535) := fun h0 h1 => by
      rw [unq16]; exact code_near (by norm_num) (C05_quant16_nearest_real _ h0 h1)
    have p8 : ∀ n : UInt8, (0:ℝ) ≤ unquant8 n := fun n => by rw [unq8]; positivity
    have p16 : ∀ n : UInt16, (0:ℝ) ≤ unquant16 n := fun n => by rw [unq16]; positivity
    have pw := fun (u v : RGBf ℝ) hu hv δ hr hg hb => C124_power (γ := ratLit 2.6) (by norm_num) (by norm_num)
      cs.xf_rgb_to_xyz (XYZ.fromXy w.x w.y) (by rw [hX]; dsimp only; positivity) (by rw [hX]; norm_num)
      (by rw [hX]; dsimp only; positivity) hp u v hu hv (δ := δ) hr hg hb
    have a := pw c c.toU8.toF ⟨r0, g0, b0⟩ ⟨p8 _, p8 _, p8 _⟩ _ (n8 r0 r1) (n8 g0 g1) (n8 b0 b1)
    have b := pw c c.toU16.toF ⟨r0, g0, b0⟩ ⟨p16 _, p16 _, p16 _⟩ _ (n16 r0 r1) (n16 g0 g1) (n16 b0 b1)
    have k : (29 / 6 : ℝ) ^ (3 / (ratLit 2.6 : ℝ) - 1) ≤ 1.275 := by
      rw [show 3 / (ratLit 2.6 : ℝ) - 1 = ((2:ℕ):ℝ) / ((13:ℕ):ℝ) by norm_num]
      exact (rpow_le_iff (by norm_num) (by norm_num) 2 13 (by norm_num)).2 (by norm_num)
    have e : ∀ {δ : ℝ}, 0 ≤ δ → 551 * (ratLit 2.6 : ℝ) * (29 / 6) ^ (3 / (ratLit 2.6 : ℝ) - 1) * δ ≤ 1827 * δ := by
      intro δ hδ
      refine mul_le_mul_of_nonneg_right ?_ hδ
      generalize (29 / 6 : ℝ) ^ (3 / (ratLit 2.6 : ℝ) - 1) = Q at *
      norm_num at k ⊢
      linarith
    simp only [lab, ColorSpaceRGB.decode, hdec, hwh]
    exact ⟨a.trans ((e (by norm_num)).trans (by norm_num)), b.trans ((e (by norm_num)).trans (by norm_num))⟩
  obtain ⟨-, -, -, ⟨c1, e1, i1, -⟩, ⟨c2, e2, i2, -⟩, -⟩ := C66_derived_real
  rcases hr with rfl | rfl
  · exact ⟨c1, e1, key _ _ c1 (by norm_num) (by norm_num) (by norm_num) (by unfold Spec.Inside tri; norm_num) e1 i1⟩
  · exact ⟨c2, e2, key _ _ c2 (by norm_num) (by norm_num) (by norm_num) (by unfold Spec.Inside tri; norm_num) e2 i2⟩

/-- Not vacuous: the primaries and the white of `DCI_P3_D65`. -/
example : Spec.Physical ⟨0.680, 0.320, 1⟩ ∧ Spec.Inside ⟨0.680, 0.320, 1⟩ ⟨0.265, 0.690, 1⟩ ⟨0.150, 0.060, 1⟩ ⟨0.3127, 0.3290, 1⟩ := by
  unfold Spec.Physical Spec.Inside tri; norm_num

end CS

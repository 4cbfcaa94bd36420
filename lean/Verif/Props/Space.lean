import Verif.Props.Cat
import Verif.Lemmas.Planes
import Verif.Model.Shipped

/-!
# Colour spaces and conversions (C19 - C25, C65, C66)
-/

namespace CS
open Spec

/-! ## C19 -/

theorem new_ok {T : Type} [Add T] [Sub T] [Mul T] [Div T] [Neg T] [Flt T] {r g b w : XYY T}
    {o e : RGBf T → RGBf T} {cs : ColorSpaceRGB T}
    (h : ColorSpaceRGB.new r g b w o e = .ok cs) :
    cs.xf_xyz_to_rgb = buildXyzToRgbMatrix r g b w ∧
      cs.xf_xyz_to_rgb.inverse = some cs.xf_rgb_to_xyz ∧ cs.white = w := by
  unfold ColorSpaceRGB.new at h
  dsimp only at h
  cases hi : (buildXyzToRgbMatrix r g b w).inverse with
  | none => rw [hi] at h; cases h
  | some n => rw [hi] at h; cases h; exact ⟨rfl, hi, rfl⟩

/-- the matrix built by `build_xyz_to_rgb_matrix`, with the white scalings named -/
theorem build_eq (r g b w : XYY ℝ) (hw : w.y ≠ 0) (h1 : tri w g b ≠ 0) (h2 : tri r w b ≠ 0)
    (h3 : tri r g w ≠ 0) :
    buildXyzToRgbMatrix r g b w =
      ⟨(g.y * (1 - (b.x + b.y)) - b.y * (1 - (g.x + g.y))) * w.y / tri w g b,
       (b.x * (1 - (g.x + g.y)) - g.x * (1 - (b.x + b.y))) * w.y / tri w g b,
       (g.x * b.y - b.x * g.y) * w.y / tri w g b,
       (b.y * (1 - (r.x + r.y)) - r.y * (1 - (b.x + b.y))) * w.y / tri r w b,
       (r.x * (1 - (b.x + b.y)) - b.x * (1 - (r.x + r.y))) * w.y / tri r w b,
       (b.x * r.y - r.x * b.y) * w.y / tri r w b,
       (r.y * (1 - (g.x + g.y)) - g.y * (1 - (r.x + r.y))) * w.y / tri r g w,
       (g.x * (1 - (r.x + r.y)) - r.x * (1 - (g.x + g.y))) * w.y / tri r g w,
       (r.x * g.y - g.x * r.y) * w.y / tri r g w⟩ := by
  simp only [buildXyzToRgbMatrix, flt_lit]
  have e1 : ((g.y * (1 - (b.x + b.y)) - b.y * (1 - (g.x + g.y))) * w.x +
      (b.x * (1 - (g.x + g.y)) - g.x * (1 - (b.x + b.y))) * w.y +
      (g.x * b.y - b.x * g.y) * (1 - (w.x + w.y))) = tri w g b := by unfold tri; ring
  have e2 : ((b.y * (1 - (r.x + r.y)) - r.y * (1 - (b.x + b.y))) * w.x +
      (r.x * (1 - (b.x + b.y)) - b.x * (1 - (r.x + r.y))) * w.y +
      (b.x * r.y - r.x * b.y) * (1 - (w.x + w.y))) = tri r w b := by unfold tri; ring
  have e3 : ((r.y * (1 - (g.x + g.y)) - g.y * (1 - (r.x + r.y))) * w.x +
      (g.x * (1 - (r.x + r.y)) - r.x * (1 - (g.x + g.y))) * w.y +
      (r.x * g.y - g.x * r.y) * (1 - (w.x + w.y))) = tri r g w := by unfold tri; ring
  norm_num only [Rat.cast_one]
  rw [e1, e2, e3]
  ext <;> dsimp only <;> field_simp

/-- C19 [R]: if white is on none of the lines through two primaries and `white.y ≠ 0`, the matrix
of the constructed space sends the white (of luminance 1, i.e. XYZ y = 100) to (1,1,1) and each
primary to its own axis; the multiple is non-zero when the primaries are not collinear. -/
theorem C19_white_and_primaries (r g b w : XYY ℝ) (o e : RGBf ℝ → RGBf ℝ) (cs : ColorSpaceRGB ℝ)
    (hcs : ColorSpaceRGB.new r g b w o e = .ok cs)
    (hw : w.y ≠ 0) (h1 : tri w g b ≠ 0) (h2 : tri r w b ≠ 0) (h3 : tri r g w ≠ 0) :
    xyzToRgb cs.xf_xyz_to_rgb (XYZ.fromXy w.x w.y) = ⟨1, 1, 1⟩ ∧
    (∃ k, cs.xf_xyz_to_rgb * (⟨r.x, r.y, 1 - r.x - r.y⟩ : XYZ ℝ) = ⟨k, 0, 0⟩ ∧
      (tri r g b ≠ 0 → k ≠ 0)) ∧
    (∃ k, cs.xf_xyz_to_rgb * (⟨g.x, g.y, 1 - g.x - g.y⟩ : XYZ ℝ) = ⟨0, k, 0⟩ ∧
      (tri r g b ≠ 0 → k ≠ 0)) ∧
    (∃ k, cs.xf_xyz_to_rgb * (⟨b.x, b.y, 1 - b.x - b.y⟩ : XYZ ℝ) = ⟨0, 0, k⟩ ∧
      (tri r g b ≠ 0 → k ≠ 0)) := by
  rw [(new_ok hcs).1, build_eq r g b w hw h1 h2 h3]
  have hn : ∀ t, tri r g b ≠ 0 → t ≠ 0 → tri r g b * w.y / t ≠ 0 := by
    intro t ht ht'; exact div_ne_zero (mul_ne_zero ht hw) ht'
  refine ⟨?_, ⟨tri r g b * w.y / tri w g b, ?_, fun h => hn _ h h1⟩,
    ⟨tri r g b * w.y / tri r w b, ?_, fun h => hn _ h h2⟩,
    ⟨tri r g b * w.y / tri r g w, ?_, fun h => hn _ h h3⟩⟩
  · have hxy : (XYZ.fromXy w.x w.y : XYZ ℝ) / (XYZ.fromScalar (Flt.lit 100.0) : XYZ ℝ)
        = ⟨w.x / w.y, 1, (1 - w.x - w.y) / w.y⟩ := by
      ext <;> simp [XYZ.fromXy, XYZ.fromChromaticity, XYZ.fromScalar, Flt.one] <;> norm_num
    unfold xyzToRgb
    rw [hxy, mulX_def]
    simp only
    ext <;> dsimp only <;> field_simp <;> unfold tri <;> ring
  · rw [mulX_def]
    ext <;> dsimp only <;> field_simp <;> unfold tri <;> ring
  · rw [mulX_def]
    ext <;> dsimp only <;> field_simp <;> unfold tri <;> ring
  · rw [mulX_def]
    ext <;> dsimp only <;> field_simp <;> unfold tri <;> ring

/-! ## C20 -/

/-- C20 [R], partial: the two matrices of a space built by `new` are mutually inverse unless the
XYZ->RGB matrix has last column entries `≤ eps, ≤ eps, within eps of 1`. Missing: those spaces,
where the claim is false (`C20_counterexample`). -/
theorem C20_mutually_inverse_partial (r g b w : XYY ℝ) (o e : RGBf ℝ → RGBf ℝ)
    (cs : ColorSpaceRGB ℝ) (hcs : ColorSpaceRGB.new r g b w o e = .ok cs)
    (h : (2:ℝ) ^ (-52 : ℤ) < cs.xf_xyz_to_rgb.x2 ∨ (2:ℝ) ^ (-52 : ℤ) < cs.xf_xyz_to_rgb.x5 ∨
      (2:ℝ) ^ (-52 : ℤ) < |cs.xf_xyz_to_rgb.x8 - 1|) :
    cs.xf_xyz_to_rgb * cs.xf_rgb_to_xyz = Matrix33.identity ∧
      cs.xf_rgb_to_xyz * cs.xf_xyz_to_rgb = Matrix33.identity := by
  obtain ⟨-, hi, -⟩ := new_ok hcs
  rw [inverse_general h] at hi
  have h0 := scaleBy_ne_zero hi
  obtain ⟨-, hs⟩ := (scaleBy_some_iff _ _ _).1 hi
  rw [hs, ← isInverse_iff]
  apply isInverse_of_left
  rw [map_div_get, Matrix.smul_mul, cof_mul, smul_smul, inv_mul_cancel₀ h0, one_smul]

/-- C20 [R], counterexample: with primaries (1,0), (0,1), (0,0) and white (0.4, 0.3) construction
succeeds but the product of the two matrices is diag(1, 1, 4/3). -/
theorem C20_counterexample (o e : RGBf ℝ → RGBf ℝ) :
    ∃ cs, ColorSpaceRGB.new (⟨1, 0, 1⟩ : XYY ℝ) ⟨0, 1, 1⟩ ⟨0, 0, 1⟩ ⟨0.4, 0.3, 1⟩ o e = .ok cs ∧
      cs.xf_xyz_to_rgb * cs.xf_rgb_to_xyz = ⟨1, 0, 0, 0, 1, 0, 0, 0, 4/3⟩ := by
  have hb : buildXyzToRgbMatrix (⟨1, 0, 1⟩ : XYY ℝ) ⟨0, 1, 1⟩ ⟨0, 0, 1⟩ ⟨0.4, 0.3, 1⟩
      = ⟨3/4, 0, 0, 0, 1, 0, 0, 0, 1⟩ := by
    rw [build_eq _ _ _ _ (by norm_num) (by norm_num [tri]) (by norm_num [tri])
      (by norm_num [tri])]
    norm_num [tri]
  have h : ¬ GeneralCase (⟨3/4, 0, 0, 0, 1, 0, 0, 0, 1⟩ : Matrix33 ℝ) := by
    unfold GeneralCase; norm_num
  have hpos : (0:ℝ) < 2 ^ (-1022 : ℤ) := zpow_pos (by norm_num) _
  have hn : (⟨3/4, 0, 0, 0, 1, 0, 0, 0, 1⟩ : Matrix33 ℝ).inverse
      = some ⟨4/3, 0, 0, 0, 1, 0, 0, 0, 4/3⟩ := by
    rw [inverse_affine h]
    refine ⟨Or.inr ?_, by norm_num [affineInv, det2]⟩
    have hle : (2:ℝ) ^ (-1022 : ℤ) ≤ 2 ^ (-1 : ℤ) := zpow_le_zpow_right₀ (by norm_num) (by norm_num)
    have hd : |det2 ⟨3/4, 0, 0, 0, 1, 0, 0, 0, 1⟩| = 3/4 := by norm_num [det2, abs_of_pos]
    rw [hd]
    have hgt : (1:ℝ) < 3/4 / 2 ^ (-1022 : ℤ) := by
      rw [lt_div_iff₀ hpos]
      calc 1 * (2:ℝ) ^ (-1022 : ℤ) ≤ 2 ^ (-1 : ℤ) := by rw [one_mul]; exact hle
        _ < 3/4 := by norm_num
    intro x hx
    simp only [List.mem_cons, List.not_mem_nil, or_false] at hx
    rcases hx with rfl | rfl | rfl | rfl | rfl <;> refine lt_of_le_of_lt ?_ hgt <;>
      norm_num [abs_of_pos]
  refine ⟨⟨⟨3/4, 0, 0, 0, 1, 0, 0, 0, 1⟩, ⟨4/3, 0, 0, 0, 1, 0, 0, 0, 4/3⟩,
    ⟨1, 0, 1⟩, ⟨0, 1, 1⟩, ⟨0, 0, 1⟩, ⟨0.4, 0.3, 1⟩, o, e⟩, ?_, ?_⟩
  · unfold ColorSpaceRGB.new
    simp only [hb, hn]
    rfl
  · rw [mul_def]; norm_num

/-! ## C21 -/

/-- C21 [R]: XYZ -> RGB -> XYZ is the identity, for every space with mutually inverse matrices,
every reference white and every colour. -/
theorem C21_xyz_rgb_xyz (w : XYY ℝ) (cs : ColorSpaceRGB ℝ)
    (hi : IsInverse cs.xf_xyz_to_rgb cs.xf_rgb_to_xyz)
    (hw : Cat02NonDegenerate (XYZ.fromChromaticity w))
    (hc : Cat02NonDegenerate (XYZ.fromChromaticity cs.white)) :
    ∃ m n, xyzToRgbMatrix w cs = .ok m ∧ rgbToXyzMatrix w cs = .ok n ∧
      (∀ v : XYZ ℝ, rgbToXyz n (xyzToRgb m v) = v) ∧
      (∀ c : RGBf ℝ, xyzToRgb m (rgbToXyz n c) = c) := by
  obtain ⟨ab, ba, e1, e2, e3⟩ := C17_cat02_inverse _ _ hw hc
  obtain ⟨ba', ab', e2', e1', e4⟩ := C17_cat02_inverse _ _ hc hw
  rw [e1] at e1'; cases e1'
  rw [e2] at e2'; cases e2'
  rw [isInverse_iff] at hi
  refine ⟨cs.xf_xyz_to_rgb * ab, ba * cs.xf_rgb_to_xyz, ?_, ?_, ?_, ?_⟩
  · unfold xyzToRgbMatrix; rw [e1]; rfl
  · unfold rgbToXyzMatrix; rw [e2]; rfl
  · intro v
    have hmn : (ba * cs.xf_rgb_to_xyz) * (cs.xf_xyz_to_rgb * ab) = Matrix33.identity := by
      rw [m33_mul_assoc, ← m33_mul_assoc cs.xf_rgb_to_xyz, hi.2, m33_one_mul, e3]
    set n := ba * cs.xf_rgb_to_xyz
    set m := cs.xf_xyz_to_rgb * ab
    have hv : n * (m * (v / (XYZ.fromScalar (Flt.lit 100.0) : XYZ ℝ)))
        = v / (XYZ.fromScalar (Flt.lit 100.0) : XYZ ℝ) := by
      rw [← m33_mul_mulX, hmn, m33_one_mulX]
    unfold rgbToXyz xyzToRgb
    simp only
    set u := m * (v / (XYZ.fromScalar (Flt.lit 100.0) : XYZ ℝ)) with hu
    have h1 := congrArg XYZ.x hv
    have h2 := congrArg XYZ.y hv
    have h3 := congrArg XYZ.z hv
    simp only [XYZ.mmul_x, XYZ.mmul_y, XYZ.mmul_z, XYZ.div_x, XYZ.div_y, XYZ.div_z,
      XYZ.fromScalar] at h1 h2 h3
    ext
    · simp only [XYZ.mul_x, RGBf.mmul_r, XYZ.fromScalar, h1]; simp; norm_num
    · simp only [XYZ.mul_y, RGBf.mmul_g, XYZ.fromScalar, h2]; simp; norm_num
    · simp only [XYZ.mul_z, RGBf.mmul_b, XYZ.fromScalar, h3]; simp; norm_num
  · intro c
    have hmn : (cs.xf_xyz_to_rgb * ab) * (ba * cs.xf_rgb_to_xyz) = Matrix33.identity := by
      rw [m33_mul_assoc, ← m33_mul_assoc ab, e4, m33_one_mul, hi.1]
    set n := ba * cs.xf_rgb_to_xyz
    set m := cs.xf_xyz_to_rgb * ab
    have hv : m * (n * c) = c := by rw [← m33_mul_mulR, hmn, m33_one_mulR]
    unfold rgbToXyz xyzToRgb
    simp only
    have hx : ((⟨(n * c).r, (n * c).g, (n * c).b⟩ : XYZ ℝ) * (XYZ.fromScalar (Flt.lit 100.0)))
        / (XYZ.fromScalar (Flt.lit 100.0) : XYZ ℝ) = ⟨(n * c).r, (n * c).g, (n * c).b⟩ := by
      ext <;> simp [XYZ.fromScalar] <;> norm_num
    rw [hx]
    have h1 := congrArg RGBf.r hv
    have h2 := congrArg RGBf.g hv
    have h3 := congrArg RGBf.b hv
    ext
    · simpa only [RGBf.mmul_r, XYZ.mmul_x] using h1
    · simpa only [RGBf.mmul_g, XYZ.mmul_y] using h2
    · simpa only [RGBf.mmul_b, XYZ.mmul_z] using h3

/-! ## C22 -/

/-- C22 [R]: converting a space to itself is the identity matrix. -/
theorem C22_self (a : ColorSpaceRGB ℝ) (hi : IsInverse a.xf_xyz_to_rgb a.xf_rgb_to_xyz) :
    rgbToRgbMatrix a a = .ok Matrix33.identity := by
  unfold rgbToRgbMatrix
  rw [(C15_equal_whites_real _).1]
  show Except.ok _ = _
  rw [m33_mul_one, ((isInverse_iff _ _).1 hi).1]

/-- C22 [R]: A -> B -> C is A -> C. -/
theorem C22_compose (a b c : ColorSpaceRGB ℝ) (hb : IsInverse b.xf_xyz_to_rgb b.xf_rgb_to_xyz)
    (wa : Cat02NonDegenerate (XYZ.fromChromaticity a.white))
    (wb : Cat02NonDegenerate (XYZ.fromChromaticity b.white)) :
    ∃ ab bc ac, rgbToRgbMatrix a b = .ok ab ∧ rgbToRgbMatrix b c = .ok bc ∧
      rgbToRgbMatrix a c = .ok ac ∧ bc * ab = ac := by
  obtain ⟨ab, bc, ac, e1, e2, e3, e4⟩ := C17_cat02_transitive _ _
    (XYZ.fromChromaticity c.white) wa wb
  refine ⟨b.xf_xyz_to_rgb * ab * a.xf_rgb_to_xyz, c.xf_xyz_to_rgb * bc * b.xf_rgb_to_xyz,
    c.xf_xyz_to_rgb * ac * a.xf_rgb_to_xyz, ?_, ?_, ?_, ?_⟩
  · unfold rgbToRgbMatrix; rw [e1]; rfl
  · unfold rgbToRgbMatrix; rw [e2]; rfl
  · unfold rgbToRgbMatrix; rw [e3]; rfl
  · rw [isInverse_iff] at hb
    calc c.xf_xyz_to_rgb * bc * b.xf_rgb_to_xyz * (b.xf_xyz_to_rgb * ab * a.xf_rgb_to_xyz)
        = c.xf_xyz_to_rgb * bc * (b.xf_rgb_to_xyz * b.xf_xyz_to_rgb) * ab * a.xf_rgb_to_xyz := by
          simp only [m33_mul_assoc]
      _ = c.xf_xyz_to_rgb * (bc * ab) * a.xf_rgb_to_xyz := by
          rw [hb.2, m33_mul_one, m33_mul_assoc c.xf_xyz_to_rgb]
      _ = _ := by rw [e4]

/-- C22 [R]: A -> B -> A is the identity. -/
theorem C22_there_and_back (a b : ColorSpaceRGB ℝ)
    (ha : IsInverse a.xf_xyz_to_rgb a.xf_rgb_to_xyz)
    (hb : IsInverse b.xf_xyz_to_rgb b.xf_rgb_to_xyz)
    (wa : Cat02NonDegenerate (XYZ.fromChromaticity a.white))
    (wb : Cat02NonDegenerate (XYZ.fromChromaticity b.white)) :
    ∃ ab ba, rgbToRgbMatrix a b = .ok ab ∧ rgbToRgbMatrix b a = .ok ba ∧
      ba * ab = Matrix33.identity := by
  obtain ⟨ab, ba, aa, e1, e2, e3, e4⟩ := C22_compose a b a hb wa wb
  rw [C22_self a ha] at e3; cases e3
  exact ⟨ab, ba, e1, e2, e4⟩

/-- C22 [R]: A's (1,1,1) goes to (Y_B / Y_A) (1,1,1), where Y is the luminance recorded in each
space's white point; so for whites of equal luminance (all shipped spaces) white goes to white.
`hA`, `hB` say that (1,1,1) is the unit-luminance white in each space. -/
theorem C22_white (a b : ColorSpaceRGB ℝ)
    (hb : IsInverse b.xf_xyz_to_rgb b.xf_rgb_to_xyz)
    (hA : rgbToXyz a.xf_rgb_to_xyz ⟨1, 1, 1⟩ = XYZ.fromXy a.white.x a.white.y)
    (hB : rgbToXyz b.xf_rgb_to_xyz ⟨1, 1, 1⟩ = XYZ.fromXy b.white.x b.white.y)
    (wa : Cat02NonDegenerate (XYZ.fromChromaticity a.white)) (hY : a.white.Y ≠ 0) :
    ∃ ab, rgbToRgbMatrix a b = .ok ab ∧
      ab * (⟨1, 1, 1⟩ : RGBf ℝ) = ⟨b.white.Y / a.white.Y, b.white.Y / a.white.Y,
        b.white.Y / a.white.Y⟩ := by
  obtain ⟨MAi, h⟩ := goodCone_cat02
  obtain ⟨ab, e1, e2⟩ := catWith_white h (XYZ.fromChromaticity a.white)
    (XYZ.fromChromaticity b.white) (cat02_cone.1 wa)
  refine ⟨b.xf_xyz_to_rgb * ab * a.xf_rgb_to_xyz, ?_, ?_⟩
  · unfold rgbToRgbMatrix
    exact congrArg (fun r => r >>= _) e1
  · have vA : (toM a.xf_rgb_to_xyz).mulVec (vecR ⟨1, 1, 1⟩)
        = (100 * a.white.Y)⁻¹ • vecX (XYZ.fromChromaticity a.white) := by
      rw [← vecR_mul]
      have h1 := congrArg XYZ.x hA; have h2 := congrArg XYZ.y hA; have h3 := congrArg XYZ.z hA
      simp [rgbToXyz, XYZ.fromXy, XYZ.fromChromaticity, XYZ.fromScalar, Flt.one] at h1 h2 h3
      norm_num at h1 h2 h3
      ext i
      fin_cases i <;>
        simp [vecR, vecX, XYZ.fromChromaticity, Flt.one, h1, h2, h3] <;> field_simp
    have vB : (toM b.xf_xyz_to_rgb).mulVec (vecX (XYZ.fromChromaticity b.white))
        = (100 * b.white.Y) • vecR ⟨1, 1, 1⟩ := by
      have vB' : (100 * b.white.Y) • (toM b.xf_rgb_to_xyz).mulVec (vecR ⟨1, 1, 1⟩)
          = vecX (XYZ.fromChromaticity b.white) := by
        rw [← vecR_mul]
        have h1 := congrArg XYZ.x hB; have h2 := congrArg XYZ.y hB; have h3 := congrArg XYZ.z hB
        simp [rgbToXyz, XYZ.fromXy, XYZ.fromChromaticity, XYZ.fromScalar, Flt.one] at h1 h2 h3
        norm_num at h1 h2 h3
        ext i
        fin_cases i <;>
          simp [vecR, vecX, XYZ.fromChromaticity, Flt.one, h1, h2, h3] <;> ring
      rw [← vB', Matrix.mulVec_smul, Matrix.mulVec_mulVec, hb.1, Matrix.one_mulVec]
    have vC : (toM ab).mulVec (vecX (XYZ.fromChromaticity a.white))
        = vecX (XYZ.fromChromaticity b.white) := by rw [← vecX_mul, e2]
    apply vecR_inj
    rw [vecR_mul, toM_mul, toM_mul, ← Matrix.mulVec_mulVec, ← Matrix.mulVec_mulVec, vA,
      Matrix.mulVec_smul, vC, Matrix.mulVec_smul, vB, smul_smul]
    ext i
    fin_cases i <;> simp [vecR] <;> field_simp

/-! ## C23, C24 -/

section
variable {T : Type} [Add T] [Sub T] [Mul T] [Div T] [Neg T] [Flt T]

omit [Add T] [Sub T] [Mul T] [Div T] [Neg T] [Flt T] in
theorem convLoop_spec {U : Type} (g : RGBf T → U) : ∀ (dest : List U) (frm : List (RGBf T)),
    (convLoop g dest frm).2 = min frm.length dest.length ∧
    (convLoop g dest frm).1.length = dest.length ∧
    (∀ (i : ℕ) (c : RGBf T), frm[i]? = some c → i < dest.length →
      (convLoop g dest frm).1[i]? = some (g c)) ∧
    (∀ i, frm.length ≤ i → (convLoop g dest frm).1[i]? = dest[i]?)
  | [], frm => by cases frm <;> simp [convLoop]
  | t :: ts, [] => by simp [convLoop]
  | t :: ts, c :: cs => by
    obtain ⟨h1, h2, h3, h4⟩ := convLoop_spec g ts cs
    refine ⟨by simp [convLoop, h1], by simp [convLoop, h2], ?_, ?_⟩
    · intro i c' hc hi
      cases i with
      | zero => simp [convLoop] at hc ⊢; rw [hc]
      | succ i => simpa [convLoop] using h3 i c' (by simpa using hc) (by simpa using hi)
    · intro i hi
      cases i with
      | zero => simp at hi
      | succ i => simpa [convLoop] using h4 i (by simpa using hi)

/-- C23 [G]: `rgb_to_rgb` converts exactly the common prefix, reports its length, and leaves every
later output element untouched. It panics only if building the matrix does. -/
theorem C23_common_prefix {U : Type} (into : RGBf T → U) (src dst : ColorSpaceRGB T)
    (frm : List (RGBf T)) (dest : List U) :
    (∀ p, rgbToRgbMatrix src dst = .error p → rgbToRgb into src dst frm dest = .error p) ∧
    (∀ m, rgbToRgbMatrix src dst = .ok m → ∃ out, rgbToRgb into src dst frm dest
        = .ok (out, min frm.length dest.length) ∧ out.length = dest.length ∧
      (∀ (i : ℕ) (c : RGBf T), frm[i]? = some c → i < dest.length →
        out[i]? = some (into (dst.oetf (m * src.eotf c)))) ∧
      (∀ i, frm.length ≤ i → out[i]? = dest[i]?)) := by
  constructor
  · intro p hp; unfold rgbToRgb; rw [hp]; rfl
  · intro m hm
    obtain ⟨h1, h2, h3, h4⟩ :=
      convLoop_spec (fun c => into (dst.encode (m * src.decode c))) dest frm
    refine ⟨_, ?_, h2, h3, h4⟩
    unfold rgbToRgb
    rw [hm]
    exact congrArg Except.ok (Prod.ext rfl h1)

/-- C23 [F]: in binary32 and binary64 `rgb_to_rgb` never panics. -/
theorem C23_never_panics [Libm Fmt.b32] [Libm Fmt.b64] {U : Type} :
    (∀ (into : RGBf (FP Fmt.b32) → U) src dst frm dest,
      ∃ r, rgbToRgb into src dst frm dest = .ok r) ∧
    (∀ (into : RGBf (FP Fmt.b64) → U) src dst frm dest,
      ∃ r, rgbToRgb into src dst frm dest = .ok r) := by
  refine ⟨fun into src dst frm dest => ?_, fun into src dst frm dest => ?_⟩
  · obtain ⟨m, hm⟩ := (C18_no_panic_ieee.1 (XYZ.fromChromaticity src.white)
      (XYZ.fromChromaticity dst.white)).1
    unfold rgbToRgb rgbToRgbMatrix; rw [hm]; exact ⟨_, rfl⟩
  · obtain ⟨m, hm⟩ := (C18_no_panic_ieee.2 (XYZ.fromChromaticity src.white)
      (XYZ.fromChromaticity dst.white)).1
    unfold rgbToRgb rgbToRgbMatrix; rw [hm]; exact ⟨_, rfl⟩

theorem foldl_push {α β : Type} (g : α → β) (l : List α) (acc : List β) :
    l.foldl (fun r v => r ++ [g v]) acc = acc ++ l.map g := by
  induction l generalizing acc with
  | nil => simp
  | cons a l ih => simp [ih]

/-- C24 [G]: batch conversion is one-by-one conversion, bit for bit. -/
theorem C24_slice_eq (m : Matrix33 T) (xs : List (XYZ T)) :
    (xyzSliceToRgb m xs).length = xs.length ∧
      ∀ (i : ℕ) (v : XYZ T), xs[i]? = some v → (xyzSliceToRgb m xs)[i]? = some (xyzToRgb m v) := by
  have h : xyzSliceToRgb m xs = xs.map (xyzToRgb m) := by
    unfold xyzSliceToRgb
    rw [foldl_push (fun v => (⟨_, _, _⟩ : RGBf T))]
    rfl
  rw [h]
  exact ⟨by simp, fun i v hv => by simp [hv]⟩

end

/-- Not vacuous: a 3-colour input into a 2-element output. -/
example : convLoop (T := ℝ) (fun c => c.r) [(7:ℝ), 8] [⟨1, 0, 0⟩, ⟨2, 0, 0⟩, ⟨3, 0, 0⟩]
    = ([1, 2], 2) := rfl

/-! ## C25: the planar SIMD conversion

The full statement (every element is converted) is false: `start_remaining` is computed as
`len - len / W` instead of `len - len % W`. -/

/-- C25 [G]: what the routine does in any arithmetic: for planes of equal length it never reads out
of bounds, returns as many elements, computes the last `len / W` elements by the scalar formula,
the other elements below `(len / W) * W` by the vector formula, and leaves the rest zero. -/
theorem C25_planes_exact {T : Type} [Add T] [Sub T] [Mul T] [Div T] [Neg T] [Flt T]
    (W : ℕ) (fma : T → T → T → T) (m : Matrix33 T) (xs ys zs : List T)
    (hy : ys.length = xs.length) (hz : zs.length = xs.length) :
    ∃ res, xyzPlanesToRgb W fma m xs ys zs = .ok res ∧ res.length = xs.length ∧
      ∀ (i : ℕ) (x y z : T), xs[i]? = some x → ys[i]? = some y → zs[i]? = some z →
        res[i]? = some (
          if xs.length - xs.length / W ≤ i then planeTail m x y z
          else if i < xs.length / W * W then planeKernel fma m x y z
          else (Flt.zero, Flt.zero, Flt.zero)) := by
  obtain ⟨res, h1, h2, h3⟩ := planes_spec W fma m xs ys zs hy hz (Flt.zero)
  refine ⟨res, h1, h2, fun i x y z hx hy' hz' => ?_⟩
  have hi : i < xs.length := (List.getElem?_eq_some_iff.1 hx).1
  rw [h3 i hi]
  simp only [List.getD, hx, hy', hz', Option.getD_some]

/-- C25 [R], partial: in exact arithmetic an element gets the colour of the scalar conversion iff
it is in a full block or among the last `len / W`; every other element is left at zero. Missing:
those elements (`C25_planes_counterexample`). For `len` a multiple of `W` all are converted. -/
theorem C25_planes_partial (W : ℕ) (m : Matrix33 ℝ) (xs ys zs : List ℝ)
    (hy : ys.length = xs.length) (hz : zs.length = xs.length) :
    ∃ res, xyzPlanesToRgb W (fun a b c => a * b + c) m xs ys zs = .ok res ∧
      res.length = xs.length ∧
      ∀ (i : ℕ) (x y z : ℝ), xs[i]? = some x → ys[i]? = some y → zs[i]? = some z →
        ((i < xs.length / W * W ∨ xs.length - xs.length / W ≤ i) →
          ∃ c, xyzToRgb m ⟨x, y, z⟩ = c ∧ res[i]? = some (c.r, c.g, c.b)) ∧
        (¬ (i < xs.length / W * W ∨ xs.length - xs.length / W ≤ i) → res[i]? = some (0, 0, 0)) := by
  obtain ⟨res, h1, h2, h3⟩ := C25_planes_exact W (fun a b c => a * b + c) m xs ys zs hy hz
  refine ⟨res, h1, h2, fun i x y z hx hy' hz' => ⟨fun h => ⟨_, rfl, ?_⟩, fun h => ?_⟩⟩
  · have e1 : planeTail m x y z = ((xyzToRgb m ⟨x, y, z⟩).r, (xyzToRgb m ⟨x, y, z⟩).g,
        (xyzToRgb m ⟨x, y, z⟩).b) := by
      simp [planeTail, xyzToRgb, XYZ.fromScalar]
      norm_num
      refine ⟨?_, ?_, ?_⟩ <;> ring
    have e2 : planeKernel (fun a b c => a * b + c) m x y z = planeTail m x y z := by
      simp [planeTail, planeKernel]
      refine ⟨?_, ?_, ?_⟩ <;> ring
    rw [h3 i x y z hx hy' hz', ← e1, e2]
    rcases h with h | h
    · rw [if_pos h, ite_self]
    · rw [if_pos h]
  · push Not at h
    rw [h3 i x y z hx hy' hz', if_neg (by omega), if_neg (by omega)]
    simp [Flt.zero]

/-- C25 [R], counterexample: one non-black colour (any width > 1) comes out black. -/
theorem C25_planes_counterexample (W : ℕ) (hW : 1 < W) :
    xyzPlanesToRgb W (fun a b c => a * b + c) (Matrix33.identity : Matrix33 ℝ) [100] [100] [100]
      = .ok [(0, 0, 0)] ∧ xyzToRgb (Matrix33.identity : Matrix33 ℝ) ⟨100, 100, 100⟩ = ⟨1, 1, 1⟩ := by
  constructor
  · obtain ⟨res, h1, h2, h3⟩ := C25_planes_partial W Matrix33.identity [100] [100] [100] rfl rfl
    rw [h1]
    have h := (h3 0 100 100 100 rfl rfl rfl).2 (by
      have : [(100:ℝ)].length / W = 0 := Nat.div_eq_of_lt hW
      rw [this]; simp)
    match res, h2, h with
    | [a], _, h => simp at h; rw [h]
  · unfold xyzToRgb
    rw [m33_one_mulX]
    ext <;> simp [XYZ.fromScalar] <;> norm_num

/-! ## C65, C66: the shipped spaces -/

/-- an exact decimal literal -/
noncomputable abbrev ratLit : ℚ → ℝ := fun q => (q : ℝ)

/-- converting with `A` and back with `B` moves each component by at most `ε` times the largest -/
def NearInverse (A B : Matrix33 ℝ) (ε : ℝ) : Prop :=
  (∀ v : XYZ ℝ, ∀ M, |v.x| ≤ M → |v.y| ≤ M → |v.z| ≤ M →
    |(B * (A * v)).x - v.x| ≤ ε * M ∧ |(B * (A * v)).y - v.y| ≤ ε * M ∧
    |(B * (A * v)).z - v.z| ≤ ε * M) ∧
  (∀ v : RGBf ℝ, ∀ M, |v.r| ≤ M → |v.g| ≤ M → |v.b| ≤ M →
    |(A * (B * v)).r - v.r| ≤ ε * M ∧ |(A * (B * v)).g - v.g| ≤ ε * M ∧
    |(A * (B * v)).b - v.b| ≤ ε * M)

theorem near_inverse_tac (A B : Matrix33 ℝ) (ε : ℝ) (C D : Matrix33 ℝ) (hC : B * A = C)
    (hD : A * B = D)
    (c0 : |C.x0 - 1| + |C.x1| + |C.x2| ≤ ε) (c1 : |C.x3| + |C.x4 - 1| + |C.x5| ≤ ε)
    (c2 : |C.x6| + |C.x7| + |C.x8 - 1| ≤ ε)
    (d0 : |D.x0 - 1| + |D.x1| + |D.x2| ≤ ε) (d1 : |D.x3| + |D.x4 - 1| + |D.x5| ≤ ε)
    (d2 : |D.x6| + |D.x7| + |D.x8 - 1| ≤ ε) : NearInverse A B ε := by
  have key : ∀ a b c x y z M e : ℝ, |x| ≤ M → |y| ≤ M → |z| ≤ M → |a| + |b| + |c| ≤ e →
      |a * x + b * y + c * z| ≤ e * M := by
    intro a b c x y z M e hx hy hz he
    have hM : 0 ≤ M := le_trans (abs_nonneg _) hx
    calc |a * x + b * y + c * z| ≤ |a * x| + |b * y| + |c * z| := abs_add_three _ _ _
      _ ≤ |a| * M + |b| * M + |c| * M := by
        rw [abs_mul, abs_mul, abs_mul]
        gcongr
      _ = (|a| + |b| + |c|) * M := by ring
      _ ≤ e * M := mul_le_mul_of_nonneg_right he hM
  refine ⟨fun v M hx hy hz => ?_, fun v M hx hy hz => ?_⟩
  · rw [← m33_mul_mulX, hC]
    simp only [XYZ.mmul_x, XYZ.mmul_y, XYZ.mmul_z]
    refine ⟨?_, ?_, ?_⟩
    · rw [show C.x0 * v.x + C.x1 * v.y + C.x2 * v.z - v.x
        = (C.x0 - 1) * v.x + C.x1 * v.y + C.x2 * v.z by ring]
      exact key _ _ _ _ _ _ _ _ hx hy hz c0
    · rw [show C.x3 * v.x + C.x4 * v.y + C.x5 * v.z - v.y
        = C.x3 * v.x + (C.x4 - 1) * v.y + C.x5 * v.z by ring]
      exact key _ _ _ _ _ _ _ _ hx hy hz c1
    · rw [show C.x6 * v.x + C.x7 * v.y + C.x8 * v.z - v.z
        = C.x6 * v.x + C.x7 * v.y + (C.x8 - 1) * v.z by ring]
      exact key _ _ _ _ _ _ _ _ hx hy hz c2
  · rw [← m33_mul_mulR, hD]
    simp only [RGBf.mmul_r, RGBf.mmul_g, RGBf.mmul_b]
    refine ⟨?_, ?_, ?_⟩
    · rw [show D.x0 * v.r + D.x1 * v.g + D.x2 * v.b - v.r
        = (D.x0 - 1) * v.r + D.x1 * v.g + D.x2 * v.b by ring]
      exact key _ _ _ _ _ _ _ _ hx hy hz d0
    · rw [show D.x3 * v.r + D.x4 * v.g + D.x5 * v.b - v.g
        = D.x3 * v.r + (D.x4 - 1) * v.g + D.x5 * v.b by ring]
      exact key _ _ _ _ _ _ _ _ hx hy hz d1
    · rw [show D.x6 * v.r + D.x7 * v.g + D.x8 * v.b - v.b
        = D.x6 * v.r + D.x7 * v.g + (D.x8 - 1) * v.b by ring]
      exact key _ _ _ _ _ _ _ _ hx hy hz d2

/-- C65 [R]: the four published matrix pairs are inverse up to 7e-5 (sRGB), 1.1e-10 (ACES),
1.5e-5 (Adobe RGB) and 2.1e-6 (Alexa Wide Gamut), relative to the largest component. -/
theorem C65_near_inverse :
    NearInverse (Shipped.srgb ratLit).xf_xyz_to_rgb (Shipped.srgb ratLit).xf_rgb_to_xyz 7e-5 ∧
    NearInverse (Shipped.aces ratLit).xf_xyz_to_rgb (Shipped.aces ratLit).xf_rgb_to_xyz 1.1e-10 ∧
    NearInverse (Shipped.adobeRgb1998 ratLit).xf_xyz_to_rgb
      (Shipped.adobeRgb1998 ratLit).xf_rgb_to_xyz 1.5e-5 ∧
    NearInverse (Shipped.alexaWideGamut ratLit).xf_xyz_to_rgb
      (Shipped.alexaWideGamut ratLit).xf_rgb_to_xyz 2.1e-6 := by
  refine ⟨?_, ?_, ?_, ?_⟩ <;> refine near_inverse_tac _ _ _ _ _ rfl rfl ?_ ?_ ?_ ?_ ?_ ?_ <;>
    simp only [mul_def, Shipped.srgb, Shipped.aces, Shipped.adobeRgb1998, Shipped.alexaWideGamut,
      ColorSpaceRGB.newWithMatrices] <;> norm_num [abs_of_pos, abs_of_neg]

/-- A derived space is fine: it constructs, its matrices are mutually inverse, and its white is
(1,1,1). -/
def DerivedOk (r : Res (ColorSpaceRGB ℝ)) : Prop :=
  ∃ cs, r = .ok cs ∧ IsInverse cs.xf_xyz_to_rgb cs.xf_rgb_to_xyz ∧
    xyzToRgb cs.xf_xyz_to_rgb (XYZ.fromXy cs.white.x cs.white.y) = ⟨1, 1, 1⟩

theorem derivedOk_of (r g b w : XYY ℝ) (o e : RGBf ℝ → RGBf ℝ) (m : Matrix33 ℝ)
    (hw : w.y ≠ 0) (h1 : tri w g b ≠ 0) (h2 : tri r w b ≠ 0) (h3 : tri r g w ≠ 0)
    (hm : buildXyzToRgbMatrix r g b w = m)
    (hg : (2:ℝ) ^ (-52 : ℤ) < m.x5)
    (hd : 1 ≤ |m.determinant|) : DerivedOk (ColorSpaceRGB.new r g b w o e) := by
  have hgc : GeneralCase m := Or.inr (Or.inl hg)
  obtain ⟨mi, hmi⟩ := goodCone_of hgc hd
  have hnew : ColorSpaceRGB.new r g b w o e = .ok ⟨m, mi, r, g, b, w, o, e⟩ := by
    unfold ColorSpaceRGB.new
    simp only [hm, hmi.eq]
    rfl
  exact ⟨_, hnew, hmi.inv, (C19_white_and_primaries r g b w o e _ hnew hw h1 h2 h3).1⟩

/-- C66 [R]: the six spaces derived from primaries construct, with mutually inverse matrices and
white at (1,1,1). -/
theorem C66_derived_real :
    DerivedOk (Shipped.srgbDrv ratLit) ∧ DerivedOk (Shipped.bt709 ratLit) ∧
    DerivedOk (Shipped.bt2020 ratLit) ∧ DerivedOk (Shipped.dciP3 ratLit) ∧
    DerivedOk (Shipped.dciP3D65 ratLit) ∧ DerivedOk (Shipped.acesCg ratLit) := by
  refine ⟨?_, ?_, ?_, ?_, ?_, ?_⟩ <;>
    refine derivedOk_of _ _ _ _ _ _ _ ?_ ?_ ?_ ?_ (build_eq _ _ _ _ ?_ ?_ ?_ ?_) ?_ ?_ <;>
    norm_num [tri, Matrix33.determinant, Matrix33.get, abs_of_pos]

/-- the six derived spaces -/
noncomputable def derivedSpaces : List (Res (ColorSpaceRGB ℝ)) :=
  [Shipped.srgbDrv ratLit, Shipped.bt709 ratLit, Shipped.bt2020 ratLit, Shipped.dciP3 ratLit,
   Shipped.dciP3D65 ratLit, Shipped.acesCg ratLit]

theorem derived_white (r : Res (ColorSpaceRGB ℝ)) (hr : r ∈ derivedSpaces) :
    DerivedOk r ∧ ∀ cs, r = .ok cs → Cat02NonDegenerate (XYZ.fromChromaticity cs.white) ∧
      cs.white.Y = 1 := by
  obtain ⟨h1, h2, h3, h4, h5, h6⟩ := C66_derived_real
  simp only [derivedSpaces, List.mem_cons, List.not_mem_nil, or_false] at hr
  rcases hr with rfl | rfl | rfl | rfl | rfl | rfl
  all_goals
    refine ⟨by assumption, fun cs hcs => ?_⟩
    rw [(new_ok hcs).2.2]
    simp only [Shipped.xyD65, Shipped.xyDCI_P3, Shipped.xyACES]
    norm_num [Cat02NonDegenerate, XYZ.fromChromaticity, Flt.one]

/-- C22, C66 [R]: between any two of the derived spaces, conversion there and back is the identity
and white (1,1,1) goes to (1,1,1) exactly. This also shows that the hypotheses of `C21_xyz_rgb_xyz`
and of the C22 theorems are met by every derived space. -/
theorem C22_derived_spaces (r s : Res (ColorSpaceRGB ℝ)) (hr : r ∈ derivedSpaces)
    (hs : s ∈ derivedSpaces) :
    ∃ a b, r = .ok a ∧ s = .ok b ∧ ∃ ab ba, rgbToRgbMatrix a b = .ok ab ∧
      rgbToRgbMatrix b a = .ok ba ∧ ba * ab = Matrix33.identity ∧
      ab * (⟨1, 1, 1⟩ : RGBf ℝ) = ⟨1, 1, 1⟩ := by
  obtain ⟨⟨a, ea, ia, wa⟩, na⟩ := derived_white r hr
  obtain ⟨⟨b, eb, ib, wb⟩, nb⟩ := derived_white s hs
  obtain ⟨na, ya⟩ := na a ea
  obtain ⟨nb, yb⟩ := nb b eb
  have back : ∀ c : ColorSpaceRGB ℝ, IsInverse c.xf_xyz_to_rgb c.xf_rgb_to_xyz →
      xyzToRgb c.xf_xyz_to_rgb (XYZ.fromXy c.white.x c.white.y) = ⟨1, 1, 1⟩ →
      Cat02NonDegenerate (XYZ.fromChromaticity c.white) →
      rgbToXyz c.xf_rgb_to_xyz ⟨1, 1, 1⟩ = XYZ.fromXy c.white.x c.white.y := by
    intro c hi hw hn
    obtain ⟨m, n, em, en, h, -⟩ := C21_xyz_rgb_xyz c.white c hi hn hn
    have hm : m = c.xf_xyz_to_rgb := by
      unfold xyzToRgbMatrix at em
      rw [(C15_equal_whites_real _).1] at em
      cases em; exact m33_mul_one _
    have hn : n = c.xf_rgb_to_xyz := by
      unfold rgbToXyzMatrix at en
      rw [(C15_equal_whites_real _).1] at en
      cases en; exact m33_one_mul _
    rw [← hn, ← hw, ← hm, h]
  obtain ⟨ab, ba, e1, e2, e3⟩ := C22_there_and_back a b ia ib na nb
  obtain ⟨ab', e1', e4⟩ := C22_white a b ib (back a ia wa na) (back b ib wb nb) na
    (by rw [ya]; norm_num)
  rw [e1] at e1'; cases e1'
  refine ⟨a, b, ea, eb, ab, ba, e1, e2, e3, ?_⟩
  rw [e4, ya, yb]; norm_num

/-- did the construction succeed -/
def Res.isOk {α : Type} : Res α → Bool
  | .ok _ => true
  | .error _ => false

/-- C66 [F]: evaluating the `lazy_static` constants in binary64 and binary32, with the literals
rounded to the format, does not panic. -/
theorem C66_no_panic_ieee [Libm Fmt.b32] [Libm Fmt.b64] :
    (let l := FP.ofQ Fmt.b64 false
     (Res.isOk (Shipped.srgbDrv l) && Res.isOk (Shipped.bt709 l) && Res.isOk (Shipped.bt2020 l) &&
      Res.isOk (Shipped.dciP3 l) && Res.isOk (Shipped.dciP3D65 l) && Res.isOk (Shipped.acesCg l))
       = true) ∧
    (let l := FP.ofQ Fmt.b32 false
     (Res.isOk (Shipped.bt709 l) && Res.isOk (Shipped.bt2020 l) &&
      Res.isOk (Shipped.dciP3 l) && Res.isOk (Shipped.dciP3D65 l) && Res.isOk (Shipped.acesCg l))
       = true) := by
  constructor
  · krefl
  · krefl

end CS

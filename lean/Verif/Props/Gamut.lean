import Verif.Props.EightBitsP3

/-!
# Which spaces contain which (C126)
-/

namespace CS
open Spec

/-! ### specification -/

/-- `p` is in the triangle of `r`, `g` and `b`, listed counterclockwise, or on its border -/
def Spec.InTriangle (r g b p : XYY ℝ) : Prop := 0 ≤ tri p g b ∧ 0 ≤ tri r p b ∧ 0 ≤ tri r g p

/-- no component is negative -/
def Spec.NonNeg (c : RGBf ℝ) : Prop := 0 ≤ c.r ∧ 0 ≤ c.g ∧ 0 ≤ c.b

/-! ### proofs -/

/-- the components, in a space built from its primaries, of a light of chromaticity `p` -/
theorem derived_of_chromaticity (r g b w p : XYY ℝ) (o e : RGBf ℝ → RGBf ℝ) (cs : ColorSpaceRGB ℝ)
    (hcs : ColorSpaceRGB.new r g b w o e = .ok cs) (hw : 0 < w.y) (hin : Spec.Inside r g b w) :
    cs.xf_xyz_to_rgb * (⟨p.x, p.y, 1 - p.x - p.y⟩ : XYZ ℝ) =
      ⟨tri p g b * (w.y / tri w g b), tri r p b * (w.y / tri r w b), tri r g p * (w.y / tri r g w)⟩ := by
  obtain ⟨t1, t2, t3⟩ := hin
  have t1 := t1.ne'
  have t2 := t2.ne'
  have t3 := t3.ne'
  rw [(new_ok hcs).1, build_eq r g b w hw.ne' t1 t2 t3, mulX_def]
  ext <;> dsimp only <;> field_simp <;> unfold tri <;> ring

/-- the entries of the matrix between two spaces built from their primaries around the same white -/
theorem derived_pair (r g b r' g' b' w : XYY ℝ) (o e o' e' : RGBf ℝ → RGBf ℝ) (a d : ColorSpaceRGB ℝ)
    (ha : ColorSpaceRGB.new r g b w o e = .ok a) (hd : ColorSpaceRGB.new r' g' b' w o' e' = .ok d)
    (hi : IsInverse a.xf_xyz_to_rgb a.xf_rgb_to_xyz) (hw : 0 < w.y)
    (hin : Spec.Inside r g b w) (hin' : Spec.Inside r' g' b' w) :
    ∃ cr cg cb kr kg kb : ℝ, 0 < cr ∧ 0 < cg ∧ 0 < cb ∧ 0 < kr ∧ 0 < kg ∧ 0 < kb ∧
      (cr * (w.y * tri r g b) = tri w g b ∧ cg * (w.y * tri r g b) = tri r w b ∧ cb * (w.y * tri r g b) = tri r g w) ∧
      (kr = w.y / tri w g' b' ∧ kg = w.y / tri r' w b' ∧ kb = w.y / tri r' g' w) ∧
      rgbToRgbMatrix a d = .ok ⟨cr * (tri r g' b' * kr), cg * (tri g g' b' * kr), cb * (tri b g' b' * kr),
        cr * (tri r' r b' * kg), cg * (tri r' g b' * kg), cb * (tri r' b b' * kg),
        cr * (tri r' g' r * kb), cg * (tri r' g' g * kb), cb * (tri r' g' b * kb)⟩ ∧
      cr * (tri r g' b' * kr) + cg * (tri g g' b' * kr) + cb * (tri b g' b' * kr) = 1 ∧
      cr * (tri r' r b' * kg) + cg * (tri r' g b' * kg) + cb * (tri r' b b' * kg) = 1 ∧
      cr * (tri r' g' r * kb) + cg * (tri r' g' g * kb) + cb * (tri r' g' b * kb) = 1 := by
  obtain ⟨cr, cg, cb, pr, pg, pb, ar, ag, ab, hB, w1, w2, w3⟩ := derived_columns r g b w o e a ha hi hw hin
  have dr := derived_of_chromaticity r' g' b' w r o' e' d hd hw hin'
  have dg := derived_of_chromaticity r' g' b' w g o' e' d hd hw hin'
  have db := derived_of_chromaticity r' g' b' w b o' e' d hd hw hin'
  obtain ⟨t1, t2, t3⟩ := hin'
  refine ⟨cr, cg, cb, w.y / tri w g' b', w.y / tri r' w b', w.y / tri r' g' w, pr, pg, pb,
    div_pos hw t1, div_pos hw t2, div_pos hw t3, ⟨ar, ag, ab⟩, ⟨rfl, rfl, rfl⟩, ?_, ?_, ?_, ?_⟩
  · unfold rgbToRgbMatrix
    rw [(new_ok ha).2.2, (new_ok hd).2.2, (C15_equal_whites_real _).1]
    show Except.ok _ = _
    rw [m33_mul_one, hB, mul_def]
    rw [mulX_def] at dr dg db
    simp only [XYZ.mk.injEq] at dr dg db
    obtain ⟨r1, r2, r3⟩ := dr
    obtain ⟨g1, g2, g3⟩ := dg
    obtain ⟨b1, b2, b3⟩ := db
    rw [← r1, ← r2, ← r3, ← g1, ← g2, ← g3, ← b1, ← b2, ← b3]
    congr 1
    ext <;> dsimp only <;> ring
  all_goals
    have v1 : (cr * r.x + cg * g.x + cb * b.x) * w.y = w.x := by rw [w1]; field_simp
    have v3 : (cr * (1 - r.x - r.y) + cg * (1 - g.x - g.y) + cb * (1 - b.x - b.y)) * w.y = 1 - w.x - w.y := by
      rw [w3]; field_simp
    have v0 : (cr + cg + cb) * w.y = 1 := by linear_combination v1 + v3 + w.y * w2
  · have h : (cr * tri r g' b' + cg * tri g g' b' + cb * tri b g' b') * w.y = tri w g' b' := by
      unfold tri
      linear_combination (g'.y - b'.y) * v1 + (b'.x - g'.x) * w.y * w2 + (g'.x * b'.y - b'.x * g'.y) * v0
    rw [← div_self t1.ne']
    nth_rw 4 [← h]
    ring
  · have h : (cr * tri r' r b' + cg * tri r' g b' + cb * tri r' b b') * w.y = tri r' w b' := by
      unfold tri
      linear_combination (b'.y - r'.y) * v1 + (r'.x - b'.x) * w.y * w2 + (b'.x * r'.y - r'.x * b'.y) * v0
    rw [← div_self t2.ne']
    nth_rw 4 [← h]
    ring
  · have h : (cr * tri r' g' r + cg * tri r' g' g + cb * tri r' g' b) * w.y = tri r' g' w := by
      unfold tri
      linear_combination (r'.y - g'.y) * v1 + (g'.x - r'.x) * w.y * w2 + (r'.x * g'.y - g'.x * r'.y) * v0
    rw [← div_self t3.ne']
    nth_rw 4 [← h]
    ring

/-- C126 [R]: the matrix between two spaces built around the same white, as ratios of areas in the chromaticity
diagram. -/
theorem C126_matrix (r g b r' g' b' w : XYY ℝ) (o e o' e' : RGBf ℝ → RGBf ℝ) (a d : ColorSpaceRGB ℝ)
    (ha : ColorSpaceRGB.new r g b w o e = .ok a) (hd : ColorSpaceRGB.new r' g' b' w o' e' = .ok d)
    (hi : IsInverse a.xf_xyz_to_rgb a.xf_rgb_to_xyz) (hw : 0 < w.y)
    (hin : Spec.Inside r g b w) (hin' : Spec.Inside r' g' b' w) :
    rgbToRgbMatrix a d = .ok
      ⟨tri w g b / tri r g b * (tri r g' b' / tri w g' b'), tri r w b / tri r g b * (tri g g' b' / tri w g' b'),
        tri r g w / tri r g b * (tri b g' b' / tri w g' b'),
       tri w g b / tri r g b * (tri r' r b' / tri r' w b'), tri r w b / tri r g b * (tri r' g b' / tri r' w b'),
        tri r g w / tri r g b * (tri r' b b' / tri r' w b'),
       tri w g b / tri r g b * (tri r' g' r / tri r' g' w), tri r w b / tri r g b * (tri r' g' g / tri r' g' w),
        tri r g w / tri r g b * (tri r' g' b / tri r' g' w)⟩ := by
  obtain ⟨cr, cg, cb, kr, kg, kb, -, -, -, -, -, -, ⟨a1, a2, a3⟩, ⟨rfl, rfl, rfl⟩, hm, -, -, -⟩ :=
    derived_pair r g b r' g' b' w o e o' e' a d ha hd hi hw hin hin'
  have t0 : tri r g b ≠ 0 := by
    have : tri r g b = tri w g b + tri r w b + tri r g w := by unfold tri; ring
    have := hin.1
    have := hin.2.1
    have := hin.2.2
    linarith
  have t1 := hin'.1.ne'
  have t2 := hin'.2.1.ne'
  have t3 := hin'.2.2.ne'
  rw [hm, ← a1, ← a2, ← a3]
  congr 1
  ext <;> dsimp only <;> field_simp

/-- C126 [R]: between two spaces built around the same white, `rgb_to_rgb_matrix` keeps every colour without negative
components free of negative components exactly when the primaries of the source lie in the triangle of the primaries of
the destination. -/
theorem C126_contained_iff (r g b r' g' b' w : XYY ℝ) (o e o' e' : RGBf ℝ → RGBf ℝ) (a d : ColorSpaceRGB ℝ)
    (ha : ColorSpaceRGB.new r g b w o e = .ok a) (hd : ColorSpaceRGB.new r' g' b' w o' e' = .ok d)
    (hi : IsInverse a.xf_xyz_to_rgb a.xf_rgb_to_xyz) (hw : 0 < w.y)
    (hin : Spec.Inside r g b w) (hin' : Spec.Inside r' g' b' w) :
    ∃ m, rgbToRgbMatrix a d = .ok m ∧ ((∀ c : RGBf ℝ, Spec.NonNeg c → Spec.NonNeg (m * c)) ↔
      Spec.InTriangle r' g' b' r ∧ Spec.InTriangle r' g' b' g ∧ Spec.InTriangle r' g' b' b) := by
  obtain ⟨cr, cg, cb, kr, kg, kb, pr, pg, pb, qr, qg, qb, -, -, hm, -, -, -⟩ :=
    derived_pair r g b r' g' b' w o e o' e' a d ha hd hi hw hin hin'
  refine ⟨_, hm, ?_, ?_⟩
  · intro h
    have h1 := h ⟨1, 0, 0⟩ ⟨zero_le_one, le_rfl, le_rfl⟩
    have h2 := h ⟨0, 1, 0⟩ ⟨le_rfl, zero_le_one, le_rfl⟩
    have h3 := h ⟨0, 0, 1⟩ ⟨le_rfl, le_rfl, zero_le_one⟩
    simp only [Spec.NonNeg, mulR_def, mul_one, mul_zero, add_zero, zero_add] at h1 h2 h3
    have pos : ∀ {c t k : ℝ}, 0 < c → 0 < k → 0 ≤ c * (t * k) → 0 ≤ t := fun hc hk h =>
      nonneg_of_mul_nonneg_left (nonneg_of_mul_nonneg_right h hc) hk
    exact ⟨⟨pos pr qr h1.1, pos pr qg h1.2.1, pos pr qb h1.2.2⟩, ⟨pos pg qr h2.1, pos pg qg h2.2.1, pos pg qb h2.2.2⟩,
      ⟨pos pb qr h3.1, pos pb qg h3.2.1, pos pb qb h3.2.2⟩⟩
  · rintro ⟨⟨a1, a2, a3⟩, ⟨b1, b2, b3⟩, ⟨c1, c2, c3⟩⟩ c ⟨h1, h2, h3⟩
    simp only [Spec.NonNeg, mulR_def]
    refine ⟨?_, ?_, ?_⟩ <;> positivity

/-- C126 [R]: and then a colour with components in [0, 1] has components in [0, 1] there. -/
theorem C126_range (r g b r' g' b' w : XYY ℝ) (o e o' e' : RGBf ℝ → RGBf ℝ) (a d : ColorSpaceRGB ℝ)
    (ha : ColorSpaceRGB.new r g b w o e = .ok a) (hd : ColorSpaceRGB.new r' g' b' w o' e' = .ok d)
    (hi : IsInverse a.xf_xyz_to_rgb a.xf_rgb_to_xyz) (hw : 0 < w.y)
    (hin : Spec.Inside r g b w) (hin' : Spec.Inside r' g' b' w)
    (hr : Spec.InTriangle r' g' b' r) (hg : Spec.InTriangle r' g' b' g) (hb : Spec.InTriangle r' g' b' b) :
    ∃ m, rgbToRgbMatrix a d = .ok m ∧ ∀ c : RGBf ℝ, Spec.InRange c → Spec.InRange (m * c) := by
  obtain ⟨cr, cg, cb, kr, kg, kb, pr, pg, pb, qr, qg, qb, -, -, hm, s1, s2, s3⟩ :=
    derived_pair r g b r' g' b' w o e o' e' a d ha hd hi hw hin hin'
  refine ⟨_, hm, ?_⟩
  rintro c ⟨⟨r0, r1⟩, ⟨g0, g1⟩, ⟨b0, b1⟩⟩
  have key : ∀ {x y z : ℝ}, 0 ≤ x → 0 ≤ y → 0 ≤ z → x + y + z = 1 →
      0 ≤ x * c.r + y * c.g + z * c.b ∧ x * c.r + y * c.g + z * c.b ≤ 1 := by
    intro x y z hx hy hz hs
    have u1 := mul_le_mul_of_nonneg_left r1 hx
    have u2 := mul_le_mul_of_nonneg_left g1 hy
    have u3 := mul_le_mul_of_nonneg_left b1 hz
    exact ⟨by positivity, by linarith⟩
  obtain ⟨a1, a2, a3⟩ := hr
  obtain ⟨b1', b2, b3⟩ := hg
  obtain ⟨c1, c2, c3⟩ := hb
  simp only [Spec.InRange, mulR_def]
  exact ⟨key (by positivity) (by positivity) (by positivity) s1, key (by positivity) (by positivity) (by positivity) s2,
    key (by positivity) (by positivity) (by positivity) s3⟩

/-- C126 [R]: `SRGB_DRV` and `ITUR_BT709` are contained in `DCI_P3_D65` and in `ITUR_BT2020`: components in [0, 1] stay in [0, 1]. -/
theorem C126_shipped (s t : Res (ColorSpaceRGB ℝ)) (hs : s = Shipped.srgbDrv ratLit ∨ s = Shipped.bt709 ratLit)
    (ht : t = Shipped.dciP3D65 ratLit ∨ t = Shipped.bt2020 ratLit) :
    ∃ a d m, s = .ok a ∧ t = .ok d ∧ rgbToRgbMatrix a d = .ok m ∧
      ∀ c : RGBf ℝ, Spec.InRange c → Spec.InRange (m * c) := by
  obtain ⟨⟨c1, e1, i1, -⟩, ⟨c2, e2, i2, -⟩, ⟨c3, e3, -, -⟩, -, ⟨c4, e4, -, -⟩, -⟩ := C66_derived_real
  have glue : ∀ {a d : ColorSpaceRGB ℝ} {s t : Res (ColorSpaceRGB ℝ)}, s = .ok a → t = .ok d →
      (∃ m, rgbToRgbMatrix a d = .ok m ∧ ∀ c : RGBf ℝ, Spec.InRange c → Spec.InRange (m * c)) →
      ∃ a d m, s = .ok a ∧ t = .ok d ∧ rgbToRgbMatrix a d = .ok m ∧
        ∀ c : RGBf ℝ, Spec.InRange c → Spec.InRange (m * c) := by
    rintro a d s t h1 h2 ⟨m, h3, h4⟩
    exact ⟨a, d, m, h1, h2, h3, h4⟩
  rcases hs with rfl | rfl <;> rcases ht with rfl | rfl
  · exact glue e1 e4 (C126_range _ _ _ _ _ _ _ _ _ _ _ c1 c4 e1 e4 i1 (by norm_num [Shipped.xyD65])
      (by unfold Spec.Inside tri; norm_num [Shipped.xyD65]) (by unfold Spec.Inside tri; norm_num [Shipped.xyD65])
      (by unfold Spec.InTriangle tri; norm_num) (by unfold Spec.InTriangle tri; norm_num)
      (by unfold Spec.InTriangle tri; norm_num))
  · exact glue e1 e3 (C126_range _ _ _ _ _ _ _ _ _ _ _ c1 c3 e1 e3 i1 (by norm_num [Shipped.xyD65])
      (by unfold Spec.Inside tri; norm_num [Shipped.xyD65]) (by unfold Spec.Inside tri; norm_num [Shipped.xyD65])
      (by unfold Spec.InTriangle tri; norm_num) (by unfold Spec.InTriangle tri; norm_num)
      (by unfold Spec.InTriangle tri; norm_num))
  · exact glue e2 e4 (C126_range _ _ _ _ _ _ _ _ _ _ _ c2 c4 e2 e4 i2 (by norm_num [Shipped.xyD65])
      (by unfold Spec.Inside tri; norm_num [Shipped.xyD65]) (by unfold Spec.Inside tri; norm_num [Shipped.xyD65])
      (by unfold Spec.InTriangle tri; norm_num) (by unfold Spec.InTriangle tri; norm_num)
      (by unfold Spec.InTriangle tri; norm_num))
  · exact glue e2 e3 (C126_range _ _ _ _ _ _ _ _ _ _ _ c2 c3 e2 e3 i2 (by norm_num [Shipped.xyD65])
      (by unfold Spec.Inside tri; norm_num [Shipped.xyD65]) (by unfold Spec.Inside tri; norm_num [Shipped.xyD65])
      (by unfold Spec.InTriangle tri; norm_num) (by unfold Spec.InTriangle tri; norm_num)
      (by unfold Spec.InTriangle tri; norm_num))

/-- C126 [R]: the other way some colour gets a negative component; and `DCI_P3_D65` is not contained in `ITUR_BT2020`
either, because its red is just outside. -/
theorem C126_not_contained (s t : Res (ColorSpaceRGB ℝ))
    (h : (s = Shipped.dciP3D65 ratLit ∧ t = Shipped.bt2020 ratLit) ∨
      ((s = Shipped.dciP3D65 ratLit ∨ s = Shipped.bt2020 ratLit) ∧
        (t = Shipped.srgbDrv ratLit ∨ t = Shipped.bt709 ratLit)) ∨
      (s = Shipped.bt2020 ratLit ∧ t = Shipped.dciP3D65 ratLit)) :
    ∃ a d m, s = .ok a ∧ t = .ok d ∧ rgbToRgbMatrix a d = .ok m ∧
      ∃ c : RGBf ℝ, Spec.NonNeg c ∧ ¬ Spec.NonNeg (m * c) := by
  obtain ⟨⟨c1, e1, -, -⟩, ⟨c2, e2, -, -⟩, ⟨c3, e3, i3, -⟩, -, ⟨c4, e4, i4, -⟩, -⟩ := C66_derived_real
  have glue : ∀ {a d : ColorSpaceRGB ℝ} {s t : Res (ColorSpaceRGB ℝ)} {P : Prop}, s = .ok a → t = .ok d →
      (∃ m, rgbToRgbMatrix a d = .ok m ∧ ((∀ c : RGBf ℝ, Spec.NonNeg c → Spec.NonNeg (m * c)) ↔ P)) → ¬ P →
      ∃ a d m, s = .ok a ∧ t = .ok d ∧ rgbToRgbMatrix a d = .ok m ∧
        ∃ c : RGBf ℝ, Spec.NonNeg c ∧ ¬ Spec.NonNeg (m * c) := by
    rintro a d s t P h1 h2 ⟨m, h3, h4⟩ hP
    refine ⟨a, d, m, h1, h2, h3, ?_⟩
    by_contra hn
    push Not at hn
    exact hP (h4.1 hn)
  rcases h with ⟨rfl, rfl⟩ | ⟨rfl | rfl, rfl | rfl⟩ | ⟨rfl, rfl⟩
  · exact glue e4 e3 (C126_contained_iff _ _ _ _ _ _ _ _ _ _ _ c4 c3 e4 e3 i4 (by norm_num [Shipped.xyD65])
      (by unfold Spec.Inside tri; norm_num [Shipped.xyD65]) (by unfold Spec.Inside tri; norm_num [Shipped.xyD65]))
      (by unfold Spec.InTriangle tri; norm_num)
  · exact glue e4 e1 (C126_contained_iff _ _ _ _ _ _ _ _ _ _ _ c4 c1 e4 e1 i4 (by norm_num [Shipped.xyD65])
      (by unfold Spec.Inside tri; norm_num [Shipped.xyD65]) (by unfold Spec.Inside tri; norm_num [Shipped.xyD65]))
      (by unfold Spec.InTriangle tri; norm_num)
  · exact glue e4 e2 (C126_contained_iff _ _ _ _ _ _ _ _ _ _ _ c4 c2 e4 e2 i4 (by norm_num [Shipped.xyD65])
      (by unfold Spec.Inside tri; norm_num [Shipped.xyD65]) (by unfold Spec.Inside tri; norm_num [Shipped.xyD65]))
      (by unfold Spec.InTriangle tri; norm_num)
  · exact glue e3 e1 (C126_contained_iff _ _ _ _ _ _ _ _ _ _ _ c3 c1 e3 e1 i3 (by norm_num [Shipped.xyD65])
      (by unfold Spec.Inside tri; norm_num [Shipped.xyD65]) (by unfold Spec.Inside tri; norm_num [Shipped.xyD65]))
      (by unfold Spec.InTriangle tri; norm_num)
  · exact glue e3 e2 (C126_contained_iff _ _ _ _ _ _ _ _ _ _ _ c3 c2 e3 e2 i3 (by norm_num [Shipped.xyD65])
      (by unfold Spec.Inside tri; norm_num [Shipped.xyD65]) (by unfold Spec.Inside tri; norm_num [Shipped.xyD65]))
      (by unfold Spec.InTriangle tri; norm_num)
  · exact glue e3 e4 (C126_contained_iff _ _ _ _ _ _ _ _ _ _ _ c3 c4 e3 e4 i3 (by norm_num [Shipped.xyD65])
      (by unfold Spec.Inside tri; norm_num [Shipped.xyD65]) (by unfold Spec.Inside tri; norm_num [Shipped.xyD65]))
      (by unfold Spec.InTriangle tri; norm_num)

/-- C126 [R]: with the printed matrices of `SRGB` this is lost, by rounding: its blue has a negative green component in
`DCI_P3_D65`, and its white a red one above 1. -/
theorem C126_printed_counterexample :
    ∃ d m, Shipped.dciP3D65 ratLit = .ok d ∧ rgbToRgbMatrix (Shipped.srgb ratLit) d = .ok m ∧
      (m * (⟨0, 0, 1⟩ : RGBf ℝ)).g < 0 ∧ 1 < (m * (⟨1, 1, 1⟩ : RGBf ℝ)).r := by
  obtain ⟨-, -, -, -, ⟨d, e, -, -⟩, -⟩ := C66_derived_real
  have hm : rgbToRgbMatrix (Shipped.srgb ratLit) d = .ok (d.xf_xyz_to_rgb * (Shipped.srgb ratLit).xf_rgb_to_xyz) := by
    unfold rgbToRgbMatrix
    rw [(new_ok e).2.2]
    simp only [Shipped.srgb, ColorSpaceRGB.newWithMatrices]
    rw [(C15_equal_whites_real _).1]
    show Except.ok _ = _
    rw [m33_mul_one]
  refine ⟨d, _, e, hm, ?_⟩
  rw [(new_ok e).1, build_eq _ _ _ _ (by norm_num) (by norm_num [tri]) (by norm_num [tri]) (by norm_num [tri]), mul_def,
    mulR_def, mulR_def]
  norm_num [tri, Shipped.srgb, ColorSpaceRGB.newWithMatrices]

/-- Not vacuous: sRGB's red in the triangle of BT.2020, P3's red outside it. -/
example : Spec.InTriangle ⟨0.708, 0.292, 1⟩ ⟨0.170, 0.797, 1⟩ ⟨0.131, 0.046, 1⟩ ⟨0.64, 0.33, 1⟩ ∧
    ¬ Spec.InTriangle ⟨0.708, 0.292, 1⟩ ⟨0.170, 0.797, 1⟩ ⟨0.131, 0.046, 1⟩ ⟨0.680, 0.320, 1⟩ := by
  unfold Spec.InTriangle tri; norm_num

end CS

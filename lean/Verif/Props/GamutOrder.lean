import Verif.Lemmas.ExactSpaces

/-!
# The derived spaces in order of containment (C126)
-/

namespace CS
open Spec

/-! ### specification -/

/-- both spaces exist, and `rgb_to_rgb_matrix` between them, chromatic adaptation included, keeps components from 0 to 1 in
that range: nothing has to be clipped -/
def Spec.Fits (s d : Res (ColorSpaceRGB ℝ)) : Prop :=
  ∃ a b m, s = .ok a ∧ d = .ok b ∧ rgbToRgbMatrix a b = .ok m ∧ ∀ c : RGBf ℝ, Spec.InRange c → Spec.InRange (m * c)

/-! ### proofs -/

/-- nothing is negative -/
def NonNegM (m : Matrix33 ℝ) : Prop :=
  (0 ≤ m.x0 ∧ 0 ≤ m.x1 ∧ 0 ≤ m.x2) ∧ (0 ≤ m.x3 ∧ 0 ≤ m.x4 ∧ 0 ≤ m.x5) ∧ (0 ≤ m.x6 ∧ 0 ≤ m.x7 ∧ 0 ≤ m.x8)

theorem fits_iff {s d : Res (ColorSpaceRGB ℝ)} (hs : s ∈ derivedSpaces) (hd : d ∈ derivedSpaces) {a b : ColorSpaceRGB ℝ}
    {m : Matrix33 ℝ} (ea : s = .ok a) (eb : d = .ok b) (em : rgbToRgbMatrix a b = .ok m) : Spec.Fits s d ↔ NonNegM m := by
  obtain ⟨a', b', ea', eb', m1, m2, h1, -, -, hw⟩ := C22_derived_spaces s d hs hd
  rw [ea] at ea'; cases ea'
  rw [eb] at eb'; cases eb'
  rw [em] at h1; cases h1
  constructor
  · rintro ⟨a', b', m', ea', eb', em', h⟩
    rw [ea] at ea'; cases ea'
    rw [eb] at eb'; cases eb'
    rw [em] at em'; cases em'
    have h1 := h ⟨1, 0, 0⟩ ⟨⟨zero_le_one, le_rfl⟩, ⟨le_rfl, zero_le_one⟩, ⟨le_rfl, zero_le_one⟩⟩
    have h2 := h ⟨0, 1, 0⟩ ⟨⟨le_rfl, zero_le_one⟩, ⟨zero_le_one, le_rfl⟩, ⟨le_rfl, zero_le_one⟩⟩
    have h3 := h ⟨0, 0, 1⟩ ⟨⟨le_rfl, zero_le_one⟩, ⟨le_rfl, zero_le_one⟩, ⟨zero_le_one, le_rfl⟩⟩
    simp only [Spec.InRange, mulR_def, mul_one, mul_zero, add_zero, zero_add] at h1 h2 h3
    exact ⟨⟨h1.1.1, h2.1.1, h3.1.1⟩, ⟨h1.2.1.1, h2.2.1.1, h3.2.1.1⟩, ⟨h1.2.2.1, h2.2.2.1, h3.2.2.1⟩⟩
  · rintro ⟨⟨n0, n1, n2⟩, ⟨n3, n4, n5⟩, ⟨n6, n7, n8⟩⟩
    refine ⟨a, b, m, ea, eb, em, ?_⟩
    rintro c ⟨⟨r0, r1⟩, ⟨g0, g1⟩, ⟨b0, b1⟩⟩
    rw [mulR_def] at hw
    simp only [RGBf.mk.injEq, mul_one] at hw
    have key : ∀ {x y z : ℝ}, 0 ≤ x → 0 ≤ y → 0 ≤ z → x + y + z = 1 →
        0 ≤ x * c.r + y * c.g + z * c.b ∧ x * c.r + y * c.g + z * c.b ≤ 1 := by
      intro x y z hx hy hz hs
      have u1 := mul_le_mul_of_nonneg_left r1 hx
      have u2 := mul_le_mul_of_nonneg_left g1 hy
      have u3 := mul_le_mul_of_nonneg_left b1 hz
      exact ⟨by positivity, by linarith⟩
    exact ⟨key n0 n1 n2 hw.1, key n3 n4 n5 hw.2.1, key n6 n7 n8 hw.2.2⟩

theorem matrix_same {a b : ColorSpaceRGB ℝ} {w : XYY ℝ} {A B : Matrix33 ℝ} (ha : a.white = w) (hb : b.white = w)
    (hA : a.xf_rgb_to_xyz = A) (hB : b.xf_xyz_to_rgb = B) : rgbToRgbMatrix a b = .ok (B * A) := by
  unfold rgbToRgbMatrix
  rw [ha, hb, (C15_equal_whites_real _).1, hA, hB]
  show Except.ok _ = _
  rw [m33_mul_one]

theorem matrix_cat {a b : ColorSpaceRGB ℝ} {w v : XYY ℝ} {A B K : Matrix33 ℝ} (ha : a.white = w) (hb : b.white = v)
    (hk : cat02 (XYZ.fromChromaticity w) (XYZ.fromChromaticity v) = .ok K)
    (hA : a.xf_rgb_to_xyz = A) (hB : b.xf_xyz_to_rgb = B) : rgbToRgbMatrix a b = .ok (B * K * A) := by
  unfold rgbToRgbMatrix
  rw [ha, hb, hk, hA, hB]
  rfl

theorem ok_ne {a b : ColorSpaceRGB ℝ} {A B : Matrix33 ℝ} (hA : a.xf_rgb_to_xyz = A) (hB : b.xf_rgb_to_xyz = B)
    (h : A.x0 ≠ B.x0) : (Except.ok a : Res (ColorSpaceRGB ℝ)) ≠ .ok b := by
  intro e
  cases e
  exact h (by rw [← hA, ← hB])

open Exact in
/-- C126 [R]: among the six spaces derived from primaries, `SRGB_DRV` and `ITUR_BT709` fit in every one, every one fits in
`ACES_CG`, and no other conversion from one of them to another does without clipping. -/
theorem C126_order (s d : Res (ColorSpaceRGB ℝ)) (hs : s ∈ derivedSpaces) (hd : d ∈ derivedSpaces) :
    Spec.Fits s d ↔ s = Shipped.srgbDrv ratLit ∨ s = Shipped.bt709 ratLit ∨ d = Shipped.acesCg ratLit ∨ s = d := by
  obtain ⟨c0, e0, w0, b0, a0⟩ := srgb_eq
  obtain ⟨c1, e1, w1, b1, a1⟩ := bt709_eq
  obtain ⟨c2, e2, w2, b2, a2⟩ := bt_eq
  obtain ⟨c3, e3, w3, b3, a3⟩ := p3_eq
  obtain ⟨c4, e4, w4, b4, a4⟩ := p3d_eq
  obtain ⟨c5, e5, w5, b5, a5⟩ := cg_eq
  have n02 : (Except.ok c0 : Res (ColorSpaceRGB ℝ)) ≠ .ok c2 := ok_ne a0 a2 (by norm_num [srgbA, btA])
  have n03 : (Except.ok c0 : Res (ColorSpaceRGB ℝ)) ≠ .ok c3 := ok_ne a0 a3 (by norm_num [srgbA, p3A])
  have n04 : (Except.ok c0 : Res (ColorSpaceRGB ℝ)) ≠ .ok c4 := ok_ne a0 a4 (by norm_num [srgbA, p3dA])
  have n05 : (Except.ok c0 : Res (ColorSpaceRGB ℝ)) ≠ .ok c5 := ok_ne a0 a5 (by norm_num [srgbA, cgA])
  have n12 : (Except.ok c1 : Res (ColorSpaceRGB ℝ)) ≠ .ok c2 := ok_ne a1 a2 (by norm_num [srgbA, btA])
  have n13 : (Except.ok c1 : Res (ColorSpaceRGB ℝ)) ≠ .ok c3 := ok_ne a1 a3 (by norm_num [srgbA, p3A])
  have n14 : (Except.ok c1 : Res (ColorSpaceRGB ℝ)) ≠ .ok c4 := ok_ne a1 a4 (by norm_num [srgbA, p3dA])
  have n15 : (Except.ok c1 : Res (ColorSpaceRGB ℝ)) ≠ .ok c5 := ok_ne a1 a5 (by norm_num [srgbA, cgA])
  have n23 : (Except.ok c2 : Res (ColorSpaceRGB ℝ)) ≠ .ok c3 := ok_ne a2 a3 (by norm_num [btA, p3A])
  have n24 : (Except.ok c2 : Res (ColorSpaceRGB ℝ)) ≠ .ok c4 := ok_ne a2 a4 (by norm_num [btA, p3dA])
  have n25 : (Except.ok c2 : Res (ColorSpaceRGB ℝ)) ≠ .ok c5 := ok_ne a2 a5 (by norm_num [btA, cgA])
  have n34 : (Except.ok c3 : Res (ColorSpaceRGB ℝ)) ≠ .ok c4 := ok_ne a3 a4 (by norm_num [p3A, p3dA])
  have n35 : (Except.ok c3 : Res (ColorSpaceRGB ℝ)) ≠ .ok c5 := ok_ne a3 a5 (by norm_num [p3A, cgA])
  have n45 : (Except.ok c4 : Res (ColorSpaceRGB ℝ)) ≠ .ok c5 := ok_ne a4 a5 (by norm_num [p3dA, cgA])
  have yes : ∀ {P Q : Prop}, P → Q → (P ↔ Q) := fun p q => ⟨fun _ => q, fun _ => p⟩
  have hs' := hs
  have hd' := hd
  simp only [derivedSpaces, List.mem_cons, List.not_mem_nil, or_false] at hs' hd'
  rcases hs' with rfl | rfl | rfl | rfl | rfl | rfl <;> rcases hd' with rfl | rfl | rfl | rfl | rfl | rfl
  · refine yes ((fits_iff hs hd e0 e0 (matrix_same w0 w0 a0 b0)).2 ?_) (by simp)
    rw [mul_def]
    unfold NonNegM
    norm_num [srgbA, srgbB]
  · refine yes ((fits_iff hs hd e0 e1 (matrix_same w0 w1 a0 b1)).2 ?_) (by simp)
    rw [mul_def]
    unfold NonNegM
    norm_num [srgbA, srgbB]
  · refine yes ((fits_iff hs hd e0 e2 (matrix_same w0 w2 a0 b2)).2 ?_) (by simp)
    rw [mul_def]
    unfold NonNegM
    norm_num [srgbA, btB]
  · refine yes ((fits_iff hs hd e0 e3 (matrix_cat w0 w3 cat_D65DCI a0 b3)).2 ?_) (by simp)
    rw [mul_def, mul_def]
    unfold NonNegM
    norm_num [srgbA, p3B, kD65DCI]
  · refine yes ((fits_iff hs hd e0 e4 (matrix_same w0 w4 a0 b4)).2 ?_) (by simp)
    rw [mul_def]
    unfold NonNegM
    norm_num [srgbA, p3dB]
  · refine yes ((fits_iff hs hd e0 e5 (matrix_cat w0 w5 cat_D65ACES a0 b5)).2 ?_) (by simp)
    rw [mul_def, mul_def]
    unfold NonNegM
    norm_num [srgbA, cgB, kD65ACES]
  · refine yes ((fits_iff hs hd e1 e0 (matrix_same w1 w0 a1 b0)).2 ?_) (by simp)
    rw [mul_def]
    unfold NonNegM
    norm_num [srgbA, srgbB]
  · refine yes ((fits_iff hs hd e1 e1 (matrix_same w1 w1 a1 b1)).2 ?_) (by simp)
    rw [mul_def]
    unfold NonNegM
    norm_num [srgbA, srgbB]
  · refine yes ((fits_iff hs hd e1 e2 (matrix_same w1 w2 a1 b2)).2 ?_) (by simp)
    rw [mul_def]
    unfold NonNegM
    norm_num [srgbA, btB]
  · refine yes ((fits_iff hs hd e1 e3 (matrix_cat w1 w3 cat_D65DCI a1 b3)).2 ?_) (by simp)
    rw [mul_def, mul_def]
    unfold NonNegM
    norm_num [srgbA, p3B, kD65DCI]
  · refine yes ((fits_iff hs hd e1 e4 (matrix_same w1 w4 a1 b4)).2 ?_) (by simp)
    rw [mul_def]
    unfold NonNegM
    norm_num [srgbA, p3dB]
  · refine yes ((fits_iff hs hd e1 e5 (matrix_cat w1 w5 cat_D65ACES a1 b5)).2 ?_) (by simp)
    rw [mul_def, mul_def]
    unfold NonNegM
    norm_num [srgbA, cgB, kD65ACES]
  · refine ⟨fun h => ?_, fun h => ?_⟩
    · have h := ((fits_iff hs hd e2 e0 (matrix_same w2 w0 a2 b0)).1 h).1.2.1
      rw [mul_def] at h
      norm_num [btA, srgbB] at h
    · rw [e0, e1, e5, e2] at h
      rcases h with h | h | h | h
      · exact absurd h (by intro h; exact n02 h.symm)
      · exact absurd h (by intro h; exact n12 h.symm)
      · exact absurd h (by intro h; exact n05 h)
      · exact absurd h (by intro h; exact n02 h.symm)
  · refine ⟨fun h => ?_, fun h => ?_⟩
    · have h := ((fits_iff hs hd e2 e1 (matrix_same w2 w1 a2 b1)).1 h).1.2.1
      rw [mul_def] at h
      norm_num [btA, srgbB] at h
    · rw [e0, e1, e5, e2] at h
      rcases h with h | h | h | h
      · exact absurd h (by intro h; exact n02 h.symm)
      · exact absurd h (by intro h; exact n12 h.symm)
      · exact absurd h (by intro h; exact n15 h)
      · exact absurd h (by intro h; exact n12 h.symm)
  · refine yes ((fits_iff hs hd e2 e2 (matrix_same w2 w2 a2 b2)).2 ?_) (by simp)
    rw [mul_def]
    unfold NonNegM
    norm_num [btA, btB]
  · refine ⟨fun h => ?_, fun h => ?_⟩
    · have h := ((fits_iff hs hd e2 e3 (matrix_cat w2 w3 cat_D65DCI a2 b3)).1 h).1.2.1
      rw [mul_def, mul_def] at h
      norm_num [btA, p3B, kD65DCI] at h
    · rw [e0, e1, e5, e2, e3] at h
      rcases h with h | h | h | h
      · exact absurd h (by intro h; exact n02 h.symm)
      · exact absurd h (by intro h; exact n12 h.symm)
      · exact absurd h (by intro h; exact n35 h)
      · exact absurd h (by intro h; exact n23 h)
  · refine ⟨fun h => ?_, fun h => ?_⟩
    · have h := ((fits_iff hs hd e2 e4 (matrix_same w2 w4 a2 b4)).1 h).1.2.1
      rw [mul_def] at h
      norm_num [btA, p3dB] at h
    · rw [e0, e1, e5, e2, e4] at h
      rcases h with h | h | h | h
      · exact absurd h (by intro h; exact n02 h.symm)
      · exact absurd h (by intro h; exact n12 h.symm)
      · exact absurd h (by intro h; exact n45 h)
      · exact absurd h (by intro h; exact n24 h)
  · refine yes ((fits_iff hs hd e2 e5 (matrix_cat w2 w5 cat_D65ACES a2 b5)).2 ?_) (by simp)
    rw [mul_def, mul_def]
    unfold NonNegM
    norm_num [btA, cgB, kD65ACES]
  · refine ⟨fun h => ?_, fun h => ?_⟩
    · have h := ((fits_iff hs hd e3 e0 (matrix_cat w3 w0 cat_DCID65 a3 b0)).1 h).1.2.1
      rw [mul_def, mul_def] at h
      norm_num [p3A, srgbB, kDCID65] at h
    · rw [e0, e1, e5, e3] at h
      rcases h with h | h | h | h
      · exact absurd h (by intro h; exact n03 h.symm)
      · exact absurd h (by intro h; exact n13 h.symm)
      · exact absurd h (by intro h; exact n05 h)
      · exact absurd h (by intro h; exact n03 h.symm)
  · refine ⟨fun h => ?_, fun h => ?_⟩
    · have h := ((fits_iff hs hd e3 e1 (matrix_cat w3 w1 cat_DCID65 a3 b1)).1 h).1.2.1
      rw [mul_def, mul_def] at h
      norm_num [p3A, srgbB, kDCID65] at h
    · rw [e0, e1, e5, e3] at h
      rcases h with h | h | h | h
      · exact absurd h (by intro h; exact n03 h.symm)
      · exact absurd h (by intro h; exact n13 h.symm)
      · exact absurd h (by intro h; exact n15 h)
      · exact absurd h (by intro h; exact n13 h.symm)
  · refine ⟨fun h => ?_, fun h => ?_⟩
    · have h := ((fits_iff hs hd e3 e2 (matrix_cat w3 w2 cat_DCID65 a3 b2)).1 h).2.2.1
      rw [mul_def, mul_def] at h
      norm_num [p3A, btB, kDCID65] at h
    · rw [e0, e1, e5, e3, e2] at h
      rcases h with h | h | h | h
      · exact absurd h (by intro h; exact n03 h.symm)
      · exact absurd h (by intro h; exact n13 h.symm)
      · exact absurd h (by intro h; exact n25 h)
      · exact absurd h (by intro h; exact n23 h.symm)
  · refine yes ((fits_iff hs hd e3 e3 (matrix_same w3 w3 a3 b3)).2 ?_) (by simp)
    rw [mul_def]
    unfold NonNegM
    norm_num [p3A, p3B]
  · refine ⟨fun h => ?_, fun h => ?_⟩
    · have h := ((fits_iff hs hd e3 e4 (matrix_cat w3 w4 cat_DCID65 a3 b4)).1 h).2.1.1
      rw [mul_def, mul_def] at h
      norm_num [p3A, p3dB, kDCID65] at h
    · rw [e0, e1, e5, e3, e4] at h
      rcases h with h | h | h | h
      · exact absurd h (by intro h; exact n03 h.symm)
      · exact absurd h (by intro h; exact n13 h.symm)
      · exact absurd h (by intro h; exact n45 h)
      · exact absurd h (by intro h; exact n34 h)
  · refine yes ((fits_iff hs hd e3 e5 (matrix_cat w3 w5 cat_DCIACES a3 b5)).2 ?_) (by simp)
    rw [mul_def, mul_def]
    unfold NonNegM
    norm_num [p3A, cgB, kDCIACES]
  · refine ⟨fun h => ?_, fun h => ?_⟩
    · have h := ((fits_iff hs hd e4 e0 (matrix_same w4 w0 a4 b0)).1 h).1.2.1
      rw [mul_def] at h
      norm_num [p3dA, srgbB] at h
    · rw [e0, e1, e5, e4] at h
      rcases h with h | h | h | h
      · exact absurd h (by intro h; exact n04 h.symm)
      · exact absurd h (by intro h; exact n14 h.symm)
      · exact absurd h (by intro h; exact n05 h)
      · exact absurd h (by intro h; exact n04 h.symm)
  · refine ⟨fun h => ?_, fun h => ?_⟩
    · have h := ((fits_iff hs hd e4 e1 (matrix_same w4 w1 a4 b1)).1 h).1.2.1
      rw [mul_def] at h
      norm_num [p3dA, srgbB] at h
    · rw [e0, e1, e5, e4] at h
      rcases h with h | h | h | h
      · exact absurd h (by intro h; exact n04 h.symm)
      · exact absurd h (by intro h; exact n14 h.symm)
      · exact absurd h (by intro h; exact n15 h)
      · exact absurd h (by intro h; exact n14 h.symm)
  · refine ⟨fun h => ?_, fun h => ?_⟩
    · have h := ((fits_iff hs hd e4 e2 (matrix_same w4 w2 a4 b2)).1 h).2.2.1
      rw [mul_def] at h
      norm_num [p3dA, btB] at h
    · rw [e0, e1, e5, e4, e2] at h
      rcases h with h | h | h | h
      · exact absurd h (by intro h; exact n04 h.symm)
      · exact absurd h (by intro h; exact n14 h.symm)
      · exact absurd h (by intro h; exact n25 h)
      · exact absurd h (by intro h; exact n24 h.symm)
  · refine ⟨fun h => ?_, fun h => ?_⟩
    · have h := ((fits_iff hs hd e4 e3 (matrix_cat w4 w3 cat_D65DCI a4 b3)).1 h).1.2.1
      rw [mul_def, mul_def] at h
      norm_num [p3dA, p3B, kD65DCI] at h
    · rw [e0, e1, e5, e4, e3] at h
      rcases h with h | h | h | h
      · exact absurd h (by intro h; exact n04 h.symm)
      · exact absurd h (by intro h; exact n14 h.symm)
      · exact absurd h (by intro h; exact n35 h)
      · exact absurd h (by intro h; exact n34 h.symm)
  · refine yes ((fits_iff hs hd e4 e4 (matrix_same w4 w4 a4 b4)).2 ?_) (by simp)
    rw [mul_def]
    unfold NonNegM
    norm_num [p3dA, p3dB]
  · refine yes ((fits_iff hs hd e4 e5 (matrix_cat w4 w5 cat_D65ACES a4 b5)).2 ?_) (by simp)
    rw [mul_def, mul_def]
    unfold NonNegM
    norm_num [p3dA, cgB, kD65ACES]
  · refine ⟨fun h => ?_, fun h => ?_⟩
    · have h := ((fits_iff hs hd e5 e0 (matrix_cat w5 w0 cat_ACESD65 a5 b0)).1 h).1.2.1
      rw [mul_def, mul_def] at h
      norm_num [cgA, srgbB, kACESD65] at h
    · rw [e0, e1, e5] at h
      rcases h with h | h | h | h
      · exact absurd h (by intro h; exact n05 h.symm)
      · exact absurd h (by intro h; exact n15 h.symm)
      · exact absurd h (by intro h; exact n05 h)
      · exact absurd h (by intro h; exact n05 h.symm)
  · refine ⟨fun h => ?_, fun h => ?_⟩
    · have h := ((fits_iff hs hd e5 e1 (matrix_cat w5 w1 cat_ACESD65 a5 b1)).1 h).1.2.1
      rw [mul_def, mul_def] at h
      norm_num [cgA, srgbB, kACESD65] at h
    · rw [e0, e1, e5] at h
      rcases h with h | h | h | h
      · exact absurd h (by intro h; exact n05 h.symm)
      · exact absurd h (by intro h; exact n15 h.symm)
      · exact absurd h (by intro h; exact n15 h)
      · exact absurd h (by intro h; exact n15 h.symm)
  · refine ⟨fun h => ?_, fun h => ?_⟩
    · have h := ((fits_iff hs hd e5 e2 (matrix_cat w5 w2 cat_ACESD65 a5 b2)).1 h).1.2.1
      rw [mul_def, mul_def] at h
      norm_num [cgA, btB, kACESD65] at h
    · rw [e0, e1, e5, e2] at h
      rcases h with h | h | h | h
      · exact absurd h (by intro h; exact n05 h.symm)
      · exact absurd h (by intro h; exact n15 h.symm)
      · exact absurd h (by intro h; exact n25 h)
      · exact absurd h (by intro h; exact n25 h.symm)
  · refine ⟨fun h => ?_, fun h => ?_⟩
    · have h := ((fits_iff hs hd e5 e3 (matrix_cat w5 w3 cat_ACESDCI a5 b3)).1 h).1.2.1
      rw [mul_def, mul_def] at h
      norm_num [cgA, p3B, kACESDCI] at h
    · rw [e0, e1, e5, e3] at h
      rcases h with h | h | h | h
      · exact absurd h (by intro h; exact n05 h.symm)
      · exact absurd h (by intro h; exact n15 h.symm)
      · exact absurd h (by intro h; exact n35 h)
      · exact absurd h (by intro h; exact n35 h.symm)
  · refine ⟨fun h => ?_, fun h => ?_⟩
    · have h := ((fits_iff hs hd e5 e4 (matrix_cat w5 w4 cat_ACESD65 a5 b4)).1 h).1.2.1
      rw [mul_def, mul_def] at h
      norm_num [cgA, p3dB, kACESD65] at h
    · rw [e0, e1, e5, e4] at h
      rcases h with h | h | h | h
      · exact absurd h (by intro h; exact n05 h.symm)
      · exact absurd h (by intro h; exact n15 h.symm)
      · exact absurd h (by intro h; exact n45 h)
      · exact absurd h (by intro h; exact n45 h.symm)
  · refine yes ((fits_iff hs hd e5 e5 (matrix_same w5 w5 a5 b5)).2 ?_) (by simp)
    rw [mul_def]
    unfold NonNegM
    norm_num [cgA, cgB]

/-- Not vacuous: `DCI_P3` and `ACES_CG`, around different whites, are two of the six. -/
example : Shipped.dciP3 ratLit ∈ derivedSpaces ∧ Shipped.acesCg ratLit ∈ derivedSpaces := by simp [derivedSpaces]

end CS

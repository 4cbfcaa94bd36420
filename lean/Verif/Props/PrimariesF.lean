import Verif.Lemmas.FPPrimaries
import Verif.Props.InverseF
import Verif.Props.Space
import Verif.Props.Image

/-!
# C101: a colour space built from primaries, in floating point
-/

namespace CS

/-! ### specification -/

/-- the chromaticity `(x, y, 1 - x - y)` of the listed coordinates -/
def Spec.chromaticity3 {f : Fmt} (c : XYY (FP f)) : Fin 3 → ℚ := ![c.x.val, c.y.val, 1 - c.x.val - c.y.val]

/-- finite coordinates, with `x`, `y` and `1 - x - y` of magnitude at most 5/4 -/
def Spec.PlausibleXYY {f : Fmt} (c : XYY (FP f)) : Prop :=
  c.x.isFinite = true ∧ c.y.isFinite = true ∧ ∀ i, |Spec.chromaticity3 c i| ≤ 5 / 4

/-- the determinant of three chromaticities: twice the area of their triangle in the `x`, `y` plane -/
def Spec.triangle {f : Fmt} (a b c : XYY (FP f)) : ℚ :=
  Matrix.det (Matrix.of ![Spec.chromaticity3 a, Spec.chromaticity3 b, Spec.chromaticity3 c])

section
variable {f : Fmt} [Libm f]

/-- one row of the built matrix -/
theorem build_row (hf : Std f) (p q w : XYY (FP f)) (hp : Spec.PlausibleXYY p) (hq : Spec.PlausibleXYY q)
    (hw : Spec.PlausibleXYY w) (hy : 1 / 2 ^ 20 ≤ |w.y.val|) {δ : ℚ} (hδ : δ ≤ |Spec.triangle w p q|)
    (hu : 2 ^ 14 * f.u ≤ δ) (h20 : 1 / 2 ^ 60 ≤ δ) (c : Fin 3 → FP f)
    (hc : c = ![p.y * (FP.lit 1.0 - (q.x + q.y)) - q.y * (FP.lit 1.0 - (p.x + p.y)),
      q.x * (FP.lit 1.0 - (p.x + p.y)) - p.x * (FP.lit 1.0 - (q.x + q.y)), p.x * q.y - q.x * p.y])
    (e : Fin 3 → FP f)
    (he : ∀ i, e i = c i / ((c 0 * w.x + c 1 * w.y + c 2 * (FP.lit 1.0 - (w.x + w.y))) / w.y)) :
    (∀ i, (e i).isFinite = true) ∧
    |∑ j, (e j).val * (Spec.chromaticity3 w j / w.y.val) - 1| ≤ 85 * f.u / δ ∧
    |∑ j, (e j).val * Spec.chromaticity3 p j| ≤ 90 * f.u / δ ∧ |∑ j, (e j).val * Spec.chromaticity3 q j| ≤ 90 * f.u / δ := by
  have u0 := f.u_pos
  obtain ⟨zp1, zp2, zp3⟩ := zc_err hf hp.1 hp.2.1 (hp.2.2 2)
  obtain ⟨zq1, zq2, zq3⟩ := zc_err hf hq.1 hq.2.1 (hq.2.2 2)
  obtain ⟨zw1, zw2, zw3⟩ := zc_err hf hw.1 hw.2.1 (hw.2.2 2)
  have px : |p.x.val| ≤ 5 / 4 := hp.2.2 0
  have py : |p.y.val| ≤ 5 / 4 := hp.2.2 1
  have qx : |q.x.val| ≤ 5 / 4 := hq.2.2 0
  have qy : |q.y.val| ≤ 5 / 4 := hq.2.2 1
  have wx : |w.x.val| ≤ 5 / 4 := hw.2.2 0
  have wy : |w.y.val| ≤ 5 / 4 := hw.2.2 1
  have ex : ∀ x : ℚ, |x - x| ≤ 3.6 * f.u := fun x => by rw [sub_self, abs_zero]; positivity
  have c0 := cross_err hf hp.2.1 zq1 hq.2.1 zp1 py zq3 qy zp3 zq2 zp2
  have c1 := cross_err hf hq.1 zp1 hp.1 zq1 qx zp3 px zq3 zp2 zq2
  have c2 := cross_err hf hp.1 hq.2.1 hq.1 hp.2.1 px (qy.trans (by norm_num)) qx (py.trans (by norm_num))
    (ex _) (ex _)
  set C : Fin 3 → ℚ := ![p.y.val * (1 - q.x.val - q.y.val) - q.y.val * (1 - p.x.val - p.y.val),
      q.x.val * (1 - p.x.val - p.y.val) - p.x.val * (1 - q.x.val - q.y.val),
      p.x.val * q.y.val - q.x.val * p.y.val] with hC
  have hc' : ∀ i, (c i).isFinite = true ∧ |(c i).val - C i| ≤ 15.3 * f.u ∧ |(c i).val| ≤ 3.128 := by
    intro i; rw [hc]; fin_cases i
    exacts [c0, c1, c2]
  have hw' : ∀ i, ((![w.x, w.y, FP.lit 1.0 - (w.x + w.y)] : Fin 3 → FP f) i).isFinite = true ∧
      |((![w.x, w.y, FP.lit 1.0 - (w.x + w.y)] : Fin 3 → FP f) i).val - Spec.chromaticity3 w i| ≤ 3.6 * f.u ∧
      |((![w.x, w.y, FP.lit 1.0 - (w.x + w.y)] : Fin 3 → FP f) i).val| ≤ 1.2501 := by
    intro i; fin_cases i
    exacts [⟨hw.1, ex _, wx.trans (by norm_num)⟩, ⟨hw.2.1, ex _, wy.trans (by norm_num)⟩, ⟨zw1, zw2, zw3⟩]
  have hδ' : δ ≤ |C 0 * Spec.chromaticity3 w 0 + C 1 * Spec.chromaticity3 w 1 + C 2 * Spec.chromaticity3 w 2| := by
    refine hδ.trans (le_of_eq ?_)
    congr 1
    unfold Spec.triangle
    rw [Matrix.det_fin_three]
    simp [hC, Spec.chromaticity3]; ring
  have main := fun P hP hPC => prim_row_err hf (c := c) (w := ![w.x, w.y, FP.lit 1.0 - (w.x + w.y)]) (C := C)
    (W := Spec.chromaticity3 w) (P := P) hc' hw' hw.2.2 rfl rfl hy hδ' hu h20 hP hPC
  have e' : ∀ i, e i = c i / ((c 0 * (![w.x, w.y, FP.lit 1.0 - (w.x + w.y)] : Fin 3 → FP f) 0 +
      c 1 * (![w.x, w.y, FP.lit 1.0 - (w.x + w.y)] : Fin 3 → FP f) 1 +
      c 2 * (![w.x, w.y, FP.lit 1.0 - (w.x + w.y)] : Fin 3 → FP f) 2) /
      (![w.x, w.y, FP.lit 1.0 - (w.x + w.y)] : Fin 3 → FP f) 1) := he
  obtain ⟨a1, a2, a3⟩ := main (Spec.chromaticity3 p) hp.2.2 (by simp [hC, Spec.chromaticity3]; ring)
  obtain ⟨_, _, b3⟩ := main (Spec.chromaticity3 q) hq.2.2 (by simp [hC, Spec.chromaticity3]; ring)
  simp only [← e'] at a1 a2 a3 b3
  simp only [Fin.sum_univ_three]
  exact ⟨a1, a2, a3, b3⟩

end

/-! ## C101 -/

/-- C101 [F]: the XYZ to RGB matrix of a colour space built from primaries and a white point has finite
entries. It sends the white point to within `85/δ` roundings of `(1,1,1)`. Every primary has, in the two other
channels, at most `90/δ` roundings. Here `δ` bounds from below the three triangles of the white point and two
primaries. -/
theorem C101_white_and_primaries {f : Fmt} (hf : Std f) [Libm f] (r g b w : XYY (FP f))
    (o e : RGBf (FP f) → RGBf (FP f)) (cs : ColorSpaceRGB (FP f))
    (hcs : ColorSpaceRGB.new r g b w o e = .ok cs) (hr : Spec.PlausibleXYY r) (hg : Spec.PlausibleXYY g)
    (hb : Spec.PlausibleXYY b) (hw : Spec.PlausibleXYY w) (hy : 1 / 2 ^ 20 ≤ |w.y.val|) (δ : ℚ)
    (h1 : δ ≤ |Spec.triangle w g b|) (h2 : δ ≤ |Spec.triangle r w b|) (h3 : δ ≤ |Spec.triangle r g w|)
    (hu : 2 ^ 14 * f.u ≤ δ) (h60 : 1 / 2 ^ 60 ≤ δ) (i : Fin 3) :
    (∀ j, (cs.xf_xyz_to_rgb.get i j).isFinite = true) ∧
    |(Spec.exactM cs.xf_xyz_to_rgb).mulVec (fun j => Spec.chromaticity3 w j / w.y.val) i - 1| ≤ 85 * f.u / δ ∧
    ∀ k, k ≠ i → |(Spec.exactM cs.xf_xyz_to_rgb).mulVec (Spec.chromaticity3 (![r, g, b] k)) i| ≤ 90 * f.u / δ := by
  rw [(new_ok hcs).1]
  have sgn : ∀ x y : ℚ, x = y → |x| = |y| := fun x y h => by rw [h]
  have h2' : δ ≤ |Spec.triangle w b r| := h2.trans (le_of_eq (sgn _ _ (by
    unfold Spec.triangle; rw [Matrix.det_fin_three, Matrix.det_fin_three]; simp [Spec.chromaticity3]; ring)))
  have h3' : δ ≤ |Spec.triangle w r g| := h3.trans (le_of_eq (sgn _ _ (by
    unfold Spec.triangle; rw [Matrix.det_fin_three, Matrix.det_fin_three]; simp [Spec.chromaticity3]; ring)))
  set m := buildXyzToRgbMatrix r g b w with hm
  fin_cases i
  · obtain ⟨a, b1, c, d⟩ := build_row hf g b w hg hb hw hy h1 hu h60 _ rfl (m.get 0) (by
      intro j; fin_cases j <;> rfl)
    refine ⟨a, b1, fun k hk => ?_⟩
    fin_cases k
    exacts [absurd rfl hk, c, d]
  · obtain ⟨a, b1, c, d⟩ := build_row hf b r w hb hr hw hy h2' hu h60 _ rfl (m.get 1) (by
      intro j; fin_cases j <;> rfl)
    refine ⟨a, b1, fun k hk => ?_⟩
    fin_cases k
    exacts [d, absurd rfl hk, c]
  · obtain ⟨a, b1, c, d⟩ := build_row hf r g w hr hg hw hy h3' hu h60 _ rfl (m.get 2) (by
      intro j; fin_cases j <;> rfl)
    refine ⟨a, b1, fun k hk => ?_⟩
    fin_cases k
    exacts [c, d, absurd rfl hk]

/-- C101 [F]: the two matrices of a colour space built from primaries, with entries of the first at most `A`,
determinant at least `d` and a last column that does not look like `(0,0,1)`, multiply to the identity within
`300 A^6/d^2` roundings, in either order. -/
theorem C101_matrices_inverse {f : Fmt} (hf : Std f) [Libm f] (r g b w : XYY (FP f))
    (o e : RGBf (FP f) → RGBf (FP f)) (cs : ColorSpaceRGB (FP f))
    (hcs : ColorSpaceRGB.new r g b w o e = .ok cs)
    (hm : ∀ i j, (cs.xf_xyz_to_rgb.get i j).isFinite = true) (A d : ℚ)
    (hA : ∀ i j, |Spec.exactM cs.xf_xyz_to_rgb i j| ≤ A) (hA1 : 1 / 2 ^ 20 ≤ A) (hA2 : A ≤ 2 ^ 20)
    (hd : d ≤ |(Spec.exactM cs.xf_xyz_to_rgb).det|) (hd1 : 2 ^ 12 * (A ^ 3 * f.u) ≤ d) (hd2 : 1 / 2 ^ 60 ≤ d)
    (hg : 4 * f.u ≤ Spec.exactM cs.xf_xyz_to_rgb 0 2 ∨ 4 * f.u ≤ Spec.exactM cs.xf_xyz_to_rgb 1 2 ∨
      4 * f.u ≤ |Spec.exactM cs.xf_xyz_to_rgb 2 2 - 1|) (i j : Fin 3) :
    |(Spec.exactM cs.xf_xyz_to_rgb * Spec.exactM cs.xf_rgb_to_xyz) i j - (if i = j then 1 else 0)| ≤
      300 * (A ^ 6 / d ^ 2 * f.u) ∧
    |(Spec.exactM cs.xf_rgb_to_xyz * Spec.exactM cs.xf_xyz_to_rgb) i j - (if i = j then 1 else 0)| ≤
      300 * (A ^ 6 / d ^ 2 * f.u) :=
  C100_residual hf _ _ hm A d hA hA1 hA2 hd hd1 hd2 hg (new_ok hcs).2.1 i j

/-- Not vacuous: the primaries and the white point of sRGB in f32. -/
example [Libm Fmt.b32] : ∃ r g b w : XYY (FP Fmt.b32),
    (∃ cs, ColorSpaceRGB.new r g b w encode.srgb decode.srgb = .ok cs) ∧ Spec.PlausibleXYY r ∧ Spec.PlausibleXYY g ∧
    Spec.PlausibleXYY b ∧ Spec.PlausibleXYY w ∧ 1 / 2 ^ 20 ≤ |w.y.val| ∧ 1 / 25 ≤ |Spec.triangle w g b| ∧
    1 / 25 ≤ |Spec.triangle r w b| ∧ 1 / 25 ≤ |Spec.triangle r g w| ∧ 2 ^ 14 * Fmt.b32.u ≤ 1 / 25 := by
  let l := FP.ofQ Fmt.b32 false
  refine ⟨⟨l 0.64, l 0.33, l 1.0⟩, ⟨l 0.30, l 0.60, l 1.0⟩, ⟨l 0.15, l 0.06, l 1.0⟩, ⟨l 0.3127, l 0.3290, l 1.0⟩,
    ?_, ?_, ?_, ?_, ?_, ?_, ?_, ?_, ?_, ?_⟩
  · exact exists32 (r := Shipped.srgbDrv l) (.inl (by simp [Spec.gapless, l]))
  · exact ⟨of_decide_eq_true (by krefl), of_decide_eq_true (by krefl), of_decide_eq_true (by krefl)⟩
  · exact ⟨of_decide_eq_true (by krefl), of_decide_eq_true (by krefl), of_decide_eq_true (by krefl)⟩
  · exact ⟨of_decide_eq_true (by krefl), of_decide_eq_true (by krefl), of_decide_eq_true (by krefl)⟩
  · exact ⟨of_decide_eq_true (by krefl), of_decide_eq_true (by krefl), of_decide_eq_true (by krefl)⟩
  · exact of_decide_eq_true (by krefl)
  · unfold Spec.triangle; rw [Matrix.det_fin_three]; exact of_decide_eq_true (by krefl)
  · unfold Spec.triangle; rw [Matrix.det_fin_three]; exact of_decide_eq_true (by krefl)
  · unfold Spec.triangle; rw [Matrix.det_fin_three]; exact of_decide_eq_true (by krefl)
  · norm_num [Fmt.u, Fmt.b32]

end CS

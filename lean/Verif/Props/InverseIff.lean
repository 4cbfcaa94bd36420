import Verif.Props.Space
import Verif.Props.Matrix

/-!
# Exactly when inversion works (C12, C13, C20)

These complete the partial theorems of `Matrix.lean` and `Space.lean`: the claims are false of the code as
stated, and here is said for which inputs precisely.
-/

namespace CS
open Spec

/-- C12 [R]: on the branch that `C12_none_iff_partial` leaves out, `None` is returned exactly when the upper left
2x2 determinant `D` (not the determinant of the matrix) is below 1 in size and one of the four upper left entries,
or 1, is at least `|D| / 2^-1022`. -/
theorem C12_affine_none_iff (m : Matrix33 ℝ)
    (h : ¬ ((2:ℝ) ^ (-52 : ℤ) < m.x2 ∨ (2:ℝ) ^ (-52 : ℤ) < m.x5 ∨ (2:ℝ) ^ (-52 : ℤ) < |m.x8 - 1|)) :
    m.inverse = none ↔ |m.x0 * m.x4 - m.x3 * m.x1| < 1 ∧
      ∃ e ∈ [m.x0, m.x1, m.x3, m.x4, 1], |m.x0 * m.x4 - m.x3 * m.x1| / 2 ^ (-1022 : ℤ) ≤ |e| := by
  rw [← Option.not_isSome_iff_eq_none, Option.isSome_iff_exists]
  simp only [inverse_affine h, exists_and_left, exists_eq, and_true, not_or, not_le, not_forall, not_lt,
    exists_prop]
  rfl

/-- A matrix of that branch for which it matters: the determinant is 1, yet `None`. -/
example : ∃ m : Matrix33 ℝ, ¬ ((2:ℝ) ^ (-52 : ℤ) < m.x2 ∨ (2:ℝ) ^ (-52 : ℤ) < m.x5 ∨
    (2:ℝ) ^ (-52 : ℤ) < |m.x8 - 1|) ∧ (toM m).det = 1 ∧ m.inverse = none := by
  have h : ¬ ((2:ℝ) ^ (-52 : ℤ) < (⟨0, 0, -1, 0, 1, 0, 1, 0, 1⟩ : Matrix33 ℝ).x2 ∨
      (2:ℝ) ^ (-52 : ℤ) < (⟨0, 0, -1, 0, 1, 0, 1, 0, 1⟩ : Matrix33 ℝ).x5 ∨
      (2:ℝ) ^ (-52 : ℤ) < |(⟨0, 0, -1, 0, 1, 0, 1, 0, 1⟩ : Matrix33 ℝ).x8 - 1|) := by norm_num
  refine ⟨_, h, ?_, (C12_affine_none_iff _ h).2 ⟨by norm_num, 1, by simp, by norm_num⟩⟩
  rw [← determinant_eq]; norm_num [Matrix33.determinant, Matrix33.get]

/-- C13 [R]: whenever `gj_inverse` divides by no zero (its second pivot, the minor of the rows it has chosen, is
not zero unless it has stopped before), it returns `None` exactly when the first column is zero, or the second is
zero below the diagonal, or the matrix is singular. -/
theorem C13_gj_none_iff (m : Matrix33 ℝ) (p q q' : Fin 3)
    (hp : ∀ j, |m.get j 0| ≤ |m.get p 0|) (hp1 : ∀ j < p, |m.get j 0| < |m.get p 0|)
    (hq0 : 1 ≤ q) (hq : ∀ j, 1 ≤ j → |m.get j 1| ≤ |m.get q 1|)
    (hq1 : ∀ j, 1 ≤ j → j < q → |m.get j 1| < |m.get q 1|)
    (hqq : q' = Equiv.swap 0 p q)
    (hminor : m.get p 0 ≠ 0 → m.get q 1 ≠ 0 → m.get p 0 * m.get q' 1 - m.get q' 0 * m.get p 1 ≠ 0) :
    m.gjInverse = none ↔ (∀ j, m.get j 0 = 0) ∨ (m.get 1 1 = 0 ∧ m.get 2 1 = 0) ∨ (toM m).det = 0 := by
  have z0 : (∀ j, m.get j 0 = 0) ↔ m.get p 0 = 0 :=
    ⟨fun h => h p, fun h j => abs_eq_zero.1 (le_antisymm ((hp j).trans (by rw [h, abs_zero])) (abs_nonneg _))⟩
  have z1 : (m.get 1 1 = 0 ∧ m.get 2 1 = 0) ↔ m.get q 1 = 0 := by
    constructor
    · rintro ⟨h1, h2⟩
      fin_cases q
      · exact absurd hq0 (by decide)
      · exact h1
      · exact h2
    · intro h
      have : ∀ j, 1 ≤ j → m.get j 1 = 0 := fun j hj =>
        abs_eq_zero.1 (le_antisymm ((hq j hj).trans (by rw [h, abs_zero])) (abs_nonneg _))
      exact ⟨this 1 le_rfl, this 2 (by decide)⟩
  rw [z0, z1]
  by_cases h0 : m.get p 0 = 0
  · refine ⟨fun _ => Or.inl h0, fun _ => ?_⟩
    unfold Matrix33.gjInverse
    rw [fwd0 m p ⟨by simp, fun j _ => hp j, fun j _ h => hp1 j h⟩, if_pos h0]
    rfl
  by_cases h1 : m.get q 1 = 0
  · refine ⟨fun _ => Or.inr (Or.inl h1), fun _ => ?_⟩
    unfold Matrix33.gjInverse
    rw [fwd0 m p ⟨by simp, fun j _ => hp j, fun j _ h => hp1 j h⟩, if_neg h0]
    simp only [Option.bind_eq_bind, Option.bind_some]
    rw [fwd1 m q ⟨hq0, hq, hq1⟩, if_pos h1]
    rfl
  · have := (C13_gj_partial m p q q' hp hp1 hq0 hq hq1 hqq h0 h1 (hminor h0 h1)).1
    rw [this]
    simp [h0, h1]

/-- Not vacuous: the exchange of the first two axes, invertible, for which `None` is returned. -/
example : ∃ (m : Matrix33 ℝ) (p q q' : Fin 3), (∀ j, |m.get j 0| ≤ |m.get p 0|) ∧
    (∀ j < p, |m.get j 0| < |m.get p 0|) ∧ 1 ≤ q ∧ (∀ j, 1 ≤ j → |m.get j 1| ≤ |m.get q 1|) ∧
    (∀ j, 1 ≤ j → j < q → |m.get j 1| < |m.get q 1|) ∧ q' = Equiv.swap 0 p q ∧
    (m.get p 0 ≠ 0 → m.get q 1 ≠ 0 → m.get p 0 * m.get q' 1 - m.get q' 0 * m.get p 1 ≠ 0) ∧
    m.get 1 1 = 0 ∧ m.get 2 1 = 0 ∧ (toM m).det ≠ 0 := by
  refine ⟨⟨0, 1, 0, 1, 0, 0, 0, 0, 1⟩, 1, 1, Equiv.swap 0 1 1, ?_, ?_, le_rfl, ?_,
    fun j h h' => absurd h' (not_lt.2 h), rfl, fun _ h => absurd rfl h, rfl, rfl, ?_⟩
  · intro j; fin_cases j <;> norm_num [Matrix33.get]
  · intro j hj; fin_cases j <;> simp at hj ⊢ <;> norm_num [Matrix33.get]
  · intro j hj; fin_cases j <;> simp at hj ⊢ <;> norm_num [Matrix33.get]
  · rw [← determinant_eq]; norm_num [Matrix33.determinant, Matrix33.get]

/-- C20 [R]: the exact condition. The two matrices of a space built by `new` are mutually inverse exactly when
the last column of the XYZ to RGB matrix passes the branch test, or that column is `(0, 0, D)`, `D` the upper left
2x2 determinant, with `D = 1` or a last row `(0, 0, D)`. -/
theorem C20_mutually_inverse_iff (r g b w : XYY ℝ) (o e : RGBf ℝ → RGBf ℝ)
    (cs : ColorSpaceRGB ℝ) (hcs : ColorSpaceRGB.new r g b w o e = .ok cs) :
    (cs.xf_xyz_to_rgb * cs.xf_rgb_to_xyz = Matrix33.identity ∧
      cs.xf_rgb_to_xyz * cs.xf_xyz_to_rgb = Matrix33.identity) ↔
    ((2:ℝ) ^ (-52 : ℤ) < cs.xf_xyz_to_rgb.x2 ∨ (2:ℝ) ^ (-52 : ℤ) < cs.xf_xyz_to_rgb.x5 ∨
      (2:ℝ) ^ (-52 : ℤ) < |cs.xf_xyz_to_rgb.x8 - 1|) ∨
    (cs.xf_xyz_to_rgb.x2 = 0 ∧ cs.xf_xyz_to_rgb.x5 = 0 ∧
      cs.xf_xyz_to_rgb.x8 = cs.xf_xyz_to_rgb.x0 * cs.xf_xyz_to_rgb.x4 - cs.xf_xyz_to_rgb.x3 * cs.xf_xyz_to_rgb.x1 ∧
      (cs.xf_xyz_to_rgb.x0 * cs.xf_xyz_to_rgb.x4 - cs.xf_xyz_to_rgb.x3 * cs.xf_xyz_to_rgb.x1 = 1 ∨
        cs.xf_xyz_to_rgb.x6 = 0 ∧ cs.xf_xyz_to_rgb.x7 = 0)) := by
  by_cases h : (2:ℝ) ^ (-52 : ℤ) < cs.xf_xyz_to_rgb.x2 ∨ (2:ℝ) ^ (-52 : ℤ) < cs.xf_xyz_to_rgb.x5 ∨
      (2:ℝ) ^ (-52 : ℤ) < |cs.xf_xyz_to_rgb.x8 - 1|
  · exact iff_of_true (C20_mutually_inverse_partial r g b w o e cs hcs h) (Or.inl h)
  · obtain ⟨-, hi, -⟩ := new_ok hcs
    rw [← isInverse_iff, C11_inverse_affine_iff _ _ h hi]
    exact ⟨Or.inr, fun h' => h'.resolve_left h⟩

/-- C20 [R]: in terms of the arguments of `new`, with `tri` twice the signed area of the triangle of three
chromaticities. Unless `tri red green (0,0)` times `white.y` is within 2^-52 of `tri red green white`, relative to
the latter, the two matrices are mutually inverse. -/
theorem C20_generic (r g b w : XYY ℝ) (o e : RGBf ℝ → RGBf ℝ)
    (cs : ColorSpaceRGB ℝ) (hcs : ColorSpaceRGB.new r g b w o e = .ok cs) (hw : w.y ≠ 0)
    (h1 : tri w g b ≠ 0) (h2 : tri r w b ≠ 0) (h3 : tri r g w ≠ 0)
    (h : 2 ^ (-52 : ℤ) * |tri r g w| < |tri r g ⟨0, 0, 1⟩ * w.y - tri r g w|) :
    cs.xf_xyz_to_rgb * cs.xf_rgb_to_xyz = Matrix33.identity ∧
      cs.xf_rgb_to_xyz * cs.xf_xyz_to_rgb = Matrix33.identity := by
  refine C20_mutually_inverse_partial r g b w o e cs hcs (Or.inr (Or.inr ?_))
  obtain ⟨hm, -, -⟩ := new_ok hcs
  rw [hm, build_eq r g b w hw h1 h2 h3]
  show _ < |(r.x * g.y - g.x * r.y) * w.y / tri r g w - 1|
  have e0 : tri r g ⟨0, 0, 1⟩ = r.x * g.y - g.x * r.y := by simp only [tri]; ring
  rw [e0] at h
  rw [div_sub_one h3, abs_div, lt_div_iff₀ (abs_pos.2 h3)]
  exact h

/-- Not vacuous: the Rec.709 primaries with D65 satisfy all of it. -/
example : ∃ r g b w : XYY ℝ, r = ⟨0.64, 0.33, 1⟩ ∧ g = ⟨0.3, 0.6, 1⟩ ∧ b = ⟨0.15, 0.06, 1⟩ ∧
    w = ⟨0.3127, 0.329, 1⟩ ∧ w.y ≠ 0 ∧ tri w g b ≠ 0 ∧ tri r w b ≠ 0 ∧ tri r g w ≠ 0 ∧
    2 ^ (-52 : ℤ) * |tri r g w| < |tri r g ⟨0, 0, 1⟩ * w.y - tri r g w| := by
  refine ⟨_, _, _, _, rfl, rfl, rfl, rfl, ?_, ?_, ?_, ?_, ?_⟩ <;> norm_num [tri, abs_of_pos, abs_of_neg]

end CS

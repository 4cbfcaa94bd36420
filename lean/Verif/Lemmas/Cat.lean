import Verif.Lemmas.Inverse
import Verif.Model.Cat
import Mathlib.Tactic.NormNum

/-! # Lemmas about chromatic adaptation over the reals -/

namespace CS
open Spec

theorem toM_wpScale (a b : XYZ ℝ) :
    toM (wpScale a b) = Matrix.diagonal ![b.x / a.x, b.y / a.y, b.z / a.z] := by
  ext i j
  fin_cases i <;> fin_cases j <;> simp [toM, wpScale, Flt.zero]

theorem wpScale_self {a : XYZ ℝ} (hx : a.x ≠ 0) (hy : a.y ≠ 0) (hz : a.z ≠ 0) :
    wpScale a a = Matrix33.identity := by
  ext <;> simp [wpScale, Matrix33.identity, Flt.zero, Flt.one, hx, hy, hz]

theorem wpScale_mul {a b : XYZ ℝ} (hx : b.x ≠ 0) (hy : b.y ≠ 0) (hz : b.z ≠ 0) (c : XYZ ℝ) :
    wpScale b c * wpScale a b = wpScale a c := by
  rw [mul_def]
  ext <;> simp [wpScale, Flt.zero]
  · field_simp
  · field_simp
  · field_simp

theorem wpScale_mulX {a : XYZ ℝ} (hx : a.x ≠ 0) (hy : a.y ≠ 0) (hz : a.z ≠ 0) (b : XYZ ℝ) :
    wpScale a b * a = b := by
  rw [mulX_def]
  ext <;> simp [wpScale, Flt.zero, hx, hy, hz]

/-- A cone matrix for which the code's `inverse` succeeds with a true inverse. -/
structure GoodCone (MA MAi : Matrix33 ℝ) : Prop where
  eq : MA.inverse = some MAi
  inv : IsInverse MA MAi

theorem goodCone_of {MA : Matrix33 ℝ} (h : GeneralCase MA) (hd : 1 ≤ |MA.determinant|) :
    ∃ MAi, GoodCone MA MAi := by
  have h1 : MA.inverse = some (MA.cofactors.map (· / MA.determinant)) := by
    rw [inverse_general h, scaleBy_some_iff]; exact ⟨Or.inl hd, rfl⟩
  refine ⟨_, h1, ?_⟩
  have h0 : MA.determinant ≠ 0 := by rintro e; rw [e] at hd; norm_num at hd
  apply isInverse_of_left
  rw [map_div_get, Matrix.smul_mul, cof_mul, smul_smul, inv_mul_cancel₀ h0, one_smul]

theorem goodCone_cat02 : ∃ MAi, GoodCone cat02M MAi := by
  apply goodCone_of
  · exact Or.inr (Or.inl (by simp only [cat02M, flt_lit]; norm_num))
  · simp only [Matrix33.determinant, Matrix33.get, cat02M, flt_lit]; norm_num

theorem goodCone_bradford : ∃ MAi, GoodCone bradfordM MAi := by
  apply goodCone_of
  · exact Or.inr (Or.inl (by simp only [bradfordM, flt_lit]; norm_num))
  · simp only [Matrix33.determinant, Matrix33.get, bradfordM, flt_lit]; norm_num

theorem xyz_eqb_iff (a b : XYZ ℝ) : XYZ.eqb a b = true ↔ a = b := by
  simp [XYZ.eqb, XYZ.ext_iff, and_assoc]

/-- none of the three cone responses of `w` vanishes -/
def ConeNonzero (MA : Matrix33 ℝ) (w : XYZ ℝ) : Prop :=
  (MA * w).x ≠ 0 ∧ (MA * w).y ≠ 0 ∧ (MA * w).z ≠ 0

theorem catWith_eq {MA MAi : Matrix33 ℝ} (h : GoodCone MA MAi) (a b : XYZ ℝ)
    (ha : ConeNonzero MA a) :
    catWith MA a b = .ok (MAi * wpScale (MA * a) (MA * b) * MA) := by
  unfold catWith
  by_cases e : XYZ.eqb a b = true
  · rw [if_pos e]
    rw [xyz_eqb_iff] at e
    subst e
    rw [wpScale_self ha.1 ha.2.1 ha.2.2, m33_mul_one, ((isInverse_iff _ _).1 h.inv).2]
  · rw [if_neg e, h.eq]; rfl

theorem catWith_ok {T : Type} [Add T] [Sub T] [Mul T] [Div T] [Neg T] [Flt T]
    {MA : Matrix33 T} (h : MA.inverse.isSome = true) (a b : XYZ T) :
    ∃ m, catWith MA a b = .ok m := by
  obtain ⟨n, hn⟩ := Option.isSome_iff_exists.1 h
  unfold catWith
  split
  · exact ⟨_, rfl⟩
  · rw [hn]; exact ⟨_, rfl⟩

end CS

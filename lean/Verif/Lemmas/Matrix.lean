import Verif.Spec
import Verif.Lemmas.ColorOps
import Mathlib.Tactic.Ring
import Mathlib.Tactic.LinearCombination
import Mathlib.Tactic.FieldSimp
import Mathlib.Tactic.FinCases
import Mathlib.LinearAlgebra.Matrix.NonsingularInverse

/-! # Lemmas about 3x3 matrices over the reals -/

namespace CS
open Spec

theorem toM_inj {a b : Matrix33 ℝ} (h : toM a = toM b) : a = b := by
  have := fun i j => congrFun (congrFun h i) j
  ext
  · simpa [toM] using this 0 0
  · simpa [toM] using this 0 1
  · simpa [toM] using this 0 2
  · simpa [toM] using this 1 0
  · simpa [toM] using this 1 1
  · simpa [toM] using this 1 2
  · simpa [toM] using this 2 0
  · simpa [toM] using this 2 1
  · simpa [toM] using this 2 2

theorem mul_def (a b : Matrix33 ℝ) : a * b =
    ⟨a.x0 * b.x0 + a.x1 * b.x3 + a.x2 * b.x6, a.x0 * b.x1 + a.x1 * b.x4 + a.x2 * b.x7,
     a.x0 * b.x2 + a.x1 * b.x5 + a.x2 * b.x8,
     a.x3 * b.x0 + a.x4 * b.x3 + a.x5 * b.x6, a.x3 * b.x1 + a.x4 * b.x4 + a.x5 * b.x7,
     a.x3 * b.x2 + a.x4 * b.x5 + a.x5 * b.x8,
     a.x6 * b.x0 + a.x7 * b.x3 + a.x8 * b.x6, a.x6 * b.x1 + a.x7 * b.x4 + a.x8 * b.x7,
     a.x6 * b.x2 + a.x7 * b.x5 + a.x8 * b.x8⟩ := by
  show Matrix33.ofFn _ = _
  simp [Matrix33.ofFn, Matrix33.get, Flt.zero]

theorem toM_mul (a b : Matrix33 ℝ) : toM (a * b) = toM a * toM b := by
  rw [mul_def]
  ext i j
  fin_cases i <;> fin_cases j <;> simp [toM, Matrix.mul_apply, Fin.sum_univ_three]

theorem toM_identity : toM Matrix33.identity = 1 := by
  ext i j
  fin_cases i <;> fin_cases j <;> simp [toM, Matrix33.identity, Flt.zero, Flt.one]

theorem toM_transposed (a : Matrix33 ℝ) : toM a.transposed = (toM a).transpose := by
  ext i j
  fin_cases i <;> fin_cases j <;> simp [toM, Matrix33.transposed, Matrix33.get]

theorem determinant_eq (a : Matrix33 ℝ) : a.determinant = (toM a).det := by
  rw [Matrix.det_fin_three]
  simp [toM, Matrix33.determinant, Matrix33.get]
  ring

theorem mulX_def (a : Matrix33 ℝ) (v : XYZ ℝ) : a * v =
    ⟨a.x0 * v.x + a.x1 * v.y + a.x2 * v.z, a.x3 * v.x + a.x4 * v.y + a.x5 * v.z,
     a.x6 * v.x + a.x7 * v.y + a.x8 * v.z⟩ := rfl

theorem mulR_def (a : Matrix33 ℝ) (v : RGBf ℝ) : a * v =
    ⟨a.x0 * v.r + a.x1 * v.g + a.x2 * v.b, a.x3 * v.r + a.x4 * v.g + a.x5 * v.b,
     a.x6 * v.r + a.x7 * v.g + a.x8 * v.b⟩ := rfl

theorem vecX_mul (a : Matrix33 ℝ) (v : XYZ ℝ) : vecX (a * v) = (toM a).mulVec (vecX v) := by
  rw [mulX_def]
  ext i
  fin_cases i <;> simp [toM, vecX, Matrix.mulVec, dotProduct, Fin.sum_univ_three]

theorem vecR_mul (a : Matrix33 ℝ) (v : RGBf ℝ) : vecR (a * v) = (toM a).mulVec (vecR v) := by
  rw [mulR_def]
  ext i
  fin_cases i <;> simp [toM, vecR, Matrix.mulVec, dotProduct, Fin.sum_univ_three]

theorem vecX_inj {a b : XYZ ℝ} (h : vecX a = vecX b) : a = b := by
  ext
  · simpa [vecX] using congrFun h 0
  · simpa [vecX] using congrFun h 1
  · simpa [vecX] using congrFun h 2

theorem vecR_inj {a b : RGBf ℝ} (h : vecR a = vecR b) : a = b := by
  ext
  · simpa [vecR] using congrFun h 0
  · simpa [vecR] using congrFun h 1
  · simpa [vecR] using congrFun h 2

theorem m33_mul_assoc (a b c : Matrix33 ℝ) : a * b * c = a * (b * c) := by
  apply toM_inj; simp only [toM_mul, mul_assoc]
theorem m33_mul_one (a : Matrix33 ℝ) : a * Matrix33.identity = a := by
  apply toM_inj; rw [toM_mul, toM_identity, mul_one]
theorem m33_one_mul (a : Matrix33 ℝ) : Matrix33.identity * a = a := by
  apply toM_inj; rw [toM_mul, toM_identity, one_mul]
theorem m33_mul_mulX (a b : Matrix33 ℝ) (v : XYZ ℝ) : (a * b) * v = a * (b * v) := by
  apply vecX_inj; rw [vecX_mul, vecX_mul, vecX_mul, toM_mul, Matrix.mulVec_mulVec]
theorem m33_mul_mulR (a b : Matrix33 ℝ) (v : RGBf ℝ) : (a * b) * v = a * (b * v) := by
  apply vecR_inj; rw [vecR_mul, vecR_mul, vecR_mul, toM_mul, Matrix.mulVec_mulVec]
theorem m33_one_mulX (v : XYZ ℝ) : (Matrix33.identity : Matrix33 ℝ) * v = v := by
  apply vecX_inj; rw [vecX_mul, toM_identity, Matrix.one_mulVec]
theorem m33_one_mulR (v : RGBf ℝ) : (Matrix33.identity : Matrix33 ℝ) * v = v := by
  apply vecR_inj; rw [vecR_mul, toM_identity, Matrix.one_mulVec]

theorem isInverse_iff (m n : Matrix33 ℝ) :
    IsInverse m n ↔ m * n = Matrix33.identity ∧ n * m = Matrix33.identity := by
  unfold IsInverse
  rw [← toM_mul, ← toM_mul, ← toM_identity]
  exact ⟨fun h => ⟨toM_inj h.1, toM_inj h.2⟩, fun h => ⟨by rw [h.1], by rw [h.2]⟩⟩

theorem isInverse_of_left {m n : Matrix33 ℝ} (h : toM n * toM m = 1) : IsInverse m n :=
  ⟨mul_eq_one_comm.1 h, h⟩

/-- Entry test of the scaling step. -/
def entries (m : Matrix33 ℝ) : List ℝ := [m.x0, m.x1, m.x2, m.x3, m.x4, m.x5, m.x6, m.x7, m.x8]

theorem minPos_pos : (0 : ℝ) < Flt.minPos := by
  show (0:ℝ) < 2 ^ (-1022 : ℤ)
  exact zpow_pos (by norm_num) _

theorem scaleBy_some_iff (s : Matrix33 ℝ) (r : ℝ) (n : Matrix33 ℝ) :
    s.scaleBy r = some n ↔
      (1 ≤ |r| ∨ ∀ e ∈ entries s, |e| < |r| / Flt.minPos) ∧ n = s.map (· / r) := by
  unfold Matrix33.scaleBy
  simp only [Flt.ge, flt_le, Flt.one, flt_lit, flt_abs, Flt.gt, flt_lt, Matrix33.all,
    decide_eq_true_eq, entries]
  push_cast
  by_cases h : 1 ≤ |r|
  · simp [h, eq_comm]
  · have hc : (decide (|s.x0| < |r| / Flt.minPos) && decide (|s.x1| < |r| / Flt.minPos) &&
        decide (|s.x2| < |r| / Flt.minPos) && decide (|s.x3| < |r| / Flt.minPos) &&
        decide (|s.x4| < |r| / Flt.minPos) && decide (|s.x5| < |r| / Flt.minPos) &&
        decide (|s.x6| < |r| / Flt.minPos) && decide (|s.x7| < |r| / Flt.minPos) &&
        decide (|s.x8| < |r| / Flt.minPos)) = true ↔
        ∀ e ∈ [s.x0, s.x1, s.x2, s.x3, s.x4, s.x5, s.x6, s.x7, s.x8],
          |e| < |r| / Flt.minPos := by
      simp only [Bool.and_eq_true, decide_eq_true_eq, List.forall_mem_cons, List.not_mem_nil,
        false_imp_iff, implies_true, and_true, and_assoc]
    simp only [h, if_false, false_or, ← hc]
    by_cases h' : (decide (|s.x0| < |r| / Flt.minPos) && decide (|s.x1| < |r| / Flt.minPos) &&
        decide (|s.x2| < |r| / Flt.minPos) && decide (|s.x3| < |r| / Flt.minPos) &&
        decide (|s.x4| < |r| / Flt.minPos) && decide (|s.x5| < |r| / Flt.minPos) &&
        decide (|s.x6| < |r| / Flt.minPos) && decide (|s.x7| < |r| / Flt.minPos) &&
        decide (|s.x8| < |r| / Flt.minPos)) = true
    · simp only [h', if_true, Option.some.injEq, true_and, eq_comm]
    · simp only [h', if_false, false_and, reduceCtorEq]

theorem scaleBy_ne_zero {s : Matrix33 ℝ} {r : ℝ} {n : Matrix33 ℝ} (h : s.scaleBy r = some n) :
    r ≠ 0 := by
  rintro rfl
  obtain ⟨h1, -⟩ := (scaleBy_some_iff _ _ _).1 h
  rcases h1 with h1 | h1
  · norm_num at h1
  · have := h1 s.x0 (by simp [entries])
    simp at this
    exact absurd this (not_lt.2 (abs_nonneg _))

end CS

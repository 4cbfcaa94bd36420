import Verif.Lemmas.FPIn
import Verif.Lemmas.FPSym
import Verif.Lemmas.IdealLibm
import Verif.Model.Lab
import Mathlib.Analysis.Real.Pi.Bounds

/-!
# The steps of `delta_E_2000` in floating point
Interval bounds on every intermediate quantity for coordinates up to 1024.
-/

namespace CS
variable {f : Fmt} [Libm f]

/-- `x` is finite and within `e` of `X` -/
def Spec.NearBy (e : ℝ) (x : FP f) (X : ℝ) : Prop := x.isFinite = true ∧ |(x.val : ℝ) - X| ≤ e

/-- `θ` is the angle of the point `(x, y)`. On the negative half of the axis a negative zero in `y` may turn it
from `π` to `-π`, and at the origin it may also be `π` or `-π`, as IEEE 754 prescribes for signed zeros. -/
def Spec.IsAngle (y x : FP f) (θ : ℝ) : Prop :=
  θ = Complex.arg ⟨x.val, y.val⟩ ∨ (y.val = 0 ∧ x.val < 0 ∧ θ = -Real.pi) ∨
    (y.val = 0 ∧ x.val = 0 ∧ (θ = Real.pi ∨ θ = -Real.pi))

/-- What the colour-difference theorems assume of the platform's mathematical functions: each is within four
units of rounding (fourteen for the seventh power) of the exact function, on the range the code uses, and
`sqrt`, `hypot`, `exp` and the powers of numbers that are not negative are not negative. `hypot` of zeros is
zero, and so is the angle of a point on the positive axis. -/
structure Spec.MathAccurate (f : Fmt) [Libm f] : Prop where
  sqrt : ∀ x : FP f, x.isFinite = true → 0 ≤ x.val → x.val ≤ 2 ^ 30 →
    0 ≤ (Flt.sqrt x).val ∧ Spec.NearBy (4 * f.u * Real.sqrt x.val) (Flt.sqrt x) (Real.sqrt x.val)
  hypot : ∀ x y : FP f, x.isFinite = true → y.isFinite = true → |x.val| ≤ 2 ^ 11 → |y.val| ≤ 2 ^ 11 →
    0 ≤ (Flt.hypot x y).val ∧
    Spec.NearBy (4 * f.u * Real.sqrt ((x.val : ℝ) ^ 2 + (y.val : ℝ) ^ 2) + 2 * f.eta) (Flt.hypot x y)
      (Real.sqrt ((x.val : ℝ) ^ 2 + (y.val : ℝ) ^ 2))
  hypot_zero : ∀ x y : FP f, x.isFinite = true → y.isFinite = true → x.val = 0 → y.val = 0 → (Flt.hypot x y).val = 0
  square : ∀ x : FP f, x.isFinite = true → |x.val| ≤ 2 ^ 12 →
    0 ≤ (Flt.powi x 2).val ∧ Spec.NearBy (4 * f.u * (x.val : ℝ) ^ 2 + f.eta) (Flt.powi x 2) ((x.val : ℝ) ^ 2)
  seventh : ∀ x : FP f, x.isFinite = true → 0 ≤ x.val → x.val ≤ 2 ^ 11 →
    0 ≤ (Flt.powi x 7).val ∧ Spec.NearBy (14 * f.u * (x.val : ℝ) ^ 7 + 8 * f.eta) (Flt.powi x 7) ((x.val : ℝ) ^ 7)
  atan2 : ∀ y x : FP f, x.isFinite = true → y.isFinite = true →
    ∃ θ, Spec.IsAngle y x θ ∧ Spec.NearBy (4 * f.u * |θ| + 2 * f.eta) (Flt.atan2 y x) θ
  atan2_axis : ∀ y x : FP f, x.isFinite = true → y.isFinite = true → y.val = 0 → 0 < x.val → (Flt.atan2 y x).val = 0
  sin : ∀ x : FP f, x.isFinite = true → |x.val| ≤ 64 → Spec.NearBy (4 * f.u) (Flt.sin x) (Real.sin x.val)
  cos : ∀ x : FP f, x.isFinite = true → |x.val| ≤ 64 → Spec.NearBy (4 * f.u) (Flt.cos x) (Real.cos x.val)
  exp : ∀ x : FP f, x.isFinite = true → -(2 ^ 11) ≤ x.val → x.val ≤ 0 →
    0 ≤ (Flt.exp x).val ∧ Spec.NearBy (4 * f.u) (Flt.exp x) (Real.exp x.val)
  toDeg : ∀ x : FP f, x.isFinite = true → |x.val| ≤ 4 →
    Spec.NearBy (4 * f.u * |(x.val : ℝ) * (180 / Real.pi)| + f.eta) (Flt.toDeg x) (x.val * (180 / Real.pi))
  toRad : ∀ x : FP f, x.isFinite = true → |x.val| ≤ 2 ^ 12 →
    Spec.NearBy (4 * f.u * |(x.val : ℝ) * (Real.pi / 180)| + f.eta) (Flt.toRad x) (x.val * (Real.pi / 180))

section
variable (hf : Std f) (hm : Spec.MathAccurate f)
include hf

theorem Std.real_u : (0:ℝ) < f.u ∧ (f.u : ℝ) ≤ 1 / 2 ^ 24 ∧ (0:ℝ) < f.eta ∧ (f.eta : ℝ) ≤ 1 / 2 ^ 124 := by
  have h0 : (0:ℝ) < f.u := by exact_mod_cast f.u_pos
  have h1 : (f.u : ℝ) ≤ 1 / 2 ^ 24 := by qcast hf.hu
  have h2 : (0:ℝ) < f.eta := by exact_mod_cast f.eta_pos
  have h3 : (f.eta : ℝ) ≤ f.u / 2 ^ 124 := by qcast hf.wide.heta
  refine ⟨h0, h1, h2, h3.trans ?_⟩
  have : (f.u : ℝ) ≤ 1 := h1.trans (by norm_num)
  exact div_le_div_of_nonneg_right this (by positivity)

/-- from an error bound to an interval -/
theorem near_in {x : FP f} {X e : ℝ} {L H : ℚ} (h : Spec.NearBy e x X) (h1 : (L : ℝ) + e ≤ X) (h2 : X + e ≤ H) :
    In x L H := by
  obtain ⟨a, b⟩ := h
  have := abs_le.1 b
  refine ⟨a, ?_, ?_⟩
  · have : (L:ℝ) ≤ x.val := by linarith
    exact_mod_cast this
  · have : (x.val : ℝ) ≤ H := by linarith
    exact_mod_cast this

include hm

theorem in_sqrt {x : FP f} {l h H L : ℚ} (hx : In x l h) (l0 : 0 ≤ l) (hh : h ≤ 2 ^ 30) (L0 : 0 ≤ L)
    (hL : (L * (1 + 1 / 2 ^ 20)) ^ 2 ≤ l) (hH : h * (1 + 1 / 2 ^ 20) ^ 2 ≤ H ^ 2) (H0 : 0 ≤ H) :
    In (Flt.sqrt x) L H := by
  obtain ⟨u0, u1, -, -⟩ := hf.real_u
  have x0 := l0.trans hx.2.1
  obtain ⟨-, h⟩ := hm.sqrt x hx.1 x0 (hx.2.2.trans hh)
  have s0 := Real.sqrt_nonneg (x.val : ℝ)
  have e : 4 * (f.u : ℝ) * Real.sqrt x.val ≤ 1 / 2 ^ 22 * Real.sqrt x.val :=
    mul_le_mul_of_nonneg_right (by norm_num at u1 ⊢; linarith) s0
  have b1 : (L : ℝ) * (1 + 1 / 2 ^ 20) ≤ Real.sqrt x.val := by
    apply Real.le_sqrt_of_sq_le
    have : (L * (1 + 1 / 2 ^ 20)) ^ 2 ≤ x.val := hL.trans hx.2.1
    have : (((L * (1 + 1 / 2 ^ 20)) ^ 2 : ℚ) : ℝ) ≤ x.val := by exact_mod_cast this
    push_cast at this
    exact this
  have b2 : Real.sqrt x.val * (1 + 1 / 2 ^ 20) ≤ H := by
    have H0' : (0:ℝ) ≤ H := by exact_mod_cast H0
    refine le_of_sq_le_sq ?_ H0'
    rw [mul_pow, Real.sq_sqrt (by exact_mod_cast x0)]
    have : x.val * (1 + 1 / 2 ^ 20) ^ 2 ≤ H ^ 2 :=
      (mul_le_mul_of_nonneg_right hx.2.2 (by positivity)).trans hH
    have : ((x.val * (1 + 1 / 2 ^ 20) ^ 2 : ℚ) : ℝ) ≤ (H ^ 2 : ℚ) := by exact_mod_cast this
    push_cast at this
    exact this
  have L0' : (0:ℝ) ≤ L := by exact_mod_cast L0
  refine near_in hf h ?_ ?_
  · generalize Real.sqrt (x.val : ℝ) = S at *
    norm_num at b1 e ⊢
    linarith
  · generalize Real.sqrt (x.val : ℝ) = S at *
    norm_num at b2 e ⊢
    linarith

theorem in_hypot {x y : FP f} {X Y H : ℚ} (hx : In x (-X) X) (hy : In y (-Y) Y) (hX : X ≤ 2 ^ 11) (hY : Y ≤ 2 ^ 11)
    (H0 : 0 ≤ H) (hH : (X ^ 2 + Y ^ 2) ≤ H ^ 2) : In (Flt.hypot x y) 0 (H * (1 + 1 / 2 ^ 20) + 1 / 2 ^ 100) := by
  obtain ⟨u0, u1, e0, e1⟩ := hf.real_u
  obtain ⟨h0, h⟩ := hm.hypot x y hx.1 hy.1 (hx.abs_val.trans hX) (hy.abs_val.trans hY)
  refine ⟨h.1, h0, ?_⟩
  have H0' : (0:ℝ) ≤ H := by exact_mod_cast H0
  have b : Real.sqrt ((x.val : ℝ) ^ 2 + (y.val : ℝ) ^ 2) ≤ H := by
    rw [Real.sqrt_le_left H0']
    have h1 : x.val ^ 2 ≤ X ^ 2 := sq_le_sq' hx.2.1 hx.2.2
    have h2 : y.val ^ 2 ≤ Y ^ 2 := sq_le_sq' hy.2.1 hy.2.2
    have : x.val ^ 2 + y.val ^ 2 ≤ H ^ 2 := (add_le_add h1 h2).trans hH
    exact_mod_cast this
  have b3 := (abs_le.1 h.2).2
  have b4 : 4 * (f.u : ℝ) * Real.sqrt ((x.val : ℝ) ^ 2 + (y.val : ℝ) ^ 2) ≤ 1 / 2 ^ 20 * H :=
    mul_le_mul (by norm_num at u1 ⊢; linarith) b (Real.sqrt_nonneg _) (by norm_num)
  have : ((Flt.hypot x y : FP f).val : ℝ) ≤ ((H * (1 + 1 / 2 ^ 20) + 1 / 2 ^ 100 : ℚ) : ℝ) := by
    push_cast
    have : 2 * ((1:ℝ) / 2 ^ 124) ≤ 1 / 2 ^ 100 := by norm_num
    linarith
  exact_mod_cast this

theorem in_square {x : FP f} {X H : ℚ} (hx : In x (-X) X) (hX : X ≤ 2 ^ 12)
    (hH : X ^ 2 * (1 + 1 / 2 ^ 20) + 1 / 2 ^ 100 ≤ H) : In (Flt.powi x 2) 0 H := by
  obtain ⟨u0, u1, e0, e1⟩ := hf.real_u
  obtain ⟨h0, h⟩ := hm.square x hx.1 (hx.abs_val.trans hX)
  refine ⟨h.1, h0, ?_⟩
  have b3 := (abs_le.1 h.2).2
  have h1 : x.val ^ 2 ≤ X ^ 2 := sq_le_sq' hx.2.1 hx.2.2
  have h1' : (x.val : ℝ) ^ 2 ≤ (X : ℝ) ^ 2 := by exact_mod_cast h1
  have b4 : 4 * (f.u : ℝ) * (x.val : ℝ) ^ 2 ≤ 1 / 2 ^ 20 * (X:ℝ) ^ 2 :=
    mul_le_mul (by norm_num at u1 ⊢; linarith) h1' (sq_nonneg _) (by norm_num)
  have hH' : ((X ^ 2 * (1 + 1 / 2 ^ 20) + 1 / 2 ^ 100 : ℚ) : ℝ) ≤ H := by exact_mod_cast hH
  have : ((Flt.powi x 2 : FP f).val : ℝ) ≤ H := by
    push_cast at hH'
    have : (1:ℝ) / 2 ^ 124 ≤ 1 / 2 ^ 100 := by norm_num
    linarith
  exact_mod_cast this

theorem in_seventh {x : FP f} {l h L H : ℚ} (hx : In x l h) (l0 : 0 ≤ l) (hh : h ≤ 2 ^ 11)
    (hL : L ≤ l ^ 7 * (1 - 1 / 2 ^ 20) - 1 / 2 ^ 100) (hH : h ^ 7 * (1 + 1 / 2 ^ 20) + 1 / 2 ^ 100 ≤ H) :
    In (Flt.powi x 7) (max 0 L) H := by
  obtain ⟨u0, u1, e0, e1⟩ := hf.real_u
  have x0 := l0.trans hx.2.1
  obtain ⟨h0, k⟩ := hm.seventh x hx.1 x0 (hx.2.2.trans hh)
  obtain ⟨b2, b3⟩ := abs_le.1 k.2
  have x0' : (0:ℝ) ≤ (x.val : ℝ) ^ 7 := by
    have : (0:ℝ) ≤ x.val := by exact_mod_cast x0
    positivity
  have h1 : x.val ^ 7 ≤ h ^ 7 := pow_le_pow_left₀ x0 hx.2.2 7
  have h1' : (x.val : ℝ) ^ 7 ≤ (h : ℝ) ^ 7 := by exact_mod_cast h1
  have h2 : l ^ 7 ≤ x.val ^ 7 := pow_le_pow_left₀ l0 hx.2.1 7
  have h2' : (l : ℝ) ^ 7 ≤ (x.val : ℝ) ^ 7 := by exact_mod_cast h2
  have b4 : 14 * (f.u : ℝ) * (x.val : ℝ) ^ 7 ≤ 1 / 2 ^ 20 * (x.val:ℝ) ^ 7 :=
    mul_le_mul_of_nonneg_right (by norm_num at u1 ⊢; linarith) x0'
  have e2 : 8 * (f.eta : ℝ) ≤ 1 / 2 ^ 100 := by
    have : 8 * ((1:ℝ) / 2 ^ 124) ≤ 1 / 2 ^ 100 := by norm_num
    linarith
  refine ⟨k.1, max_le h0 ?_, ?_⟩
  · have hL' : (L : ℝ) ≤ ((l ^ 7 * (1 - 1 / 2 ^ 20) - 1 / 2 ^ 100 : ℚ) : ℝ) := by exact_mod_cast hL
    have : (L : ℝ) ≤ ((Flt.powi x 7 : FP f).val : ℝ) := by
      push_cast at hL'
      have : (l:ℝ) ^ 7 * (1 - 1 / 2 ^ 20) ≤ (x.val:ℝ) ^ 7 * (1 - 1 / 2 ^ 20) :=
        mul_le_mul_of_nonneg_right h2' (by norm_num)
      linarith
    exact_mod_cast this
  · have hH' : ((h ^ 7 * (1 + 1 / 2 ^ 20) + 1 / 2 ^ 100 : ℚ) : ℝ) ≤ H := by exact_mod_cast hH
    have : ((Flt.powi x 7 : FP f).val : ℝ) ≤ H := by
      push_cast at hH'
      have : (x.val:ℝ) ^ 7 * (1 + 1 / 2 ^ 20) ≤ (h:ℝ) ^ 7 * (1 + 1 / 2 ^ 20) :=
        mul_le_mul_of_nonneg_right h1' (by norm_num)
      linarith
    exact_mod_cast this

omit [Libm f] hf hm in
theorem Spec.IsAngle.abs_le {y x : FP f} {θ : ℝ} (h : Spec.IsAngle y x θ) : |θ| ≤ Real.pi := by
  have hp := Real.pi_pos
  rcases h with rfl | ⟨-, -, rfl⟩ | ⟨-, -, rfl | rfl⟩
  · exact Complex.abs_arg_le_pi _
  · rw [abs_neg, abs_of_pos hp]
  · rw [abs_of_pos hp]
  · rw [abs_neg, abs_of_pos hp]

theorem in_atan2 {y x : FP f} (hx : x.isFinite = true) (hy : y.isFinite = true) :
    In (Flt.atan2 y x) (-(13/4)) (13/4) := by
  obtain ⟨u0, u1, e0, e1⟩ := hf.real_u
  obtain ⟨A, hA, h⟩ := hm.atan2 y x hx hy
  have hp := Real.pi_lt_d2
  have ha := hA.abs_le
  have b : 4 * (f.u : ℝ) * |A| ≤ 1 / 2 ^ 22 * 3.15 :=
    mul_le_mul (by norm_num at u1 ⊢; linarith) (by linarith) (abs_nonneg _) (by norm_num)
  have := abs_le.1 ha
  refine near_in hf h ?_ ?_ <;> push_cast <;> norm_num at * <;> linarith

theorem in_toDeg {x : FP f} (hx : In x (-(13/4)) (13/4)) : In (Flt.toDeg x) (-187) 187 := by
  obtain ⟨u0, u1, e0, e1⟩ := hf.real_u
  have h := hm.toDeg x hx.1 (hx.abs_val.trans (by norm_num))
  have hp := Real.pi_gt_d4
  have hx' : |(x.val : ℝ)| ≤ 13 / 4 := by qcast hx.abs_val
  have ha : |(x.val : ℝ) * (180 / Real.pi)| ≤ 186.4 := by
    rw [abs_mul, abs_of_pos (a := 180 / Real.pi) (by positivity)]
    have : 180 / Real.pi ≤ 57.33 := by
      rw [div_le_iff₀ Real.pi_pos]; linarith
    calc |(x.val : ℝ)| * (180 / Real.pi) ≤ 13 / 4 * 57.33 := mul_le_mul hx' this (by positivity) (by norm_num)
      _ ≤ 186.4 := by norm_num
  generalize (x.val : ℝ) * (180 / Real.pi) = A at *
  have b : 4 * (f.u : ℝ) * |A| ≤ 1 / 2 ^ 22 * 186.4 :=
    mul_le_mul (by norm_num at u1 ⊢; linarith) ha (abs_nonneg _) (by norm_num)
  have := abs_le.1 ha
  refine near_in hf h ?_ ?_ <;> push_cast <;> norm_num at * <;> linarith

theorem in_toRad {x : FP f} {X H : ℚ} (hx : In x (-X) X) (hX : X ≤ 2 ^ 12)
    (hH : X * 0.0174534 + 1 / 2 ^ 20 ≤ H) : In (Flt.toRad x) (-H) H := by
  obtain ⟨u0, u1, e0, e1⟩ := hf.real_u
  have h := hm.toRad x hx.1 (hx.abs_val.trans hX)
  have hp := Real.pi_lt_d6
  have hx' : |(x.val : ℝ)| ≤ X := by exact_mod_cast hx.abs_val
  have hX' : (X : ℝ) ≤ 2 ^ 12 := by exact_mod_cast hX
  have X0 : (0:ℝ) ≤ X := (abs_nonneg _).trans hx'
  have hH' : ((X * 0.0174534 + 1 / 2 ^ 20 : ℚ) : ℝ) ≤ H := by exact_mod_cast hH
  have ha : |(x.val : ℝ) * (Real.pi / 180)| ≤ X * 0.01745330 := by
    rw [abs_mul, abs_of_pos (a := Real.pi / 180) (by positivity)]
    exact mul_le_mul hx' (by rw [div_le_iff₀ (by norm_num)]; norm_num at hp ⊢; linarith) (by positivity) X0
  generalize (x.val : ℝ) * (Real.pi / 180) = A at *
  have b : 4 * (f.u : ℝ) * |A| ≤ 1 / 2 ^ 22 * (X * 0.01745330) :=
    mul_le_mul (by norm_num at u1 ⊢; linarith) ha (abs_nonneg _) (by norm_num)
  have := abs_le.1 ha
  refine near_in hf h ?_ ?_ <;> push_cast at hH' ⊢ <;> norm_num at * <;> linarith

theorem in_sin {x : FP f} {X : ℚ} (hx : In x (-X) X) (hX : X ≤ 64) :
    In (Flt.sin x) (-(1 + 1 / 2 ^ 8)) (1 + 1 / 2 ^ 8) := by
  obtain ⟨u0, u1, e0, e1⟩ := hf.real_u
  have h := hm.sin x hx.1 (hx.abs_val.trans hX)
  have h1 := Real.sin_le_one (x.val : ℝ)
  have h2 := Real.neg_one_le_sin (x.val : ℝ)
  refine near_in hf h ?_ ?_ <;> push_cast <;> norm_num at * <;> linarith

theorem in_cos {x : FP f} {X : ℚ} (hx : In x (-X) X) (hX : X ≤ 64) :
    In (Flt.cos x) (-(1 + 1 / 2 ^ 8)) (1 + 1 / 2 ^ 8) := by
  obtain ⟨u0, u1, e0, e1⟩ := hf.real_u
  have h := hm.cos x hx.1 (hx.abs_val.trans hX)
  have h1 := Real.cos_le_one (x.val : ℝ)
  have h2 := Real.neg_one_le_cos (x.val : ℝ)
  refine near_in hf h ?_ ?_ <;> push_cast <;> norm_num at * <;> linarith

theorem in_exp {x : FP f} {l : ℚ} (hx : In x l 0) (hl : -(2 ^ 11) ≤ l) : In (Flt.exp x) 0 (1 + 1 / 2 ^ 16) := by
  obtain ⟨u0, u1, e0, e1⟩ := hf.real_u
  obtain ⟨h0, h⟩ := hm.exp x hx.1 (hl.trans hx.2.1) hx.2.2
  have h1 : Real.exp (x.val : ℝ) ≤ 1 := Real.exp_le_one_iff.2 (by exact_mod_cast hx.2.2)
  have h2 := Real.exp_pos (x.val : ℝ)
  generalize Real.exp (x.val : ℝ) = S at *
  have := near_in hf (L := -1) (H := 1 + 1 / 2 ^ 16) h (by push_cast; norm_num at *; linarith)
    (by push_cast; norm_num at *; linarith)
  exact ⟨this.1, h0, this.2.2⟩

end
end CS

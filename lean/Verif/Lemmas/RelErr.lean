import Mathlib.Analysis.SpecialFunctions.Pow.Real
import Mathlib.Analysis.SpecialFunctions.Exp
import Mathlib.Analysis.Complex.Exponential

/-!
# Relative errors as exponents
`RelE t x X`: `x` is `X` up to a factor between `exp (-t)` and `exp t`. Such errors add up under
multiplication and division and scale under powers.
-/

namespace CS

/-- `x` approximates `X > 0` within a factor `exp t` either way -/
structure RelE (t x X : ℝ) : Prop where
  pos : 0 < X
  lo : X * Real.exp (-t) ≤ x
  hi : x ≤ X * Real.exp t

namespace RelE
variable {s t x X y Y Z : ℝ}

theorem xpos (h : RelE t x X) : 0 < x := lt_of_lt_of_le (mul_pos h.pos (Real.exp_pos _)) h.lo

theorem refl (hX : 0 < X) (ht : 0 ≤ t) : RelE t X X := by
  refine ⟨hX, ?_, ?_⟩
  · have : Real.exp (-t) ≤ 1 := Real.exp_le_one_iff.2 (by linarith)
    nlinarith
  · have : 1 ≤ Real.exp t := Real.one_le_exp ht
    nlinarith

theorem mono (h : RelE s x X) (hst : s ≤ t) : RelE t x X := by
  refine ⟨h.pos, le_trans ?_ h.lo, le_trans h.hi ?_⟩
  · exact mul_le_mul_of_nonneg_left (Real.exp_le_exp.2 (by linarith)) h.pos.le
  · exact mul_le_mul_of_nonneg_left (Real.exp_le_exp.2 hst) h.pos.le

theorem congr (h : RelE t x X) (e : X = Y) : RelE t x Y := e ▸ h

theorem trans (h1 : RelE s x X) (h2 : RelE t X Y) : RelE (s + t) x Y := by
  refine ⟨h2.pos, le_trans ?_ h1.lo, le_trans h1.hi ?_⟩
  · rw [neg_add, add_comm, Real.exp_add, ← mul_assoc]
    exact mul_le_mul_of_nonneg_right h2.lo (Real.exp_pos _).le
  · rw [add_comm, Real.exp_add, ← mul_assoc]
    exact mul_le_mul_of_nonneg_right h2.hi (Real.exp_pos _).le

theorem symm (h : RelE t x X) : RelE t X x := by
  refine ⟨h.xpos, ?_, ?_⟩
  · have := mul_le_mul_of_nonneg_right h.hi (Real.exp_pos (-t)).le
    rwa [mul_assoc, ← Real.exp_add, add_neg_cancel, Real.exp_zero, mul_one] at this
  · have := mul_le_mul_of_nonneg_right h.lo (Real.exp_pos t).le
    rwa [mul_assoc, ← Real.exp_add, neg_add_cancel, Real.exp_zero, mul_one] at this

theorem mul (h1 : RelE s x X) (h2 : RelE t y Y) : RelE (s + t) (x * y) (X * Y) := by
  refine ⟨mul_pos h1.pos h2.pos, ?_, ?_⟩
  · rw [neg_add, Real.exp_add, mul_mul_mul_comm]
    exact mul_le_mul h1.lo h2.lo (mul_pos h2.pos (Real.exp_pos _)).le h1.xpos.le
  · rw [Real.exp_add, mul_mul_mul_comm]
    exact mul_le_mul h1.hi h2.hi h2.xpos.le (mul_pos h1.pos (Real.exp_pos _)).le

theorem inv (h : RelE t x X) : RelE t x⁻¹ X⁻¹ := by
  refine ⟨inv_pos.2 h.pos, ?_, ?_⟩
  · rw [Real.exp_neg, ← mul_inv]
    exact inv_anti₀ h.xpos h.hi
  · have : Real.exp t = (Real.exp (-t))⁻¹ := by rw [Real.exp_neg, inv_inv]
    rw [this, ← mul_inv]
    exact inv_anti₀ (mul_pos h.pos (Real.exp_pos _)) h.lo

theorem div (h1 : RelE s x X) (h2 : RelE t y Y) : RelE (s + t) (x / y) (X / Y) := by
  rw [div_eq_mul_inv, div_eq_mul_inv]
  exact h1.mul h2.inv

theorem add (h1 : RelE t x X) (h2 : RelE t y Y) : RelE t (x + y) (X + Y) := by
  refine ⟨add_pos h1.pos h2.pos, ?_, ?_⟩
  · rw [add_mul]; exact add_le_add h1.lo h2.lo
  · rw [add_mul]; exact add_le_add h1.hi h2.hi

theorem rpow (h : RelE t x X) {a : ℝ} (ha : 0 ≤ a) : RelE (a * t) (x ^ a) (X ^ a) := by
  refine ⟨Real.rpow_pos_of_pos h.pos _, ?_, ?_⟩
  · have := Real.rpow_le_rpow (mul_pos h.pos (Real.exp_pos _)).le h.lo ha
    rw [Real.mul_rpow h.pos.le (Real.exp_pos _).le, ← Real.exp_mul] at this
    rwa [show -(a * t) = -t * a by ring]
  · have := Real.rpow_le_rpow h.xpos.le h.hi ha
    rw [Real.mul_rpow h.pos.le (Real.exp_pos _).le, ← Real.exp_mul] at this
    rwa [mul_comm a t]

/-- `exp t - 1` for small `t` -/
theorem exp_sub_one_le {t : ℝ} (h0 : 0 ≤ t) (h1 : t ≤ 1) : Real.exp t - 1 ≤ t * (1 + t) := by
  have := (abs_le.1 (Real.abs_exp_sub_one_sub_id_le (by rw [abs_of_nonneg h0]; exact h1))).2
  nlinarith

theorem to_abs (h : RelE t x X) (h0 : 0 ≤ t) (h1 : t ≤ 1) : |x - X| ≤ X * (t * (1 + t)) := by
  have e1 := exp_sub_one_le h0 h1
  have e2 : 1 - Real.exp (-t) ≤ t := by
    have := Real.add_one_le_exp (-t); linarith
  have hp := h.pos
  rw [abs_le]
  constructor
  · have := h.lo
    have e3 : X * (1 - Real.exp (-t)) ≤ X * t := mul_le_mul_of_nonneg_left e2 hp.le
    have : X * t ≤ X * (t * (1 + t)) := mul_le_mul_of_nonneg_left (by nlinarith) hp.le
    nlinarith
  · have := h.hi
    have e3 : X * (Real.exp t - 1) ≤ X * (t * (1 + t)) := mul_le_mul_of_nonneg_left e1 hp.le
    linarith

theorem of_abs {δ : ℝ} (hX : 0 < X) (hδ : δ < 1) (h : |x - X| ≤ X * δ) (ht : δ / (1 - δ) ≤ t) :
    RelE t x X := by
  have h1 : 0 < 1 - δ := by linarith
  have hd0 : 0 ≤ δ := by
    by_contra hc
    have := mul_neg_of_pos_of_neg hX (not_le.1 hc)
    linarith [abs_nonneg (x - X)]
  have ht0 : 0 ≤ t := le_trans (div_nonneg hd0 h1.le) ht
  have hdt : δ ≤ t := by
    refine le_trans ?_ ht
    rw [le_div_iff₀ h1]; nlinarith
  refine ⟨hX, ?_, ?_⟩
  · have e : Real.exp (-t) ≤ 1 - δ := by
      rw [Real.exp_neg, inv_le_comm₀ (Real.exp_pos _) h1]
      refine le_trans ?_ (Real.add_one_le_exp t)
      rw [div_le_iff₀ h1] at ht
      rw [inv_le_iff_one_le_mul₀ h1]; nlinarith
    have := (abs_le.1 h).1
    nlinarith
  · have e := Real.add_one_le_exp t
    have := (abs_le.1 h).2
    nlinarith

/-- a perturbed exponent -/
theorem rpow_exp {b B L : ℝ} (hX : 0 < X) (hL : |Real.log X| ≤ L) (hb : RelE s b B) (hs : 0 ≤ s)
    (hs1 : s ≤ 1) (ht : L * (B * (s * (1 + s))) ≤ t) : RelE t (X ^ b) (X ^ B) := by
  have h1 := hb.to_abs hs hs1
  have h2 : |Real.log X * (b - B)| ≤ t := by
    rw [abs_mul]
    refine le_trans ?_ ht
    exact mul_le_mul hL h1 (abs_nonneg _) (le_trans (abs_nonneg _) hL)
  have e : X ^ b = X ^ B * Real.exp (Real.log X * (b - B)) := by
    rw [Real.rpow_def_of_pos hX, Real.rpow_def_of_pos hX, ← Real.exp_add]
    congr 1; ring
  rw [e]
  refine ⟨Real.rpow_pos_of_pos hX _, ?_, ?_⟩
  · exact mul_le_mul_of_nonneg_left (Real.exp_le_exp.2 (abs_le.1 h2).1) (Real.rpow_pos_of_pos hX _).le
  · exact mul_le_mul_of_nonneg_left (Real.exp_le_exp.2 (abs_le.1 h2).2) (Real.rpow_pos_of_pos hX _).le

end RelE
end CS

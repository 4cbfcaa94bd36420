import Verif.Lemmas.FPErr
import Verif.Lemmas.FPArith
import Verif.Model.Matrix
import Mathlib.Tactic.Positivity
import Mathlib.Tactic.GCongr
import Mathlib.Tactic.Linarith
import Mathlib.Tactic.NormNum

/-!
# Rounding error of three-term dot products
-/

namespace CS
variable {f : Fmt}

theorem Fmt.eta_le (f : Fmt) : f.eta ≤ 1 / 8 := by
  unfold Fmt.eta
  have h : f.emin - f.p ≤ -3 := by
    have h1 := f.hp
    have h2 := f.hpe
    unfold Fmt.emin
    omega
  calc (2:ℚ) ^ (f.emin - f.p) ≤ 2 ^ (-3 : ℤ) := zpow_le_zpow_right₀ (by norm_num) h
    _ = 1 / 8 := by norm_num

theorem Fmt.pow_emax_ge (f : Fmt) : (4:ℚ) ≤ 2 ^ f.emax := by
  have h1 := f.hp
  have h2 := f.hpe
  calc (4:ℚ) = 2 ^ 2 := by norm_num
    _ ≤ 2 ^ f.emax := pow_le_pow_right₀ (by norm_num) (by omega)

/-- rational core of the dot-product bound: `p i` are the rounded products, `s` the rounded partial
sum, `r` the rounded result -/
theorem dot3_core {a0 a1 a2 p0 p1 p2 s r u η : ℚ} (hu : 0 ≤ u) (hu4 : u ≤ 1 / 4) (hη : 0 ≤ η)
    (h0 : |p0 - a0| ≤ |a0| * u + η) (h1 : |p1 - a1| ≤ |a1| * u + η)
    (h2 : |p2 - a2| ≤ |a2| * u + η)
    (hs : |s - (p0 + p1)| ≤ |p0 + p1| * u) (hr : |r - (s + p2)| ≤ |s + p2| * u) :
    |r - (a0 + a1 + a2)| ≤ 4 * u * (|a0| + |a1| + |a2|) + 5 * η := by
  have A0 := abs_nonneg a0
  have A1 := abs_nonneg a1
  have A2 := abs_nonneg a2
  have tp : ∀ {p a : ℚ}, |p - a| ≤ |a| * u + η → |p| ≤ |a| * (1 + u) + η := by
    intro p a h
    have := abs_add_le (p - a) a
    rw [sub_add_cancel] at this
    linarith
  have P0 := tp h0
  have P1 := tp h1
  have P2 := tp h2
  have hp01 : |p0 + p1| ≤ (|a0| + |a1|) * (1 + u) + 2 * η := by
    have := abs_add_le p0 p1
    linarith
  have hs' : |s| ≤ |p0 + p1| * (1 + u) := by
    have := abs_add_le (s - (p0 + p1)) (p0 + p1)
    rw [sub_add_cancel] at this
    linarith
  have hsp : |s + p2| ≤ |p0 + p1| * (1 + u) + (|a2| * (1 + u) + η) := by
    have := abs_add_le s p2
    linarith
  have key : |r - (a0 + a1 + a2)| ≤ |s + p2| * u + |p0 + p1| * u + (|a0| * u + η) + (|a1| * u + η)
      + (|a2| * u + η) := by
    have e : r - (a0 + a1 + a2)
      = (r - (s + p2)) + (s - (p0 + p1)) + (p0 - a0) + (p1 - a1) + (p2 - a2) := by ring
    rw [e]
    have t1 := abs_add_le ((r - (s + p2)) + (s - (p0 + p1)) + (p0 - a0) + (p1 - a1)) (p2 - a2)
    have t2 := abs_add_le ((r - (s + p2)) + (s - (p0 + p1)) + (p0 - a0)) (p1 - a1)
    have t3 := abs_add_le ((r - (s + p2)) + (s - (p0 + p1))) (p0 - a0)
    have t4 := abs_add_le (r - (s + p2)) (s - (p0 + p1))
    linarith
  have b1 : |p0 + p1| * u ≤ ((|a0| + |a1|) * (1 + u) + 2 * η) * u :=
    mul_le_mul_of_nonneg_right hp01 hu
  have b2 : |s + p2| * u ≤ (((|a0| + |a1|) * (1 + u) + 2 * η) * (1 + u) + (|a2| * (1 + u) + η)) * u :=
    mul_le_mul_of_nonneg_right (le_trans hsp (by nlinarith)) hu
  have hu2 : u * u ≤ u / 4 := by nlinarith
  have hu3 : u * u * u ≤ u / 16 := by nlinarith
  have q : ∀ A : ℚ, 0 ≤ A → A * (u * u) ≤ A * (u / 4) := fun A hA => mul_le_mul_of_nonneg_left hu2 hA
  have q3 : ∀ A : ℚ, 0 ≤ A → A * (u * u * u) ≤ A * (u / 16) :=
    fun A hA => mul_le_mul_of_nonneg_left hu3 hA
  have g1 : η * u ≤ η * (1/4) := mul_le_mul_of_nonneg_left hu4 hη
  have g2 : η * (u * u) ≤ η * (1/16) := mul_le_mul_of_nonneg_left (by nlinarith) hη
  have m0 := mul_nonneg A0 hu
  have m1 := mul_nonneg A1 hu
  have m2 := mul_nonneg A2 hu
  have := q _ A0
  have := q _ A1
  have := q _ A2
  have := q3 _ A0
  have := q3 _ A1
  nlinarith

/-- Error of `a0*b0 + a1*b1 + a2*b2` in any format. -/
theorem dot3_err {a0 a1 a2 b0 b1 b2 : FP f} (ha0 : a0.isFinite = true) (ha1 : a1.isFinite = true)
    (ha2 : a2.isFinite = true) (hb0 : b0.isFinite = true) (hb1 : b1.isFinite = true)
    (hb2 : b2.isFinite = true)
    (hS : |a0.val * b0.val| + |a1.val * b1.val| + |a2.val * b2.val| ≤ 2 ^ f.emax / 2) :
    (a0 * b0 + a1 * b1 + a2 * b2).isFinite = true ∧
    |(a0 * b0 + a1 * b1 + a2 * b2).val - (a0.val * b0.val + a1.val * b1.val + a2.val * b2.val)| ≤
      4 * f.u * (|a0.val * b0.val| + |a1.val * b1.val| + |a2.val * b2.val|) + 5 * f.eta := by
  have A0 := abs_nonneg (a0.val * b0.val)
  have A1 := abs_nonneg (a1.val * b1.val)
  have A2 := abs_nonneg (a2.val * b2.val)
  have hB := f.pow_emax_ge
  have hη := f.eta_le
  have hη0 := f.eta_pos.le
  have hu := f.u_le
  have hu0 := f.u_pos.le
  obtain ⟨f0, e0⟩ := FP.mul_err ha0 hb0 (by linarith)
  obtain ⟨f1, e1⟩ := FP.mul_err ha1 hb1 (by linarith)
  obtain ⟨f2, e2⟩ := FP.mul_err ha2 hb2 (by linarith)
  have tp : ∀ {p a : ℚ}, |p - a| ≤ |a| * f.u + f.eta → |p| ≤ |a| * (5/4) + 1/8 := by
    intro p a h
    have := abs_add_le (p - a) a
    rw [sub_add_cancel] at this
    nlinarith [abs_nonneg a]
  have P0 := tp e0
  have P1 := tp e1
  have P2 := tp e2
  have hp : |(a0 * b0).val + (a1 * b1).val| ≤ (|a0.val * b0.val| + |a1.val * b1.val|) * (5/4) + 1/4 := by
    have := abs_add_le (a0 * b0).val (a1 * b1).val
    linarith
  obtain ⟨fs, es⟩ := FP.add_err f0 f1 (by linarith)
  have hs : |(a0 * b0 + a1 * b1).val| ≤ |(a0 * b0).val + (a1 * b1).val| * (5/4) := by
    have := abs_add_le ((a0 * b0 + a1 * b1).val - ((a0 * b0).val + (a1 * b1).val))
      ((a0 * b0).val + (a1 * b1).val)
    rw [sub_add_cancel] at this
    nlinarith [abs_nonneg ((a0 * b0).val + (a1 * b1).val)]
  obtain ⟨fr, er⟩ := FP.add_err fs f2 (by
    have := abs_add_le (a0 * b0 + a1 * b1).val (a2 * b2).val
    linarith)
  exact ⟨fr, dot3_core hu0 hu hη0 e0 e1 e2 es er⟩

end CS

import Mathlib.Analysis.SpecialFunctions.Trigonometric.Arctan
import Mathlib.Analysis.SpecialFunctions.Trigonometric.Bounds
import Mathlib.Analysis.SpecialFunctions.Complex.Arg
import Mathlib.Analysis.SpecialFunctions.ExpDeriv
import Mathlib.Tactic.Linarith
import Mathlib.Tactic.Positivity
import Mathlib.Tactic.FieldSimp

/-!
# How the quantities of CIEDE2000 move when their arguments do
Real analysis only: angles, square roots, the quadratic form of the last step.
-/

namespace CS

theorem arctan_abs_le (z : ℝ) : |Real.arctan z| ≤ |z| := by
  have key : ∀ w : ℝ, 0 ≤ w → Real.arctan w ≤ w := fun w hw => by
    have := Real.le_tan (Real.arctan_nonneg.2 hw) (Real.arctan_lt_pi_div_two w)
    rwa [Real.tan_arctan] at this
  rcases le_total 0 z with h | h
  · rw [abs_of_nonneg h, abs_of_nonneg (Real.arctan_nonneg.2 h)]; exact key z h
  · rw [abs_of_nonpos h, abs_of_nonpos (Real.arctan_le_zero.2 h), ← Real.arctan_neg]
    exact key (-z) (by linarith)

/-- scaling the argument of `arctan` moves it by at most 0.51 of the relative change -/
theorem arctan_scale (s t : ℝ) (ht : |t| ≤ 1 / 100) : |Real.arctan (s * (1 + t)) - Real.arctan s| ≤ 0.51 * |t| := by
  obtain ⟨t1, t2⟩ := abs_le.1 ht
  have h1 : s * (1 + t) * (-s) < 1 := by nlinarith [sq_nonneg s]
  have h := Real.arctan_add h1
  rw [Real.arctan_neg] at h
  rw [sub_eq_add_neg, h]
  refine (arctan_abs_le _).trans ?_
  have e : (s * (1 + t) + -s) / (1 - s * (1 + t) * -s) = s * t / (1 + s ^ 2 * (1 + t)) := by
    congr 1 <;> ring
  have d0 : 0 < 1 + s ^ 2 * (1 + t) := by nlinarith [sq_nonneg s]
  rw [e, abs_div, abs_of_pos d0, div_le_iff₀ d0, abs_mul]
  have : |s| ≤ 0.51 * (1 + s ^ 2 * (1 + t)) := by
    rw [← sq_abs s]
    nlinarith [sq_nonneg (|s| - 1), sq_nonneg s, abs_nonneg s, sq_nonneg (|s|)]
  nlinarith [abs_nonneg t]

/-- the angle of a point off the axis -/
theorem arg_arctan (x b : ℝ) (hb : b ≠ 0) :
    Complex.arg ⟨x, b⟩ = (if 0 < b then Real.pi / 2 else -(Real.pi / 2)) - Real.arctan (x / b) := by
  set s := x / b with hs
  have hp := Real.pi_pos
  have l1 := Real.neg_pi_div_two_lt_arctan s
  have l2 := Real.arctan_lt_pi_div_two s
  have q0 : 0 < Real.sqrt (1 + s ^ 2) := Real.sqrt_pos.2 (by positivity)
  have hx : x = s * b := by rw [hs]; field_simp
  rcases lt_or_gt_of_ne hb with h | h
  · rw [if_neg (not_lt.2 h.le)]
    have := Complex.arg_mul_cos_add_sin_mul_I (r := -b * Real.sqrt (1 + s ^ 2)) (mul_pos (by linarith) q0)
      (θ := -(Real.pi / 2) - Real.arctan s) ⟨by linarith, by linarith⟩
    rw [← this]
    congr 1
    have c1 : Real.cos (-(Real.pi / 2) - Real.arctan s) = -(s / Real.sqrt (1 + s ^ 2)) := by
      rw [show -(Real.pi / 2) - Real.arctan s = -(Real.arctan s + Real.pi / 2) by ring, Real.cos_neg,
        Real.cos_add_pi_div_two, Real.sin_arctan]
    have c2 : Real.sin (-(Real.pi / 2) - Real.arctan s) = -(1 / Real.sqrt (1 + s ^ 2)) := by
      rw [show -(Real.pi / 2) - Real.arctan s = -(Real.arctan s + Real.pi / 2) by ring, Real.sin_neg,
        Real.sin_add_pi_div_two, Real.cos_arctan]
    apply Complex.ext
    · rw [← Complex.ofReal_cos, ← Complex.ofReal_sin, c1, c2]
      simp
      rw [hx]; field_simp
    · rw [← Complex.ofReal_cos, ← Complex.ofReal_sin, c1, c2]
      simp
      field_simp
  · rw [if_pos h]
    have := Complex.arg_mul_cos_add_sin_mul_I (r := b * Real.sqrt (1 + s ^ 2)) (mul_pos h q0)
      (θ := Real.pi / 2 - Real.arctan s) ⟨by linarith, by linarith⟩
    rw [← this]
    congr 1
    have c1 : Real.cos (Real.pi / 2 - Real.arctan s) = s / Real.sqrt (1 + s ^ 2) := by
      rw [Real.cos_pi_div_two_sub, Real.sin_arctan]
    have c2 : Real.sin (Real.pi / 2 - Real.arctan s) = 1 / Real.sqrt (1 + s ^ 2) := by
      rw [Real.sin_pi_div_two_sub, Real.cos_arctan]
    apply Complex.ext
    · rw [← Complex.ofReal_cos, ← Complex.ofReal_sin, c1, c2]
      simp
      rw [hx]; field_simp
    · rw [← Complex.ofReal_cos, ← Complex.ofReal_sin, c1, c2]
      simp
      field_simp

/-- a relative change of one coordinate turns the angle by at most 0.51 of it -/
theorem arg_scale (x t b : ℝ) (ht : |t| ≤ 1 / 100) :
    |Complex.arg ⟨x * (1 + t), b⟩ - Complex.arg ⟨x, b⟩| ≤ 0.51 * |t| := by
  have t0 : 0 < 1 + t := by have := (abs_le.1 ht).1; linarith
  by_cases hb : b = 0
  · subst hb
    have e : ∀ y : ℝ, Complex.arg ⟨y, 0⟩ = Complex.arg (y : ℂ) := fun y => rfl
    have : Complex.arg ⟨x * (1 + t), 0⟩ = Complex.arg ⟨x, 0⟩ := by
      rw [e, e]
      rcases lt_or_ge x 0 with h | h
      · rw [Complex.arg_ofReal_of_neg h, Complex.arg_ofReal_of_neg (mul_neg_of_neg_of_pos h t0)]
      · rw [Complex.arg_ofReal_of_nonneg h, Complex.arg_ofReal_of_nonneg (mul_nonneg h t0.le)]
    rw [this, sub_self, abs_zero]
    positivity
  · rw [arg_arctan _ _ hb, arg_arctan _ _ hb]
    have := arctan_scale (x / b) t ht
    rw [show x * (1 + t) / b = x / b * (1 + t) by ring]
    rw [show ∀ p q r : ℝ, p - q - (p - r) = -(q - r) by intros; ring, abs_neg]
    exact this

/-- square roots of numbers that agree relatively, up to a small absolute difference -/
theorem root_near {a b k ε : ℝ} (hb : 0 ≤ b) (k0 : 0 ≤ k) (hk : k ≤ 1 / 4) (ε0 : 0 ≤ ε)
    (h : |a - b| ≤ k * b + ε) : |Real.sqrt a - Real.sqrt b| ≤ 1.2 * k * Real.sqrt b + 1.2 * Real.sqrt ε := by
  obtain ⟨h1, h2⟩ := abs_le.1 h
  have B := Real.sqrt_nonneg b
  have E := Real.sqrt_nonneg ε
  have A := Real.sqrt_nonneg a
  have B2 := Real.sq_sqrt hb
  have E2 := Real.sq_sqrt ε0
  set sb := Real.sqrt b
  set se := Real.sqrt ε
  have kb : 0 ≤ k * sb := mul_nonneg k0 B
  refine abs_le.2 ⟨?_, ?_⟩
  · -- sb ≤ sqrt a + ...
    by_cases ha : 0 ≤ a
    · have A2 := Real.sq_sqrt ha
      set sa := Real.sqrt a
      by_contra hc
      have hc' : sa + (1.2 * k * sb + 1.2 * se) < sb := by linarith
      have g1 : sa ^ 2 < (sb - (1.2 * k * sb + 1.2 * se)) ^ 2 := pow_lt_pow_left₀ (by linarith) A (by norm_num)
      -- with d = 1.2 k sb + 1.2 se ≤ sb
      have d1 : 1.2 * k * sb + 1.2 * se ≤ sb := by linarith
      nlinarith [mul_nonneg kb E, mul_nonneg B E, mul_nonneg kb B, mul_nonneg kb kb, mul_nonneg E E]
    · have : b ≤ k * b + ε := by linarith
      have b1 : b ≤ 4 / 3 * ε := by nlinarith
      have : sb ^ 2 ≤ (1.2 * se) ^ 2 := by rw [B2, mul_pow, E2]; linarith
      have : sb ≤ 1.2 * se := (pow_le_pow_iff_left₀ B (by positivity) (by norm_num)).1 this
      linarith
  · have : a ≤ (sb + (1.2 * k * sb + 1.2 * se)) ^ 2 := by
      nlinarith [mul_nonneg kb E, mul_nonneg B E, mul_nonneg kb B, mul_nonneg kb kb, mul_nonneg E E]
    have := Real.sqrt_le_sqrt this
    rw [Real.sqrt_sq (by positivity)] at this
    linarith

/-- seventh powers -/
theorem seventh_near {t : ℝ} (ht : |t| ≤ 1 / 1000) : |(1 + t) ^ 7 - 1| ≤ 7.03 * |t| := by
  have e : (1 + t) ^ 7 - 1 = t * (7 + 21 * t + 35 * t ^ 2 + 35 * t ^ 3 + 21 * t ^ 4 + 7 * t ^ 5 + t ^ 6) := by ring
  obtain ⟨h1, h2⟩ := abs_le.1 ht
  have p2 : |t ^ 2| ≤ 1 / 1000 ^ 2 := by rw [abs_pow]; exact (pow_le_pow_left₀ (abs_nonneg _) ht 2).trans (by norm_num)
  have p3 : |t ^ 3| ≤ 1 / 1000 ^ 3 := by rw [abs_pow]; exact (pow_le_pow_left₀ (abs_nonneg _) ht 3).trans (by norm_num)
  have p4 : |t ^ 4| ≤ 1 / 1000 ^ 4 := by rw [abs_pow]; exact (pow_le_pow_left₀ (abs_nonneg _) ht 4).trans (by norm_num)
  have p5 : |t ^ 5| ≤ 1 / 1000 ^ 5 := by rw [abs_pow]; exact (pow_le_pow_left₀ (abs_nonneg _) ht 5).trans (by norm_num)
  have p6 : |t ^ 6| ≤ 1 / 1000 ^ 6 := by rw [abs_pow]; exact (pow_le_pow_left₀ (abs_nonneg _) ht 6).trans (by norm_num)
  have := abs_le.1 p2
  have := abs_le.1 p3
  have := abs_le.1 p4
  have := abs_le.1 p5
  have := abs_le.1 p6
  rw [e, abs_mul, mul_comm]
  refine mul_le_mul_of_nonneg_right ?_ (abs_nonneg _)
  rw [abs_le]
  norm_num at *
  constructor <;> linarith

/-- the length of a leg -/
theorem hypot_near (x X b : ℝ) : |Real.sqrt (x ^ 2 + b ^ 2) - Real.sqrt (X ^ 2 + b ^ 2)| ≤ |x - X| := by
  have h : ∀ y Y : ℝ, Real.sqrt (y ^ 2 + b ^ 2) ≤ Real.sqrt (Y ^ 2 + b ^ 2) + |y - Y| := by
    intro y Y
    have n := Real.sqrt_nonneg (Y ^ 2 + b ^ 2)
    rw [Real.sqrt_le_left (by positivity)]
    have sq := Real.sq_sqrt (by positivity : 0 ≤ Y ^ 2 + b ^ 2)
    have hY : |Y| ≤ Real.sqrt (Y ^ 2 + b ^ 2) := Real.abs_le_sqrt (by nlinarith [sq_nonneg b])
    have h1 : y ^ 2 = Y ^ 2 + 2 * (Y * (y - Y)) + (y - Y) ^ 2 := by ring
    have h2 : Y * (y - Y) ≤ |Y| * |y - Y| := by rw [← abs_mul]; exact le_abs_self _
    have h3 := mul_le_mul_of_nonneg_right hY (abs_nonneg (y - Y))
    nlinarith [sq_abs (y - Y)]
  have h1 := h x X
  have h2 := h X x
  rw [abs_sub_comm X x] at h2
  exact abs_le.2 ⟨by linarith, by linarith⟩

/-- sine and cosine move no faster than their argument -/
theorem sin_near (x y : ℝ) : |Real.sin x - Real.sin y| ≤ |x - y| := by
  rw [Real.sin_sub_sin]
  rw [abs_mul, abs_mul, abs_two]
  have h1 := Real.abs_cos_le_one ((x + y) / 2)
  have h2 : |Real.sin ((x - y) / 2)| ≤ |(x - y) / 2| := Real.abs_sin_le_abs
  rw [abs_div, abs_two] at h2
  nlinarith [abs_nonneg (Real.sin ((x - y) / 2)), abs_nonneg (Real.cos ((x + y) / 2)), abs_nonneg (x - y)]

theorem cos_near (x y : ℝ) : |Real.cos x - Real.cos y| ≤ |x - y| := by
  have := sin_near (Real.pi / 2 - x) (Real.pi / 2 - y)
  rw [Real.sin_pi_div_two_sub, Real.sin_pi_div_two_sub] at this
  rwa [show Real.pi / 2 - x - (Real.pi / 2 - y) = -(x - y) by ring, abs_neg] at this

theorem exp_near {x y : ℝ} (hx : x ≤ 0) (hy : y ≤ 0) : |Real.exp x - Real.exp y| ≤ |x - y| := by
  have key : ∀ a b : ℝ, b ≤ a → a ≤ 0 → Real.exp a - Real.exp b ≤ a - b := by
    intro a b hab ha
    have e : Real.exp b = Real.exp a * Real.exp (b - a) := by rw [← Real.exp_add]; ring_nf
    have h1 := Real.add_one_le_exp (b - a)
    have h2 : Real.exp a ≤ 1 := Real.exp_le_one_iff.2 ha
    have h3 := Real.exp_pos a
    rw [e]
    nlinarith
  rcases le_total y x with h | h
  · rw [abs_of_nonneg (by linarith [Real.exp_le_exp.2 h]), abs_of_nonneg (by linarith)]; exact key x y h hx
  · rw [abs_of_nonpos (by linarith [Real.exp_le_exp.2 h]), abs_of_nonpos (by linarith)]
    have := key y x h hy
    linarith

/-- the quadratic form of the last step of CIEDE2000 -/
noncomputable def qform (R w x y : ℝ) : ℝ := w ^ 2 + x ^ 2 + y ^ 2 + R * (x * y)

theorem qform_pos {R : ℝ} (hR : |R| ≤ 1.75) (w x y : ℝ) : w ^ 2 + (x ^ 2 + y ^ 2) / 8 ≤ qform R w x y := by
  unfold qform
  obtain ⟨h1, h2⟩ := abs_le.1 hR
  rcases le_total 0 (x * y) with h | h
  · nlinarith [sq_nonneg (x - y), mul_nonneg h (by linarith : 0 ≤ R + 1.75)]
  · nlinarith [sq_nonneg (x + y), mul_nonneg (neg_nonneg.2 h) (by linarith : 0 ≤ 1.75 - R)]

theorem qform_le {R : ℝ} (hR : |R| ≤ 1.75) (w x y : ℝ) : qform R w x y ≤ w ^ 2 + 1.875 * (x ^ 2 + y ^ 2) := by
  unfold qform
  obtain ⟨h1, h2⟩ := abs_le.1 hR
  rcases le_total 0 (x * y) with h | h
  · nlinarith [sq_nonneg (x - y), mul_nonneg h (by linarith : 0 ≤ 1.75 - R)]
  · nlinarith [sq_nonneg (x + y), mul_nonneg (neg_nonneg.2 h) (by linarith : 0 ≤ R + 1.75)]

/-- the square root of the form is a norm -/
theorem qform_triangle {R : ℝ} (hR : |R| ≤ 1.75) (w x y w' x' y' : ℝ) :
    |Real.sqrt (qform R w' x' y') - Real.sqrt (qform R w x y)| ≤ Real.sqrt (qform R (w' - w) (x' - x) (y' - y)) := by
  have nn : ∀ a b c : ℝ, 0 ≤ qform R a b c := fun a b c => le_trans (by positivity) (qform_pos hR a b c)
  have key : ∀ a b c d e g : ℝ, Real.sqrt (qform R (a + d) (b + e) (c + g)) ≤
      Real.sqrt (qform R a b c) + Real.sqrt (qform R d e g) := by
    intro a b c d e g
    have s1 := Real.sqrt_nonneg (qform R a b c)
    have s2 := Real.sqrt_nonneg (qform R d e g)
    rw [Real.sqrt_le_left (by positivity), add_sq, Real.sq_sqrt (nn _ _ _), Real.sq_sqrt (nn _ _ _)]
    -- Cauchy–Schwarz
    have cs : (a * d + b * e + c * g + R / 2 * (b * g + c * e)) ≤
        Real.sqrt (qform R a b c) * Real.sqrt (qform R d e g) := by
      rw [← Real.sqrt_mul (nn _ _ _)]
      refine Real.le_sqrt_of_sq_le ?_
      have hR2 : 0 ≤ 1 - R ^ 2 / 4 := by
        rw [← sq_abs]
        nlinarith [abs_nonneg R]
      unfold qform
      have : (a ^ 2 + b ^ 2 + c ^ 2 + R * (b * c)) * (d ^ 2 + e ^ 2 + g ^ 2 + R * (e * g)) -
          (a * d + b * e + c * g + R / 2 * (b * g + c * e)) ^ 2 =
          (a * (e + R / 2 * g) - d * (b + R / 2 * c)) ^ 2 + (1 - R ^ 2 / 4) * (a * g - d * c) ^ 2 +
          (1 - R ^ 2 / 4) * (b * g - c * e) ^ 2 := by ring
      nlinarith [mul_nonneg hR2 (sq_nonneg (a * g - d * c)), mul_nonneg hR2 (sq_nonneg (b * g - c * e)),
        sq_nonneg (a * (e + R / 2 * g) - d * (b + R / 2 * c))]
    have : qform R (a + d) (b + e) (c + g) = qform R a b c + qform R d e g +
        2 * (a * d + b * e + c * g + R / 2 * (b * g + c * e)) := by unfold qform; ring
    rw [this]
    linarith
  refine abs_le.2 ⟨?_, ?_⟩
  · have := key w' x' y' (w - w') (x - x') (y - y')
    rw [show w' + (w - w') = w by ring, show x' + (x - x') = x by ring, show y' + (y - y') = y by ring] at this
    have e : qform R (w - w') (x - x') (y - y') = qform R (w' - w) (x' - x) (y' - y) := by unfold qform; ring
    rw [e] at this
    linarith
  · have := key w x y (w' - w) (x' - x) (y' - y)
    rw [show w + (w' - w) = w' by ring, show x + (x' - x) = x' by ring, show y + (y' - y) = y' by ring] at this
    linarith

end CS

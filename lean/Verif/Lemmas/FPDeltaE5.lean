import Verif.Lemmas.FPDeltaE4

/-!
# The square root at the end of delta_E_2000 in floating point

Helper lemmas for C106 (Props/DeltaEAcc.lean).
-/
set_option linter.unusedSimpArgs false

namespace CS
variable {f : Fmt} [Libm f]

section
variable (hf : Std f) (hm : Spec.MathAccurate f)
include hf

set_option maxHeartbeats 1000000 in
/-- the computed argument of the root -/
theorem radicand_close {w x y r : FP f} (fw : w.isFinite = true) (fx : x.isFinite = true) (fy : y.isFinite = true)
    (fr : r.isFinite = true) (hw : |(w.val : ℝ)| ≤ 500) (hx : |(x.val : ℝ)| ≤ 500) (hy : |(y.val : ℝ)| ≤ 500) (hr : |(r.val : ℝ)| ≤ 2) :
    |((w * w + x * x + y * y + r * (x * y)).val : ℝ) - qform r.val w.val x.val y.val| ≤
      7.2 * f.u * ((w.val : ℝ) ^ 2 + (x.val : ℝ) ^ 2 + (y.val : ℝ) ^ 2) + 10 * f.eta := by
  obtain ⟨u0, u1, e1, η0⟩ := u_facts hf
  have sqb : ∀ {z : ℝ}, |z| ≤ 500 → z * z ≤ 250000 := by
    intro z hz
    have := mul_le_mul hz hz (abs_nonneg _) (by norm_num)
    rw [abs_mul_abs_self] at this
    linarith
  have prod : ∀ {p q : FP f}, p.isFinite = true → q.isFinite = true → |(p.val : ℝ) * q.val| ≤ 10 ^ 7 →
      (p * q).isFinite = true ∧ |((p * q).val : ℝ) - (p.val : ℝ) * q.val| ≤ |(p.val : ℝ) * q.val| * f.u + f.eta := by
    intro p q hp hq h
    obtain ⟨a, b⟩ := FP.mul_err hp hq (Nr.small_abs hf (q := p.val * q.val) (by push_cast; exact h.trans (by norm_num)))
    exact ⟨a, by qcast b⟩
  have plus : ∀ {p q : FP f}, p.isFinite = true → q.isFinite = true → |(p.val : ℝ) + q.val| ≤ 10 ^ 7 →
      (p + q).isFinite = true ∧ |((p + q).val : ℝ) - ((p.val : ℝ) + q.val)| ≤ |(p.val : ℝ) + q.val| * f.u := by
    intro p q hp hq h
    obtain ⟨a, b⟩ := FP.add_err hp hq (Nr.small_abs hf (q := p.val + q.val) (by push_cast; exact h.trans (by norm_num)))
    exact ⟨a, by qcast b⟩
  have w2 := sqb hw
  have x2 := sqb hx
  have y2 := sqb hy
  have w0 := mul_self_nonneg (w.val : ℝ)
  have x0 := mul_self_nonneg (x.val : ℝ)
  have y0 := mul_self_nonneg (y.val : ℝ)
  have xy : |(x.val : ℝ) * y.val| ≤ ((x.val : ℝ) * x.val + (y.val : ℝ) * y.val) / 2 := by
    rw [abs_le]
    constructor <;> nlinarith [sq_nonneg ((x.val : ℝ) - y.val), sq_nonneg ((x.val : ℝ) + y.val)]
  obtain ⟨f1, g1⟩ := prod fw fw (by rw [abs_of_nonneg w0]; linarith)
  obtain ⟨f2, g2⟩ := prod fx fx (by rw [abs_of_nonneg x0]; linarith)
  obtain ⟨f3, g3⟩ := prod fy fy (by rw [abs_of_nonneg y0]; linarith)
  obtain ⟨f4, g4⟩ := prod fx fy (by linarith)
  rw [abs_of_nonneg w0] at g1
  rw [abs_of_nonneg x0] at g2
  rw [abs_of_nonneg y0] at g3
  unfold qform
  rw [show (w.val : ℝ) ^ 2 = w.val * w.val by ring, show (x.val : ℝ) ^ 2 = x.val * x.val by ring,
    show (y.val : ℝ) ^ 2 = y.val * y.val by ring]
  generalize w * w = a at *
  generalize x * x = b at *
  generalize y * y = c at *
  generalize x * y = m at *
  generalize (w.val : ℝ) * w.val = A at *
  generalize (x.val : ℝ) * x.val = B at *
  generalize (y.val : ℝ) * y.val = C at *
  generalize (x.val : ℝ) * y.val = M at *
  have uA : A * f.u ≤ 1 / 2 ^ 24 * A := by rw [mul_comm]; exact mul_le_mul_of_nonneg_right u1 w0
  have uB : B * f.u ≤ 1 / 2 ^ 24 * B := by rw [mul_comm]; exact mul_le_mul_of_nonneg_right u1 x0
  have uC : C * f.u ≤ 1 / 2 ^ 24 * C := by rw [mul_comm]; exact mul_le_mul_of_nonneg_right u1 y0
  have uA0 : 0 ≤ A * f.u := mul_nonneg w0 u0.le
  have uB0 : 0 ≤ B * f.u := mul_nonneg x0 u0.le
  have uC0 : 0 ≤ C * f.u := mul_nonneg y0 u0.le
  have η1 : (f.eta : ℝ) ≤ 1 / 1000 := by norm_num at e1 u1 ⊢; linarith
  have ηu : (f.eta : ℝ) * f.u ≤ 1 / 1000 * f.eta := by
    have := mul_le_mul_of_nonneg_left u1 η0.le
    norm_num at this ⊢
    linarith
  norm_num at uA uB uC
  -- the cross term
  have Mu := mul_le_mul_of_nonneg_right xy u0.le
  have m1 : |(m.val : ℝ)| ≤ 1.0001 * ((B + C) / 2) + f.eta := by
    have := abs_add_le ((m.val : ℝ) - M) M
    rw [sub_add_cancel] at this
    linarith
  have rm : |(r.val : ℝ) * m.val| ≤ 2 * (1.0001 * ((B + C) / 2) + f.eta) := by
    rw [abs_mul]; exact mul_le_mul hr m1 (abs_nonneg _) (by norm_num)
  obtain ⟨f5, g5⟩ := prod fr f4 (by linarith)
  have n1 : |((r * m).val : ℝ) - r.val * M| ≤ 2.01 * ((B + C) * f.u) + 4 * f.eta := by
    have h1 := abs_sub_le ((r * m).val : ℝ) (r.val * m.val) (r.val * M)
    have h2 : |(r.val : ℝ) * m.val - r.val * M| ≤ 2 * ((B + C) / 2 * f.u + f.eta) := by
      rw [← mul_sub, abs_mul]
      exact mul_le_mul hr (by linarith) (abs_nonneg _) (by norm_num)
    have h3 := mul_le_mul_of_nonneg_right rm u0.le
    linarith
  -- the sums
  have s0 : |(a.val : ℝ) + b.val - (A + B)| ≤ (A + B) * f.u + 2 * f.eta := by
    have := abs_add_le ((a.val : ℝ) - A) (b.val - B)
    rw [show (a.val : ℝ) + b.val - (A + B) = (a.val - A) + (b.val - B) by ring]
    linarith
  have t0 : |(a.val : ℝ) + b.val| ≤ 1.0001 * (A + B) + 2 * f.eta := by
    have := abs_add_le ((a.val : ℝ) + b.val - (A + B)) (A + B)
    rw [sub_add_cancel, abs_of_nonneg (by linarith : 0 ≤ A + B)] at this
    linarith
  obtain ⟨f6, g6⟩ := plus f1 f2 (by linarith)
  have s1 : |((a + b).val : ℝ) - (A + B)| ≤ 2.001 * ((A + B) * f.u) + 3 * f.eta := by
    have := abs_sub_le ((a + b).val : ℝ) ((a.val : ℝ) + b.val) (A + B)
    have h3 := mul_le_mul_of_nonneg_right t0 u0.le
    linarith
  generalize a + b = s at *
  have s2 : |(s.val : ℝ) + c.val - (A + B + C)| ≤ 2.001 * ((A + B + C) * f.u) + 4 * f.eta := by
    have := abs_add_le ((s.val : ℝ) - (A + B)) (c.val - C)
    rw [show (s.val : ℝ) + c.val - (A + B + C) = (s.val - (A + B)) + (c.val - C) by ring]
    linarith
  have t2 : |(s.val : ℝ) + c.val| ≤ 1.0001 * (A + B + C) + 4 * f.eta := by
    have := abs_add_le ((s.val : ℝ) + c.val - (A + B + C)) (A + B + C)
    rw [sub_add_cancel, abs_of_nonneg (by linarith : 0 ≤ A + B + C)] at this
    linarith
  obtain ⟨f7, g7⟩ := plus f6 f3 (by linarith)
  have s3 : |((s + c).val : ℝ) - (A + B + C)| ≤ 3.002 * ((A + B + C) * f.u) + 5 * f.eta := by
    have := abs_sub_le ((s + c).val : ℝ) ((s.val : ℝ) + c.val) (A + B + C)
    have h3 := mul_le_mul_of_nonneg_right t2 u0.le
    linarith
  generalize s + c = t at *
  generalize r * m = n at *
  have rM : |(r.val : ℝ) * M| ≤ B + C := by
    rw [abs_mul]
    have := mul_le_mul hr xy (abs_nonneg _) (by norm_num)
    linarith
  have s4 : |(t.val : ℝ) + n.val - (A + B + C + r.val * M)| ≤ 5.02 * ((A + B + C) * f.u) + 9 * f.eta := by
    have := abs_add_le ((t.val : ℝ) - (A + B + C)) (n.val - r.val * M)
    rw [show (t.val : ℝ) + n.val - (A + B + C + r.val * M) = (t.val - (A + B + C)) + (n.val - r.val * M) by ring]
    linarith
  have t4 : |(t.val : ℝ) + n.val| ≤ 2.0001 * (A + B + C) + 9 * f.eta := by
    have h1 := abs_add_le ((t.val : ℝ) + n.val - (A + B + C + r.val * M)) (A + B + C + r.val * M)
    rw [sub_add_cancel] at h1
    have h2 := abs_add_le (A + B + C) ((r.val : ℝ) * M)
    rw [abs_of_nonneg (by linarith : 0 ≤ A + B + C)] at h2
    linarith
  obtain ⟨f8, g8⟩ := plus f7 f5 (by linarith)
  have := abs_sub_le ((t + n).val : ℝ) ((t.val : ℝ) + n.val) (A + B + C + r.val * M)
  have h3 := mul_le_mul_of_nonneg_right t4 u0.le
  linarith

include hm in
/-- the root of the computed argument against the form of the computed parts -/
theorem root_close (he : f.eta ≤ f.u ^ 2 / 2 ^ 30) {v : FP f} {q : ℝ} (fv : v.isFinite = true) (v0 : 0 ≤ v.val) (v1 : v.val ≤ 2 ^ 30)
    (q0 : 0 ≤ q) (h : |(v.val : ℝ) - q| ≤ 58 * f.u * q + 10 * f.eta) :
    (Flt.sqrt v).isFinite = true ∧ |((Flt.sqrt v : FP f).val : ℝ) - Real.sqrt q| ≤ 74 * (f.u * Real.sqrt q) + 0.001 * f.u := by
  obtain ⟨u0, u1, e1, η0⟩ := u_facts hf
  have he' : (f.eta : ℝ) ≤ (f.u : ℝ) ^ 2 / 2 ^ 30 := by qcast he
  obtain ⟨-, sf, se⟩ := hm.sqrt v fv v0 v1
  refine ⟨sf, ?_⟩
  have n := root_near (a := (v.val : ℝ)) (b := q) (k := 58 * f.u) (ε := 10 * f.eta) q0 (by positivity) (by norm_num at u1 ⊢; linarith) (by positivity) h
  have r0 : Real.sqrt (10 * f.eta) ≤ 0.0002 * f.u := by
    rw [Real.sqrt_le_left (by positivity)]
    norm_num at he' ⊢
    nlinarith [sq_nonneg (f.u : ℝ)]
  generalize Real.sqrt (10 * (f.eta : ℝ)) = E at *
  generalize (Flt.sqrt v : FP f) = s at *
  have Q0 := Real.sqrt_nonneg q
  generalize Real.sqrt q = Q at *
  generalize Real.sqrt (v.val : ℝ) = V at *
  have uQ : 0 ≤ f.u * Q := mul_nonneg u0.le Q0
  have uQ1 : f.u * Q ≤ 1 / 2 ^ 24 * Q := mul_le_mul_of_nonneg_right u1 Q0
  have V1 : V ≤ 1.001 * Q + 0.001 * f.u := by
    have := (abs_le.1 n).2
    norm_num at uQ1
    nlinarith
  have := abs_sub_le (s.val : ℝ) V Q
  have w := mul_le_mul_of_nonneg_left V1 (by positivity : (0:ℝ) ≤ 4 * f.u)
  have uu : (f.u : ℝ) * f.u ≤ 1 / 2 ^ 24 * f.u := mul_le_mul_of_nonneg_right u1 u0.le
  norm_num at uu
  nlinarith

omit [Libm f] hf in
/-- changing the rotation term -/
theorem root_turn {ρ R : ℝ} (hρ : |ρ - R| ≤ 1 / 1000) (hR : |R| ≤ 1.75) (w x y : ℝ) :
    |Real.sqrt (qform ρ w x y) - Real.sqrt (qform R w x y)| ≤ 4.8 * |ρ - R| * Real.sqrt (qform R w x y) := by
  have p := qform_pos hR w x y
  have q0 : 0 ≤ qform R w x y := le_trans (by positivity) p
  have h : |qform ρ w x y - qform R w x y| ≤ 4 * |ρ - R| * qform R w x y + 0 := by
    have e : qform ρ w x y - qform R w x y = (ρ - R) * (x * y) := by unfold qform; ring
    have xy : |x * y| ≤ (x ^ 2 + y ^ 2) / 2 := by
      rw [abs_le]
      constructor <;> nlinarith [sq_nonneg (x - y), sq_nonneg (x + y)]
    rw [e, abs_mul]
    have : |x * y| ≤ 4 * qform R w x y := by nlinarith [sq_nonneg w]
    have := mul_le_mul_of_nonneg_left this (abs_nonneg (ρ - R))
    linarith
  have := root_near q0 (by positivity) (by linarith) le_rfl h
  rw [Real.sqrt_zero] at this
  linarith

omit [Libm f] hf in
/-- changing the three differences -/
theorem root_move {R u : ℝ} (hR : |R| ≤ 1.75) (u0 : 0 < u) {w x y W X Y : ℝ} (hw : |w - W| ≤ (70 * |W| + 1) * u)
    (hx : |x - X| ≤ (3800 + 93 * |X|) * u) (hy : |y - Y| ≤ (44700 + 2025 * |Y|) * u) :
    |Real.sqrt (qform R w x y) - Real.sqrt (qform R W X Y)| ≤ (66500 + 8300 * Real.sqrt (qform R W X Y)) * u := by
  have t := qform_triangle hR W X Y w x y
  refine t.trans ?_
  have p := qform_pos hR W X Y
  have q0 : 0 ≤ qform R W X Y := le_trans (by positivity) p
  have sq := Real.sq_sqrt q0
  have s0 := Real.sqrt_nonneg (qform R W X Y)
  have bW : |W| ≤ Real.sqrt (qform R W X Y) := by
    refine Real.abs_le_sqrt ?_
    nlinarith [sq_nonneg X, sq_nonneg Y]
  have bX : |X| ≤ 2.83 * Real.sqrt (qform R W X Y) := by
    refine abs_le_of_sq_le_sq ?_ (by positivity)
    nlinarith [sq_nonneg W, sq_nonneg Y]
  have bY : |Y| ≤ 2.83 * Real.sqrt (qform R W X Y) := by
    refine abs_le_of_sq_le_sq ?_ (by positivity)
    nlinarith [sq_nonneg W, sq_nonneg X]
  have l := qform_le hR (w - W) (x - X) (y - Y)
  have r : Real.sqrt (qform R (w - W) (x - X) (y - Y)) ≤ |w - W| + 1.37 * |x - X| + 1.37 * |y - Y| := by
    rw [Real.sqrt_le_left (by positivity)]
    refine l.trans ?_
    rw [← sq_abs (w - W), ← sq_abs (x - X), ← sq_abs (y - Y)]
    have a := abs_nonneg (w - W)
    have b := abs_nonneg (x - X)
    have c := abs_nonneg (y - Y)
    nlinarith [mul_nonneg a b, mul_nonneg a c, mul_nonneg b c]
  generalize Real.sqrt (qform R W X Y) = D at *
  have uD : 0 ≤ D * u := mul_nonneg s0 u0.le
  have h1 := mul_le_mul_of_nonneg_right bW u0.le
  have h2 := mul_le_mul_of_nonneg_right bX u0.le
  have h3 := mul_le_mul_of_nonneg_right bY u0.le
  nlinarith

include hm in
/-- the last step of `delta_E_2000` -/
theorem root_acc (he : f.eta ≤ f.u ^ 2 / 2 ^ 30) {w x y r : FP f} {W X Y R : ℝ} (fw : w.isFinite = true) (fx : x.isFinite = true)
    (fy : y.isFinite = true) (fr : r.isFinite = true) (hw : |(w.val : ℝ) - W| ≤ (70 * |W| + 1) * f.u)
    (hx : |(x.val : ℝ) - X| ≤ (3800 + 93 * |X|) * f.u) (hy : |(y.val : ℝ) - Y| ≤ (44700 + 2025 * |Y|) * f.u)
    (hr : |(r.val : ℝ)| ≤ 2) (hrot : |(r.val : ℝ) - R| ≤ 14600 * f.u ∨ y.val = 0) (hR : |R| ≤ 1.7322)
    (bW : |W| ≤ 256) (bX : |X| ≤ 464) (bY : |Y| ≤ 464)
    (hv : In (w * w + x * x + y * y + r * (x * y)) 0 (2 ^ 27)) :
    (Flt.sqrt (w * w + x * x + y * y + r * (x * y))).isFinite = true ∧
    |((Flt.sqrt (w * w + x * x + y * y + r * (x * y)) : FP f).val : ℝ) - Real.sqrt (qform R W X Y)| ≤
      80000 * (1 + Real.sqrt (qform R W X Y)) * f.u := by
  obtain ⟨u0, u1, e1, η0⟩ := u_facts hf
  have near : ∀ {z Z k m : ℝ}, |z - Z| ≤ (k + m * |Z|) * f.u → |Z| ≤ 464 → 0 ≤ m → k ≤ 50000 → m ≤ 2025 → |z| ≤ 500 := by
    intro z Z k m h hZ m0 hk hm'
    have h1 := abs_add_le (z - Z) Z
    rw [sub_add_cancel] at h1
    have h2 := mul_le_mul hm' hZ (abs_nonneg _) (by norm_num)
    have h3 := mul_le_mul_of_nonneg_right (add_le_add hk h2) u0.le
    norm_num at u1 h3
    linarith
  have sw := near (k := 1) (m := 70) (by rw [add_comm]; exact hw) (by linarith) (by norm_num) (by norm_num) (by norm_num)
  have sx := near hx bX (by norm_num) (by norm_num) (by norm_num)
  have sy := near hy bY (by norm_num) (by norm_num) (by norm_num)
  have rc := radicand_close hf fw fx fy fr sw sx sy hr
  generalize w * w + x * x + y * y + r * (x * y) = v at *
  obtain ⟨ρ, eρ, ρR⟩ : ∃ ρ : ℝ, qform r.val w.val x.val y.val = qform ρ w.val x.val y.val ∧ |ρ - R| ≤ 14600 * f.u := by
    rcases hrot with h | h
    · exact ⟨_, rfl, h⟩
    · refine ⟨R, ?_, by rw [sub_self, abs_zero]; positivity⟩
      unfold qform
      rw [h]; push_cast; ring
  rw [eρ] at rc
  have small : |ρ - R| ≤ 1 / 1000 := ρR.trans (by norm_num at u1 ⊢; linarith)
  have hρ : |ρ| ≤ 1.75 := by
    have := abs_add_le (ρ - R) R
    rw [sub_add_cancel] at this
    linarith
  have p := qform_pos hρ w.val x.val y.val
  have q0 : 0 ≤ qform ρ w.val x.val y.val := le_trans (by positivity) p
  have rc' : |(v.val : ℝ) - qform ρ w.val x.val y.val| ≤ 58 * f.u * qform ρ w.val x.val y.val + 10 * f.eta := by
    have : (w.val : ℝ) ^ 2 + (x.val : ℝ) ^ 2 + (y.val : ℝ) ^ 2 ≤ 8 * qform ρ w.val x.val y.val := by nlinarith [sq_nonneg (w.val : ℝ)]
    have := mul_le_mul_of_nonneg_left this (by positivity : (0:ℝ) ≤ 7.2 * f.u)
    have := mul_nonneg u0.le q0
    linarith
  obtain ⟨sf, s1⟩ := root_close hf hm he hv.1 hv.2.1 (hv.2.2.trans (by norm_num)) q0 rc'
  refine ⟨sf, ?_⟩
  have s2 := root_turn small (hR.trans (by norm_num)) w.val x.val y.val
  have s3 := root_move (hR.trans (by norm_num)) u0 hw hx hy
  have D0 := Real.sqrt_nonneg (qform R W X Y)
  have B0 := Real.sqrt_nonneg (qform R w.val x.val y.val)
  generalize (Flt.sqrt v : FP f) = s at *
  generalize Real.sqrt (qform ρ w.val x.val y.val) = A at *
  generalize Real.sqrt (qform R w.val x.val y.val) = B at *
  generalize Real.sqrt (qform R W X Y) = D at *
  have uD : 0 ≤ f.u * D := mul_nonneg u0.le D0
  have uD1 : f.u * D ≤ 1 / 2 ^ 24 * D := mul_le_mul_of_nonneg_right u1 D0
  norm_num at uD1 u1
  have B1 : B ≤ 1.0005 * D + 0.004 := by
    have := (abs_le.1 s3).2
    nlinarith
  have uB : 0 ≤ f.u * B := mul_nonneg u0.le B0
  have uB1 : f.u * B ≤ 1.0005 * (f.u * D) + 0.004 * f.u := by
    have := mul_le_mul_of_nonneg_left B1 u0.le
    linarith
  have s2' : |A - B| ≤ 70080 * (f.u * B) := by
    have := mul_le_mul_of_nonneg_right (mul_le_mul_of_nonneg_left ρR (by norm_num : (0:ℝ) ≤ 4.8)) B0
    linarith
  have uB2 : f.u * B ≤ 1 / 16777216 * B := mul_le_mul_of_nonneg_right u1 B0
  have A1 : A ≤ 1.005 * B := by
    have := (abs_le.1 s2').2
    linarith
  have uA : f.u * A ≤ 1.005 * (f.u * B) := by
    have := mul_le_mul_of_nonneg_left A1 u0.le
    linarith
  have t1 := abs_sub_le (s.val : ℝ) A D
  have t2 := abs_sub_le A B D
  linarith

end
end CS

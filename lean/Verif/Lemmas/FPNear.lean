import Verif.Lemmas.FPRel
import Verif.Lemmas.FPIn

/-!
# Absolute error bounds in units of rounding

`Nr a x k`: the float `a` is finite and within `k` units of rounding of the real number `x`.
-/

namespace CS
section
variable {f : Fmt}

structure Nr (a : FP f) (x k : ℝ) : Prop where
  fin : a.isFinite = true
  err : |(a.val : ℝ) - x| ≤ k * f.u

theorem u_facts (hf : Std f) : (0:ℝ) < f.u ∧ (f.u : ℝ) ≤ 1 / 2 ^ 24 ∧ (f.eta : ℝ) ≤ f.u / 2 ^ 124 ∧
    (0:ℝ) < f.eta :=
  ⟨by exact_mod_cast f.u_pos, by qcast hf.hu, by qcast hf.wide.heta, by exact_mod_cast f.eta_pos⟩

namespace Nr
variable {a b : FP f} {x y k l A B K P : ℝ}

theorem nonneg (h : Nr a x k) : 0 ≤ k := by
  have h1 := le_trans (abs_nonneg _) h.err
  have : (0:ℝ) < f.u := by exact_mod_cast f.u_pos
  exact nonneg_of_mul_nonneg_left h1 this

theorem mono (h : Nr a x k) (hk : k ≤ l) : Nr a x l :=
  ⟨h.fin, le_trans h.err (mul_le_mul_of_nonneg_right hk (by exact_mod_cast f.u_pos.le))⟩

theorem congr (h : Nr a x k) (e : x = y) : Nr a y k := e ▸ h

theorem exact (ha : a.isFinite = true) : Nr a (a.val : ℝ) 0 := ⟨ha, by simp⟩

theorem neg (h : Nr a x k) : Nr (-a) (-x) k := by
  obtain ⟨h1, h2⟩ := FP.neg_finite h.fin
  refine ⟨h1, ?_⟩
  rw [h2, Rat.cast_neg, show -(a.val : ℝ) - -x = -((a.val : ℝ) - x) by ring, abs_neg]
  exact h.err

/-- a bound on the computed value -/
theorem abs_le (hf : Std f) (h : Nr a x k) (hx : |x| ≤ A) (hk : k ≤ 2 ^ 14) :
    |(a.val : ℝ)| ≤ A + k / 2 ^ 24 := by
  obtain ⟨u0, u1, _, _⟩ := u_facts hf
  have h1 := abs_add_le ((a.val : ℝ) - x) x
  rw [sub_add_cancel] at h1
  have h2 := mul_le_mul_of_nonneg_left u1 h.nonneg
  have h3 := h.err
  have e : k * (1 / 2 ^ 24) = k / 2 ^ 24 := by ring
  linarith

theorem small_abs (hf : Std f) {q : ℚ} (h : |(q : ℝ)| ≤ 2 ^ 40) : |q| ≤ 2 ^ f.emax := by
  have h1 : |q| ≤ 2 ^ 40 := by
    have : ((|q| : ℚ) : ℝ) ≤ ((2 ^ 40 : ℚ) : ℝ) := by push_cast; exact h
    exact_mod_cast this
  have := hf.wide.hmax
  norm_num at this h1 ⊢
  linarith

theorem add (hf : Std f) (ha : Nr a x k) (hb : Nr b y l) (hB : |x + y| ≤ B) (hB' : B ≤ 2 ^ 30)
    (hkl : k + l ≤ 2 ^ 12) (hK : k + l + B + 1 / 1000 ≤ K) : Nr (a + b) (x + y) K := by
  obtain ⟨u0, u1, _, _⟩ := u_facts hf
  have k0 := ha.nonneg
  have l0 := hb.nonneg
  have d : |((a.val : ℝ) + b.val) - (x + y)| ≤ (k + l) * f.u := by
    have := abs_add_le ((a.val : ℝ) - x) (b.val - y)
    rw [show (a.val : ℝ) + b.val - (x + y) = (a.val - x) + (b.val - y) by ring]
    linarith [ha.err, hb.err]
  have s : (k + l) * f.u ≤ 1 / 2000 := by
    calc (k + l) * f.u ≤ 2 ^ 12 * (1 / 2 ^ 24) := mul_le_mul hkl u1 u0.le (by norm_num)
      _ ≤ _ := by norm_num
  have sz : |(a.val : ℝ) + b.val| ≤ B + 1 / 2000 := by
    have := abs_add_le ((a.val : ℝ) + b.val - (x + y)) (x + y)
    rw [sub_add_cancel] at this
    linarith
  obtain ⟨h1, h2⟩ := FP.add_err ha.fin hb.fin (small_abs hf (by push_cast; refine le_trans sz ?_; norm_num at hB' ⊢; linarith))
  refine ⟨h1, ?_⟩
  have h3 : |((a + b).val : ℝ) - ((a.val : ℝ) + b.val)| ≤ |(a.val : ℝ) + b.val| * f.u := by qcast h2
  have h4 := mul_le_mul_of_nonneg_right sz u0.le
  have h5 := mul_le_mul_of_nonneg_right hK u0.le
  have h6 := abs_sub_le ((a + b).val : ℝ) ((a.val : ℝ) + b.val) (x + y)
  linarith

theorem sub (hf : Std f) (ha : Nr a x k) (hb : Nr b y l) (hB : |x - y| ≤ B) (hB' : B ≤ 2 ^ 30)
    (hkl : k + l ≤ 2 ^ 12) (hK : k + l + B + 1 / 1000 ≤ K) : Nr (a - b) (x - y) K := by
  have := add hf ha hb.neg (B := B) (by rwa [← sub_eq_add_neg]) hB' hkl hK
  rw [← sub_eq_add_neg] at this
  exact this

theorem mul (hf : Std f) (ha : Nr a x k) (hb : Nr b y l) (hA : |x| ≤ A) (hB : |y| ≤ B)
    (hP : |x * y| ≤ P) (hP' : P ≤ 2 ^ 30) (hs : k * l + k * B + l * A ≤ 2 ^ 14)
    (hK : k * B + l * A + P + 1 / 100 ≤ K) : Nr (a * b) (x * y) K := by
  obtain ⟨u0, u1, e1, e0⟩ := u_facts hf
  have k0 := ha.nonneg
  have l0 := hb.nonneg
  have A0 : 0 ≤ A := le_trans (abs_nonneg _) hA
  have B0 : 0 ≤ B := le_trans (abs_nonneg _) hB
  have P0 : 0 ≤ P := le_trans (abs_nonneg _) hP
  have d : |((a.val : ℝ) * b.val) - x * y| ≤ (k * B + l * A + k * l * f.u) * f.u := by
    rw [show (a.val : ℝ) * b.val - x * y = (a.val - x) * y + (b.val - y) * x
      + (a.val - x) * (b.val - y) by ring]
    have t1 : |((a.val : ℝ) - x) * y| ≤ k * f.u * B := by
      rw [abs_mul]; exact mul_le_mul ha.err hB (abs_nonneg _) (by positivity)
    have t2 : |((b.val : ℝ) - y) * x| ≤ l * f.u * A := by
      rw [abs_mul]; exact mul_le_mul hb.err hA (abs_nonneg _) (by positivity)
    have t3 : |((a.val : ℝ) - x) * (b.val - y)| ≤ k * f.u * (l * f.u) := by
      rw [abs_mul]; exact mul_le_mul ha.err hb.err (abs_nonneg _) (by positivity)
    have s1 := abs_add_le (((a.val : ℝ) - x) * y + ((b.val : ℝ) - y) * x) (((a.val : ℝ) - x) * (b.val - y))
    have s2 := abs_add_le (((a.val : ℝ) - x) * y) (((b.val : ℝ) - y) * x)
    nlinarith
  have kB : 0 ≤ k * B := by positivity
  have lA : 0 ≤ l * A := by positivity
  have kl : 0 ≤ k * l := by positivity
  have klu : k * l * f.u ≤ 1 / 1000 := by
    calc k * l * f.u ≤ 2 ^ 14 * (1 / 2 ^ 24) := mul_le_mul (by linarith) u1 u0.le (by norm_num)
      _ ≤ _ := by norm_num
  have s : (k * B + l * A + k * l * f.u) * f.u ≤ 1 / 1000 := by
    have : k * l * f.u ≤ k * l := by
      have : f.u ≤ (1:ℝ) := le_trans u1 (by norm_num)
      exact mul_le_of_le_one_right kl this
    calc _ ≤ 2 ^ 14 * (1 / 2 ^ 24) := mul_le_mul (by linarith) u1 u0.le (by norm_num)
      _ ≤ _ := by norm_num
  have sz : |(a.val : ℝ) * b.val| ≤ P + 1 / 1000 := by
    have := abs_add_le ((a.val : ℝ) * b.val - x * y) (x * y)
    rw [sub_add_cancel] at this
    linarith
  obtain ⟨h1, h2⟩ := FP.mul_err ha.fin hb.fin (small_abs hf (by push_cast; refine le_trans sz ?_; norm_num at hP' ⊢; linarith))
  refine ⟨h1, ?_⟩
  have h3 : |((a * b).val : ℝ) - ((a.val : ℝ) * b.val)| ≤ |(a.val : ℝ) * b.val| * f.u + f.eta := by qcast h2
  have h4 := mul_le_mul_of_nonneg_right sz u0.le
  have h5 := mul_le_mul_of_nonneg_right hK u0.le
  have h6 := abs_sub_le ((a * b).val : ℝ) ((a.val : ℝ) * b.val) (x * y)
  have h7 := mul_le_mul_of_nonneg_right klu u0.le
  have h8 : (f.eta : ℝ) ≤ 1 / 1000 * f.u := by norm_num at e1 ⊢; linarith
  linarith

theorem div [Libm f] {b0 Q : ℝ} (hf : Std f) (ha : Nr a x k) (hb : Nr b y l) (h0 : 0 < b0) (hy : b0 ≤ y)
    (hQ : |x / y| ≤ Q) (hQ' : Q ≤ 2 ^ 30) (hl : l ≤ 2 ^ 10 * b0) (hs : (k + Q * l) / b0 ≤ 2 ^ 12)
    (hK : 1.001 * ((k + Q * l) / b0) + Q + 1 / 100 ≤ K) : Nr (a / b) (x / y) K := by
  obtain ⟨u0, u1, e1, e0⟩ := u_facts hf
  have k0 := ha.nonneg
  have l0 := hb.nonneg
  have Q0 : 0 ≤ Q := le_trans (abs_nonneg _) hQ
  have y0 : 0 < y := by linarith
  have lu : l * f.u ≤ b0 / 2 ^ 14 := by
    calc l * f.u ≤ 2 ^ 10 * b0 * (1 / 2 ^ 24) := mul_le_mul hl u1 u0.le (by positivity)
      _ = _ := by ring
  have bv : (1 - 1 / 2 ^ 14) * b0 ≤ (b.val : ℝ) := by
    have := (_root_.abs_le.1 hb.err).1
    linarith
  have bpos : (0:ℝ) < b.val := lt_of_lt_of_le (by positivity) (le_trans (by norm_num; linarith) bv : b0 / 2 ≤ _)
  have bne : b.val ≠ 0 := by
    intro h; rw [h] at bpos; norm_num at bpos
  set q := (k + Q * l) / b0 with hq
  have q0 : 0 ≤ q := by positivity
  have d : |((a.val : ℝ) / b.val) - x / y| ≤ 1.0005 * q * f.u := by
    have e : (a.val : ℝ) / b.val - x / y = ((a.val - x) - (x / y) * (b.val - y)) / b.val := by
      field_simp; ring
    rw [e, abs_div, abs_of_pos bpos, div_le_iff₀ bpos]
    have t1 : |x / y * ((b.val : ℝ) - y)| ≤ Q * (l * f.u) := by
      rw [abs_mul]; exact mul_le_mul hQ hb.err (abs_nonneg _) Q0
    have t2 := abs_sub_le ((a.val : ℝ) - x) 0 (x / y * ((b.val : ℝ) - y))
    simp only [sub_zero, zero_sub, abs_neg] at t2
    have t3 : (k + Q * l) = q * b0 := by rw [hq]; field_simp
    have t4 : 1.0005 * q * f.u * ((1 - 1 / 2 ^ 14) * b0) ≤ 1.0005 * q * f.u * b.val :=
      mul_le_mul_of_nonneg_left bv (by positivity)
    have t5 : 0 ≤ q * b0 * f.u := by positivity
    have t6 : |(a.val : ℝ) - x - x / y * ((b.val : ℝ) - y)| ≤ (k + Q * l) * f.u := by
      linarith [ha.err]
    rw [t3] at t6
    refine le_trans t6 (le_trans ?_ t4)
    have : 1.0005 * q * f.u * ((1 - 1 / 2 ^ 14) * b0) = (1.0005 * (1 - 1 / 2 ^ 14)) * (q * b0 * f.u) := by ring
    rw [this]
    norm_num
    linarith
  have s : 1.0005 * q * f.u ≤ 1 / 2000 := by
    calc _ ≤ (1.0005 * 2 ^ 12) * (1 / 2 ^ 24) := mul_le_mul (by linarith) u1 u0.le (by norm_num)
      _ ≤ _ := by norm_num
  have sz : |(a.val : ℝ) / b.val| ≤ Q + 1 / 2000 := by
    have := abs_add_le ((a.val : ℝ) / b.val - x / y) (x / y)
    rw [sub_add_cancel] at this
    linarith
  obtain ⟨h1, h2⟩ := FP.div_err ha.fin hb.fin bne (small_abs hf (by push_cast; refine le_trans sz ?_; norm_num at hQ' ⊢; linarith))
  refine ⟨h1, ?_⟩
  have h3 : |((a / b).val : ℝ) - ((a.val : ℝ) / b.val)| ≤ |(a.val : ℝ) / b.val| * f.u + f.eta := by qcast h2
  have h4 := mul_le_mul_of_nonneg_right sz u0.le
  have h5 := mul_le_mul_of_nonneg_right hK u0.le
  have h6 := abs_sub_le ((a / b).val : ℝ) ((a.val : ℝ) / b.val) (x / y)
  have h8 : (f.eta : ℝ) ≤ 1 / 1000 * f.u := by norm_num at e1 ⊢; linarith
  have h9 : 0 ≤ q * f.u := by positivity
  linarith

theorem lit [Libm f] (hf : Std f) {q : ℚ} (h1 : 1 / 2 ^ 20 ≤ q) (h2 : q ≤ 2 ^ 20) :
    Nr (FP.lit q : FP f) (q : ℝ) (1.001 * q) := by
  obtain ⟨h3, h4⟩ := hf.lit q h1 h2
  refine ⟨h3, ?_⟩
  have h5 : |((FP.lit q : FP f).val : ℝ) - q| ≤ q * (f.u * (1 + 1 / 2 ^ 20)) := by qcast h4
  have q0 : (0:ℝ) < q := by exact_mod_cast lt_of_lt_of_le (by norm_num : (0:ℚ) < 1 / 2 ^ 20) h1
  obtain ⟨u0, _⟩ := u_facts hf
  have : 0 < (q:ℝ) * f.u := by positivity
  norm_num at h5 ⊢
  linarith

theorem of_rel (hf : Std f) {n : ℝ} (h : RelF n a x) (n0 : 0 ≤ n) (hn : n ≤ 1024) (hX : x ≤ A) :
    Nr a x (1.001 * n * A) := by
  refine ⟨h.fin, ?_⟩
  obtain ⟨s0, s1⟩ := RelF.small hf n0 hn
  have h1 := h.err.to_abs s0 (le_trans s1 (by norm_num))
  have x0 := h.err.pos
  obtain ⟨u0, _⟩ := u_facts hf
  refine le_trans h1 ?_
  have h2 : n * kap f * (1 + n * kap f) ≤ n * kap f * (1 + 1 / 2 ^ 13) :=
    mul_le_mul_of_nonneg_left (by linarith) s0
  have h3 : n * kap f * (1 + 1 / 2 ^ 13) ≤ 1.001 * n * f.u := by
    unfold kap
    have : 0 ≤ n * f.u := by positivity
    norm_num; linarith
  calc x * (n * kap f * (1 + n * kap f)) ≤ A * (1.001 * n * f.u) :=
        mul_le_mul hX (by linarith) (by positivity) (by linarith)
    _ = _ := by ring

end Nr

theorem neg_div_val [Libm f] (hf : Std f) {a b : FP f} (ha : a.isFinite = true) (hb : b.isFinite = true)
    (h0 : b.val ≠ 0) (h : |a.val / b.val| ≤ 2 ^ f.emax) :
    (-a / b).isFinite = true ∧ (-a / b).val = -(a / b).val := by
  obtain ⟨n1, n2⟩ := FP.neg_finite ha
  obtain ⟨d1, d2⟩ := FP.div_finite' ha hb h0 (roundQ_lt h)
  obtain ⟨e1, e2⟩ := FP.div_finite' n1 hb h0 (roundQ_lt (by rw [n2, neg_div, abs_neg]; exact h))
  refine ⟨e1, ?_⟩
  rw [e2, d2, n2, neg_div, roundQ_neg]

end
end CS

import Verif.Lemmas.FPRel
import Verif.Lemmas.FPArith
import Verif.Model.Matrix
import Verif.Lemmas.FPNear

/-! # Rounding errors of the adjugate inverse -/

namespace CS
variable {f : Fmt}

theorem emax_big (hf : Std f) : (2:ℚ) ^ 126 ≤ 2 ^ f.emax := by
  have := hf.wide.hmax
  have h : (0:ℚ) < 2 ^ f.emax := by positivity
  linarith

theorem mul_b (hf : Std f) {a b : FP f} {A B : ℚ} (ha : a.isFinite = true) (hb : b.isFinite = true)
    (h1 : |a.val| ≤ A) (h2 : |b.val| ≤ B) (h : A * B ≤ 2 ^ 126) :
    (a * b).isFinite = true ∧ |(a * b).val - a.val * b.val| ≤ A * B * f.u + f.eta := by
  have h3 : |a.val * b.val| ≤ A * B := by
    rw [abs_mul]; exact mul_le_mul h1 h2 (abs_nonneg _) (le_trans (abs_nonneg _) h1)
  obtain ⟨x, y⟩ := FP.mul_err ha hb (h3.trans (h.trans (emax_big hf)))
  have := mul_le_mul_of_nonneg_right h3 f.u_pos.le
  exact ⟨x, by linarith⟩

theorem add_b (hf : Std f) {a b : FP f} {A : ℚ} (ha : a.isFinite = true) (hb : b.isFinite = true)
    (h1 : |a.val + b.val| ≤ A) (h : A ≤ 2 ^ 126) :
    (a + b).isFinite = true ∧ |(a + b).val - (a.val + b.val)| ≤ A * f.u := by
  obtain ⟨x, y⟩ := FP.add_err ha hb (h1.trans (h.trans (emax_big hf)))
  exact ⟨x, y.trans (mul_le_mul_of_nonneg_right h1 f.u_pos.le)⟩

theorem sub_b (hf : Std f) {a b : FP f} {A : ℚ} (ha : a.isFinite = true) (hb : b.isFinite = true)
    (h1 : |a.val - b.val| ≤ A) (h : A ≤ 2 ^ 126) :
    (a - b).isFinite = true ∧ |(a - b).val - (a.val - b.val)| ≤ A * f.u := by
  obtain ⟨x, y⟩ := FP.sub_err ha hb (h1.trans (h.trans (emax_big hf)))
  exact ⟨x, y.trans (mul_le_mul_of_nonneg_right h1 f.u_pos.le)⟩

theorem abs_near {a b A e : ℚ} (h : |a - b| ≤ e) (hb : |b| ≤ A) : |a| ≤ A + e := by
  have := abs_sub_abs_le_abs_sub a b
  linarith

/-- facts about the format and the scale used below -/
theorem scale_facts (hf : Std f) {A : ℚ} (hA1 : 1 / 2 ^ 20 ≤ A) :
    0 < f.u ∧ f.u ≤ 1 / 2 ^ 24 ∧ 0 < A ∧ f.eta ≤ A ^ 2 * f.u / 2 ^ 80 ∧ f.eta ≤ A ^ 3 * f.u / 2 ^ 60 := by
  have u0 := f.u_pos
  have A0 : 0 < A := lt_of_lt_of_le (by norm_num) hA1
  have e := hf.wide.heta
  have a2 : (1 / 2 ^ 20) ^ 2 ≤ A ^ 2 := pow_le_pow_left₀ (by norm_num) hA1 2
  have a3 : (1 / 2 ^ 20) ^ 3 ≤ A ^ 3 := pow_le_pow_left₀ (by norm_num) hA1 3
  refine ⟨u0, hf.hu, A0, ?_, ?_⟩
  · have := mul_le_mul_of_nonneg_right a2 u0.le
    norm_num at e this ⊢; linarith
  · have := mul_le_mul_of_nonneg_right a3 u0.le
    norm_num at e this ⊢; linarith

/-- a 2x2 minor -/
theorem minor_err (hf : Std f) {a b c e : FP f} {A : ℚ} (ha : a.isFinite = true) (hb : b.isFinite = true)
    (hc : c.isFinite = true) (he : e.isFinite = true) (ha' : |a.val| ≤ A) (hb' : |b.val| ≤ A)
    (hc' : |c.val| ≤ A) (he' : |e.val| ≤ A) (hA1 : 1 / 2 ^ 20 ≤ A) (hA2 : A ≤ 2 ^ 20) :
    (a * b - c * e).isFinite = true ∧
    |(a * b - c * e).val - (a.val * b.val - c.val * e.val)| ≤ 4.01 * (A ^ 2 * f.u) ∧
    |a.val * b.val - c.val * e.val| ≤ 2 * A ^ 2 ∧ |(a * b - c * e).val| ≤ 2.001 * A ^ 2 := by
  obtain ⟨u0, u1, A0, e2, _⟩ := scale_facts hf hA1
  have AA : A * A ≤ 2 ^ 40 := by
    calc A * A ≤ 2 ^ 20 * 2 ^ 20 := mul_le_mul hA2 hA2 A0.le (by norm_num)
      _ = _ := by norm_num
  obtain ⟨p1, p2⟩ := mul_b hf ha hb ha' hb' (AA.trans (by norm_num))
  obtain ⟨q1, q2⟩ := mul_b hf hc he hc' he' (AA.trans (by norm_num))
  have m1 : |a.val * b.val| ≤ A * A := by
    rw [abs_mul]; exact mul_le_mul ha' hb' (abs_nonneg _) A0.le
  have m2 : |c.val * e.val| ≤ A * A := by
    rw [abs_mul]; exact mul_le_mul hc' he' (abs_nonneg _) A0.le
  rw [← pow_two] at *
  have uA : A ^ 2 * f.u ≤ A ^ 2 / 2 ^ 24 := by
    have := mul_le_mul_of_nonneg_left u1 (by positivity : 0 ≤ A ^ 2)
    rw [mul_one_div] at this; exact this
  have AAu : 0 < A ^ 2 * f.u := by positivity
  have AA0 : 0 < A ^ 2 := by positivity
  have n1 := abs_near p2 m1
  have n2 := abs_near q2 m2
  have n3 : |(a * b).val - (c * e).val| ≤ 2.0001 * A ^ 2 := by
    refine (abs_sub _ _).trans ?_
    norm_num at e2 uA ⊢; linarith
  obtain ⟨s1, s2⟩ := sub_b hf p1 q1 n3 (by norm_num at AA ⊢; linarith)
  have main : |(a * b - c * e).val - (a.val * b.val - c.val * e.val)| ≤ 4.01 * (A ^ 2 * f.u) := by
    have t : (a * b - c * e).val - (a.val * b.val - c.val * e.val) =
      ((a * b - c * e).val - ((a * b).val - (c * e).val)) + ((a * b).val - a.val * b.val)
        - ((c * e).val - c.val * e.val) := by ring
    rw [t]
    refine (abs_sub _ _).trans ((add_le_add_left (abs_add_le _ _) _).trans ?_)
    norm_num at e2 s2 ⊢; linarith
  have big : |a.val * b.val - c.val * e.val| ≤ 2 * A ^ 2 := (abs_sub _ _).trans (by linarith)
  refine ⟨s1, main, big, (abs_near main big).trans ?_⟩
  norm_num at uA ⊢; linarith

/-- the product of an entry and a minor -/
theorem term_err (hf : Std f) {a s : FP f} {S A : ℚ} (ha : a.isFinite = true) (hs : s.isFinite = true)
    (ha' : |a.val| ≤ A) (h1 : |s.val - S| ≤ 4.01 * (A ^ 2 * f.u)) (h3 : |s.val| ≤ 2.001 * A ^ 2)
    (hA1 : 1 / 2 ^ 20 ≤ A) (hA2 : A ≤ 2 ^ 20) :
    (a * s).isFinite = true ∧ |(a * s).val - a.val * S| ≤ 6.02 * (A ^ 3 * f.u) := by
  obtain ⟨u0, u1, A0, _, e3⟩ := scale_facts hf hA1
  have AA : A ^ 2 ≤ 2 ^ 40 := by
    calc A ^ 2 ≤ (2 ^ 20) ^ 2 := pow_le_pow_left₀ A0.le hA2 2
      _ = _ := by norm_num
  have AAA : A * (2.001 * A ^ 2) ≤ 2 ^ 126 := by
    calc A * (2.001 * A ^ 2) ≤ 2 ^ 20 * (2.001 * 2 ^ 40) := mul_le_mul hA2 (by linarith) (by positivity) (by norm_num)
      _ ≤ _ := by norm_num
  obtain ⟨p1, p2⟩ := mul_b hf ha hs ha' h3 AAA
  refine ⟨p1, ?_⟩
  have t : (a * s).val - a.val * S = ((a * s).val - a.val * s.val) + a.val * (s.val - S) := by ring
  have m : |a.val * (s.val - S)| ≤ A * (4.01 * (A ^ 2 * f.u)) := by
    rw [abs_mul]; exact mul_le_mul ha' h1 (abs_nonneg _) A0.le
  have k : 0 < A ^ 3 * f.u := by positivity
  rw [t]
  refine (abs_add_le _ _).trans ?_
  have e1 : A * (2.001 * A ^ 2) * f.u = 2.001 * (A ^ 3 * f.u) := by ring
  have e2 : A * (4.01 * (A ^ 2 * f.u)) = 4.01 * (A ^ 3 * f.u) := by ring
  rw [e1] at p2; rw [e2] at m
  norm_num at e3 p2 m ⊢; linarith

/-- the determinant from three terms -/
theorem det_err (hf : Std f) {p q r : FP f} {P Q R A : ℚ} (hp : p.isFinite = true) (hq : q.isFinite = true)
    (hr : r.isFinite = true) (h1 : |p.val - P| ≤ 6.02 * (A ^ 3 * f.u)) (h2 : |q.val - Q| ≤ 6.02 * (A ^ 3 * f.u))
    (h3 : |r.val - R| ≤ 6.02 * (A ^ 3 * f.u)) (hP : |P| ≤ 2 * A ^ 3) (hQ : |Q| ≤ 2 * A ^ 3)
    (hR : |R| ≤ 2 * A ^ 3) (hA1 : 1 / 2 ^ 20 ≤ A) (hA2 : A ≤ 2 ^ 20) :
    (p + q + r).isFinite = true ∧ |(p + q + r).val - (P + Q + R)| ≤ 29 * (A ^ 3 * f.u) := by
  obtain ⟨u0, u1, A0, _, _⟩ := scale_facts hf hA1
  have A3 : A ^ 3 ≤ 2 ^ 60 := by
    calc A ^ 3 ≤ (2 ^ 20) ^ 3 := pow_le_pow_left₀ A0.le hA2 3
      _ = _ := by norm_num
  have uA : A ^ 3 * f.u ≤ A ^ 3 / 2 ^ 24 := by
    have := mul_le_mul_of_nonneg_left u1 (by positivity : 0 ≤ A ^ 3)
    rw [mul_one_div] at this; exact this
  have A30 : 0 < A ^ 3 := by positivity
  have k : 0 < A ^ 3 * f.u := by positivity
  have n1 := abs_near h1 hP
  have n2 := abs_near h2 hQ
  have n3 := abs_near h3 hR
  have s : |p.val + q.val| ≤ 4.001 * A ^ 3 := by
    refine (abs_add_le _ _).trans ?_
    norm_num at n1 n2 uA ⊢; linarith
  obtain ⟨a1, a2⟩ := add_b hf hp hq s (by norm_num at A3 ⊢; linarith)
  have n4 := abs_near a2 s
  have e1 : 4.001 * A ^ 3 * f.u = 4.001 * (A ^ 3 * f.u) := by ring
  rw [e1] at a2 n4
  have s' : |(p + q).val + r.val| ≤ 6.01 * A ^ 3 := by
    refine (abs_add_le _ _).trans ?_
    norm_num at n3 n4 uA ⊢; linarith
  obtain ⟨b1, b2⟩ := add_b hf a1 hr s' (by norm_num at A3 ⊢; linarith)
  refine ⟨b1, ?_⟩
  have t : (p + q + r).val - (P + Q + R) = ((p + q + r).val - ((p + q).val + r.val)) +
      ((p + q).val - (p.val + q.val)) + ((p.val - P) + (q.val - Q) + (r.val - R)) := by ring
  have e2 : 6.01 * A ^ 3 * f.u = 6.01 * (A ^ 3 * f.u) := by ring
  rw [e2] at b2
  rw [t]
  refine (abs_add_le _ _).trans ((add_le_add (abs_add_le _ _) ((abs_add_le _ _).trans
    (add_le_add_left (abs_add_le _ _) _))).trans ?_)
  norm_num at a2 b2 h1 h2 h3 ⊢; linarith

/-- dividing a minor by the determinant -/
theorem quot_err [Libm f] (hf : Std f) {s r : FP f} {S D A d : ℚ} (hs : s.isFinite = true) (hr : r.isFinite = true)
    (h1 : |s.val - S| ≤ 4.01 * (A ^ 2 * f.u)) (h2 : |S| ≤ 2 * A ^ 2)
    (h4 : |r.val - D| ≤ 29 * (A ^ 3 * f.u)) (h5 : |D| ≤ 6 * A ^ 3) (h6 : d ≤ |D|)
    (h7 : 2 ^ 12 * (A ^ 3 * f.u) ≤ d) (h8 : 1 / 2 ^ 60 ≤ d)
    (hA1 : 1 / 2 ^ 20 ≤ A) (hA2 : A ≤ 2 ^ 20) :
    (s / r).isFinite = true ∧ |(s / r).val - S / D| ≤ 100 * (A ^ 5 / d ^ 2 * f.u) := by
  obtain ⟨u0, u1, A0, _, _⟩ := scale_facts hf hA1
  have A30 : 0 < A ^ 3 * f.u := by positivity
  have A20 : 0 < A ^ 2 * f.u := by positivity
  have A2 : 0 < A ^ 2 := by positivity
  have d0 : 0 < d := lt_of_lt_of_le (by norm_num) h8
  have D0 : 0 < |D| := by linarith
  have hD : D ≠ 0 := abs_pos.1 D0
  have AA : A ^ 2 ≤ 2 ^ 40 := by
    calc A ^ 2 ≤ (2 ^ 20) ^ 2 := pow_le_pow_left₀ A0.le hA2 2
      _ = _ := by norm_num
  have uA : A ^ 2 * f.u ≤ A ^ 2 / 2 ^ 24 := by
    have := mul_le_mul_of_nonneg_left u1 (by positivity : 0 ≤ A ^ 2)
    rw [mul_one_div] at this; exact this
  have r1 : 0.99 * d ≤ |r.val| := by
    have := abs_sub_abs_le_abs_sub D r.val
    rw [abs_sub_comm] at this
    norm_num at h7 ⊢; linarith
  have r0 : 0 < |r.val| := lt_of_lt_of_le (by positivity) r1
  have hr0 : r.val ≠ 0 := abs_pos.1 r0
  have n1 := abs_near h1 h2
  have sq : |s.val| ≤ 2.001 * A ^ 2 := n1.trans (by norm_num at uA ⊢; linarith)
  have q1 : |s.val / r.val| ≤ 2.022 * (A ^ 2 / d) := by
    rw [abs_div, div_le_iff₀ r0]
    calc |s.val| ≤ 2.001 * A ^ 2 := sq
      _ ≤ 2.022 * (A ^ 2 / d) * (0.99 * d) := by
        have : 2.022 * (A ^ 2 / d) * (0.99 * d) = 2.022 * 0.99 * A ^ 2 := by field_simp
        rw [this]; norm_num; linarith
      _ ≤ _ := mul_le_mul_of_nonneg_left r1 (by positivity)
  have Ad : A ^ 2 / d ≤ 2 ^ 100 := by
    rw [div_le_iff₀ d0]
    norm_num at h8 AA ⊢; linarith
  obtain ⟨z1, z2⟩ := FP.div_err hs hr hr0 (q1.trans (le_trans (by norm_num at Ad ⊢; linarith) (emax_big hf)))
  refine ⟨z1, ?_⟩
  -- the exact quotient
  have t : s.val / r.val - S / D = (s.val - S) / r.val + S * (D - r.val) / (r.val * D) := by
    field_simp; ring
  have b1 : |(s.val - S) / r.val| ≤ 4.06 * (A ^ 2 / d * f.u) := by
    rw [abs_div, div_le_iff₀ r0]
    calc |s.val - S| ≤ 4.01 * (A ^ 2 * f.u) := h1
      _ ≤ 4.06 * (A ^ 2 / d * f.u) * (0.99 * d) := by
        have : 4.06 * (A ^ 2 / d * f.u) * (0.99 * d) = 4.06 * 0.99 * (A ^ 2 * f.u) := by field_simp
        rw [this]; norm_num; linarith
      _ ≤ _ := mul_le_mul_of_nonneg_left r1 (by positivity)
  have b2 : |S * (D - r.val) / (r.val * D)| ≤ 58.6 * (A ^ 5 / d ^ 2 * f.u) := by
    rw [abs_div, abs_mul, abs_mul, div_le_iff₀ (by positivity)]
    calc |S| * |D - r.val| ≤ 2 * A ^ 2 * (29 * (A ^ 3 * f.u)) := by
          rw [abs_sub_comm]; exact mul_le_mul h2 h4 (abs_nonneg _) (by positivity)
      _ ≤ 58.6 * (A ^ 5 / d ^ 2 * f.u) * (0.99 * d * d) := by
        have : 58.6 * (A ^ 5 / d ^ 2 * f.u) * (0.99 * d * d) = 58.6 * 0.99 * (A ^ 5 * f.u) := by field_simp
        rw [this]
        have k : 0 < A ^ 5 * f.u := by positivity
        have : 2 * A ^ 2 * (29 * (A ^ 3 * f.u)) = 58 * (A ^ 5 * f.u) := by ring
        rw [this]; norm_num; linarith
      _ ≤ _ := mul_le_mul_of_nonneg_left (mul_le_mul r1 h6 d0.le r0.le) (by positivity)
  -- compare the two scales
  have six : A ^ 2 / d * f.u ≤ 6 * (A ^ 5 / d ^ 2 * f.u) := by
    have : A ^ 2 / d ≤ 6 * (A ^ 5 / d ^ 2) := by
      rw [div_le_iff₀ d0]
      have e : 6 * (A ^ 5 / d ^ 2) * d = A ^ 2 * (6 * A ^ 3) / d := by field_simp
      rw [e, le_div_iff₀ d0]
      exact mul_le_mul_of_nonneg_left (by linarith) A2.le
    have := mul_le_mul_of_nonneg_right this u0.le
    linarith
  have tiny : f.eta ≤ 1 / 1000 * (A ^ 2 / d * f.u) := by
    have e := hf.wide.heta
    have a3 : d ≤ 6 * A ^ 3 := by linarith
    have k : 1 / 2 ^ 30 ≤ A ^ 2 / d := by
      rw [le_div_iff₀ d0]
      have : A ^ 3 ≤ 2 ^ 20 * A ^ 2 := by
        rw [pow_succ, mul_comm]; exact mul_le_mul_of_nonneg_right hA2 A2.le
      norm_num at this ⊢; linarith
    have := mul_le_mul_of_nonneg_right k u0.le
    norm_num at e this ⊢; linarith
  have k2 : 0 < A ^ 2 / d * f.u := by positivity
  have t2 : (s / r).val - S / D = ((s / r).val - s.val / r.val) + ((s.val - S) / r.val + S * (D - r.val) / (r.val * D)) := by
    rw [← t]; ring
  have q2 : |s.val / r.val| * f.u ≤ 2.022 * (A ^ 2 / d * f.u) := by
    have := mul_le_mul_of_nonneg_right q1 u0.le
    linarith
  rw [t2]
  refine (abs_add_le _ _).trans ((add_le_add_right (abs_add_le _ _) _).trans ?_)
  norm_num at z2 q2 b1 b2 six tiny ⊢
  linarith

end CS

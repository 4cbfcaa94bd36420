import Verif.Lemmas.FPDeltaE3

/-!
# The parts of delta_E_2000 in floating point: differences and weights

Helper lemmas for C106 (Props/DeltaEAcc.lean).
-/
set_option linter.unusedSimpArgs false

namespace CS
variable {f : Fmt} [Libm f]

section
variable (hf : Std f) (hm : Spec.MathAccurate f)
include hf

/-- a quotient of two nearby numbers, the divisor at least one -/
theorem quot_near {a b : FP f} {A B e r : ℝ} (fa : a.isFinite = true) (fb : b.isFinite = true)
    (ha : |(a.val : ℝ) - A| ≤ e * f.u) (hb : |(b.val : ℝ) - B| ≤ r * f.u * B) (B1 : 1 ≤ B)
    (e0 : 0 ≤ e) (he : e ≤ 2 ^ 18) (r0 : 0 ≤ r) (hr : r ≤ 2 ^ 11) (hA : |A| ≤ 2 ^ 12) :
    (a / b).isFinite = true ∧
      |((a / b).val : ℝ) - A / B| ≤ (1.001 * (e / B) + (1.002 * r + 1.001) * |A / B| + 1 / 1000) * f.u := by
  obtain ⟨u0, u1, e1, η0⟩ := u_facts hf
  have B0 : 0 < B := by linarith
  have ru : r * f.u ≤ 1 / 2 ^ 13 := by
    calc r * f.u ≤ 2 ^ 11 * (1 / 2 ^ 24) := mul_le_mul hr u1 u0.le (by norm_num)
      _ = _ := by norm_num
  have ru0 : 0 ≤ r * f.u := mul_nonneg r0 u0.le
  obtain ⟨t, et, ht⟩ := rel_form (x := (b.val : ℝ)) (X := B) (k := r * f.u) (by rw [abs_of_pos B0]; exact hb)
  rw [abs_of_nonneg ru0] at ht
  have ht' := abs_le.1 (ht.trans ru)
  norm_num at ht'
  have t1 : 0 < 1 + t := by linarith
  have sb : |1 / (1 + t) - 1| ≤ 1.0002 * (r * f.u) := by
    rw [show 1 / (1 + t) - 1 = -t * (1 / (1 + t)) by field_simp; ring, abs_mul, abs_neg, abs_of_pos (by positivity : 0 < 1 / (1 + t))]
    have : 1 / (1 + t) ≤ 1.0002 := by rw [div_le_iff₀ t1]; linarith
    calc |t| * (1 / (1 + t)) ≤ (r * f.u) * 1.0002 := mul_le_mul ht this (by positivity) ru0
      _ = _ := by ring
  have s1 : |1 / (1 + t)| ≤ 1.0002 := by
    rw [abs_of_pos (by positivity), div_le_iff₀ t1]; linarith
  have form : (a.val : ℝ) / b.val - A / B = A / B * (1 / (1 + t) - 1) + ((a.val : ℝ) - A) / B * (1 / (1 + t)) := by
    rw [et]; field_simp; ring
  set E := e / B with hE
  have E0 : 0 ≤ E := div_nonneg e0 B0.le
  have E1 : E ≤ 2 ^ 18 := (div_le_self e0 B1).trans he
  have aB : |((a.val : ℝ) - A) / B| ≤ E * f.u := by
    rw [abs_div, abs_of_pos B0, hE, div_mul_eq_mul_div]
    exact div_le_div_of_nonneg_right ha B0.le
  have Qb : |A / B| ≤ 2 ^ 12 := by rw [abs_div, abs_of_pos B0]; exact (div_le_self (abs_nonneg _) B1).trans hA
  have step : |(a.val : ℝ) / b.val - A / B| ≤ 1.0002 * r * (|A / B| * f.u) + 1.0002 * (E * f.u) := by
    rw [form]
    refine (abs_add_le _ _).trans ?_
    rw [abs_mul (A / B), abs_mul (((a.val : ℝ) - A) / B)]
    have p1 := mul_le_mul_of_nonneg_left sb (abs_nonneg (A / B))
    have p2 := mul_le_mul aB s1 (abs_nonneg _) (by positivity)
    nlinarith
  generalize A / B = Q at *
  clear_value E
  have Q0 := abs_nonneg Q
  have Qu : 0 ≤ |Q| * f.u := mul_nonneg Q0 u0.le
  have Eu : 0 ≤ E * f.u := mul_nonneg E0 u0.le
  have rQ : r * (|Q| * f.u) ≤ 1 / 2 ^ 13 * |Q| := by
    have := mul_le_mul_of_nonneg_right ru Q0
    nlinarith
  have Eu1 : E * f.u ≤ 1 / 2 ^ 24 * E := by
    have := mul_le_mul_of_nonneg_left u1 E0
    linarith
  have size : |(a.val : ℝ) / b.val| ≤ 1.0002 * |Q| + 0.0001 * E := by
    have := abs_add_le ((a.val : ℝ) / b.val - Q) Q
    rw [sub_add_cancel] at this
    norm_num at rQ Eu1
    linarith
  have b0 : b.val ≠ 0 := by
    intro h
    rw [h] at et
    have : (0:ℝ) < B * (1 + t) := mul_pos B0 t1
    push_cast at et
    linarith
  obtain ⟨ff, ee⟩ := FP.div_err fa fb b0 (Nr.small_abs hf (q := a.val / b.val) (by push_cast; norm_num at Qb E1 ⊢; linarith))
  have ee' : |((a / b).val : ℝ) - (a.val : ℝ) / b.val| ≤ |(a.val : ℝ) / b.val| * f.u + f.eta := by qcast ee
  refine ⟨ff, ?_⟩
  have := abs_sub_le ((a / b).val : ℝ) ((a.val : ℝ) / b.val) Q
  have w := mul_le_mul_of_nonneg_right size u0.le
  have η1 : (f.eta : ℝ) ≤ 1 / 1000 * f.u := by norm_num at e1 ⊢; linarith
  have rr : 0 ≤ r * (|Q| * f.u) := mul_nonneg r0 Qu
  nlinarith

omit [Libm f] hf in
/-- a relative agreement as an absolute one in terms of the number itself -/
theorem Rz.nr' {k : ℝ} {a : FP f} {X : ℝ} (h : Rz k a X) : Nr a X (k * X) :=
  ⟨h.fin, h.err.trans_eq (by ring)⟩

theorem SC_near {c : FP f} {C : ℝ} (hc : Rz 86.3 c C) (hC : C ≤ 232) :
    (ciedeSC c).isFinite = true ∧ |((ciedeSC c).val : ℝ) - ciedeSC C| ≤ 89.6 * f.u * ciedeSC C ∧ 1 ≤ (ciedeSC C : ℝ) ∧
      0.045 * C ≤ ciedeSC C := by
  have C0 := hc.pos
  have e : (ciedeSC C : ℝ) = 1 + 0.045 * C := by
    simp only [ciedeSC, flt_lit]
    norm_num only [Rat.cast_ofNat, Rat.cast_div, Rat.cast_one]
  have l1 : Nr (Flt.lit 1.0 : FP f) 1 0 := (Nr.whole hf 1.0 (by short)).congr (by norm_num)
  have c45 : Nr (Flt.lit 0.045 : FP f) 0.045 0.0451 := ((Nr.lit hf (q := 0.045) (by norm_num) (by norm_num)).mono (by norm_num)).congr (by norm_num)
  rw [e]
  unfold ciedeSC
  have m := Nr.mul₂ hf c45 hc.nr' (A := 0.045) (B := C) (P := 0.045 * C) (K := 3.98 * C + 0.002) (by norm_num)
    (abs_of_nonneg C0).le (abs_of_nonneg (by linarith)).le (by norm_num; linarith) (by linarith) (by norm_num; linarith)
  have s := Nr.add₂ hf l1 m (B := 1 + 0.045 * C) (K := 89.6 * (1 + 0.045 * C)) (abs_of_nonneg (by linarith)).le (by linarith) (by linarith) (by linarith)
  exact ⟨s.fin, s.err.trans_eq (by ring), by linarith, by linarith⟩

/-- the weighted difference of chroma -/
theorem x_near {c1 c2 c : FP f} {C1 C2 : ℝ} (h1 : Rz 84.2 c1 C1) (h2 : Rz 84.2 c2 C2) (hc : Rz 86.3 c ((C1 + C2) / 2))
    (b1 : C1 ≤ 232) (b2 : C2 ≤ 232) :
    ((c2 - c1) / ciedeSC c).isFinite = true ∧
      |(((c2 - c1) / ciedeSC c).val : ℝ) - (C2 - C1) / ciedeSC ((C1 + C2) / 2)| ≤
        (3800 + 93 * |(C2 - C1) / ciedeSC ((C1 + C2) / 2)|) * f.u := by
  obtain ⟨u0, u1, e1, η0⟩ := u_facts hf
  have p1 := h1.pos
  have p2 := h2.pos
  obtain ⟨s1, s2, s3, s4⟩ := SC_near hf hc (by linarith)
  have dd : |C2 - C1| ≤ 464 := abs_le.2 ⟨by linarith, by linarith⟩
  have d := Nr.sub₂ hf h2.nr' h1.nr' (B := |C2 - C1|) (K := 168.5 * ((C1 + C2) / 2) + |C2 - C1|) le_rfl (by linarith) (by linarith) (by linarith)
  obtain ⟨q1, q2⟩ := quot_near hf d.fin s1 d.err s2 s3 (by have := abs_nonneg (C2 - C1); linarith) (by linarith) (by norm_num) (by norm_num)
    (dd.trans (by norm_num))
  refine ⟨q1, q2.trans (mul_le_mul_of_nonneg_right ?_ u0.le)⟩
  generalize (ciedeSC ((C1 + C2) / 2) : ℝ) = S at *
  have S0 : 0 < S := by linarith
  have : (168.5 * ((C1 + C2) / 2) + |C2 - C1|) / S ≤ 3745 + |(C2 - C1) / S| := by
    rw [abs_div, abs_of_pos S0, add_div]
    have : 168.5 * ((C1 + C2) / 2) / S ≤ 3745 := by rw [div_le_iff₀ S0]; linarith
    linarith
  have := abs_nonneg ((C2 - C1) / S)
  linarith

include hm in
set_option maxHeartbeats 1000000 in
/-- the difference of hue as a length -/
theorem dH_near {c1 c2 d : FP f} {C1 C2 D : ℝ} (h1 : Rz 84.2 c1 C1) (h2 : Rz 84.2 c2 C2) (n1 : C1 ≠ 0) (n2 : C2 ≠ 0)
    (b1 : C1 ≤ 232) (b2 : C2 ≤ 232) (hd : Nr d D 9400) (hD : |D| ≤ 180) :
    0 < (c1 * c2).val ∧ (c1 * c2).isFinite = true ∧
    (Flt.lit 2.0 * Flt.sqrt (c1 * c2) * Flt.sin (Flt.toRad (d / Flt.lit 2.0))).isFinite = true ∧
    |((Flt.lit 2.0 * Flt.sqrt (c1 * c2) * Flt.sin (Flt.toRad (d / Flt.lit 2.0)) : FP f).val : ℝ) -
        2 * Real.sqrt (C1 * C2) * Real.sin (Flt.toRad (D / 2))| ≤
      (44600 + 213 * |2 * Real.sqrt (C1 * C2) * Real.sin (Flt.toRad (D / 2))|) * f.u ∧
    |2 * Real.sqrt (C1 * C2) * Real.sin (Flt.toRad (D / 2))| ≤ 464 := by
  obtain ⟨u0, u1, e1, η0⟩ := u_facts hf
  have p1 := h1.pos
  have p2 := h2.pos
  have g1 := h1.big.resolve_left n1
  have g2 := h2.big.resolve_left n2
  set P := C1 * C2 with hP
  have P0 : 1 / 2 ^ 124 ≤ P := by
    have := mul_le_mul g1 g2 (by norm_num) p1
    norm_num at this ⊢
    linarith
  have P0' : 0 < P := lt_of_lt_of_le (by norm_num) P0
  have P1 : P ≤ 232 ^ 2 := by
    have := mul_le_mul b1 b2 p2 (by norm_num)
    norm_num at this ⊢
    linarith
  have uP : 0 ≤ f.u * P := mul_nonneg u0.le P0'.le
  have uP1 : f.u * P ≤ 1 / 2 ^ 24 * P := mul_le_mul_of_nonneg_right u1 P0'.le
  have ηP : (f.eta : ℝ) ≤ 1.0 * (f.u * P) := by
    have : f.u * (1 / 2 ^ 124) ≤ f.u * P := mul_le_mul_of_nonneg_left P0 u0.le
    have e' : (f.eta : ℝ) ≤ f.u / 2 ^ 124 := e1
    rw [mul_one_div] at this
    linarith
  have r1 : |(c1.val : ℝ) * c2.val - P| ≤ 168.5 * (f.u * P) := by
    rw [show (c1.val : ℝ) * c2.val - P = (c1.val - C1) * C2 + C1 * (c2.val - C2) + (c1.val - C1) * (c2.val - C2) by rw [hP]; ring]
    refine (abs_add_le _ _).trans ((add_le_add (abs_add_le _ _) le_rfl).trans ?_)
    rw [abs_mul, abs_mul, abs_mul, abs_of_nonneg p1, abs_of_nonneg p2]
    have a1 := mul_le_mul_of_nonneg_right h1.err p2
    have a2 := mul_le_mul_of_nonneg_left h2.err p1
    have a3 := mul_le_mul h1.err h2.err (abs_nonneg _) (by positivity)
    have a4 : 84.2 * f.u * C1 * (84.2 * f.u * C2) = 84.2 * 84.2 * f.u * (f.u * P) := by rw [hP]; ring
    have a5 : 84.2 * 84.2 * f.u * (f.u * P) ≤ 84.2 * 84.2 * (1 / 2 ^ 24) * (f.u * P) :=
      mul_le_mul_of_nonneg_right (mul_le_mul_of_nonneg_left u1 (by norm_num)) uP
    have a6 : 84.2 * f.u * C1 * C2 = 84.2 * (f.u * P) := by rw [hP]; ring
    have a7 : C1 * (84.2 * f.u * C2) = 84.2 * (f.u * P) := by rw [hP]; ring
    norm_num at a5
    linarith
  have size : |(c1.val : ℝ) * c2.val| ≤ 1.001 * P := by
    have := abs_add_le ((c1.val : ℝ) * c2.val - P) P
    rw [sub_add_cancel, abs_of_pos P0'] at this
    norm_num at uP1
    linarith
  obtain ⟨pf, pe⟩ := FP.mul_err h1.fin h2.fin (Nr.small_abs hf (q := c1.val * c2.val) (by push_cast; exact size.trans (by norm_num at P1 ⊢; linarith)))
  have pe' : |((c1 * c2).val : ℝ) - (c1.val : ℝ) * c2.val| ≤ |(c1.val : ℝ) * c2.val| * f.u + f.eta := by qcast pe
  generalize c1 * c2 = p at *
  clear_value P
  have r2 : |(p.val : ℝ) - P| ≤ 170.6 * f.u * P := by
    have := abs_sub_le (p.val : ℝ) ((c1.val : ℝ) * c2.val) P
    have w := mul_le_mul_of_nonneg_right size u0.le
    nlinarith
  have ppos : (0:ℝ) < p.val := by
    have := (abs_le.1 r2).1
    norm_num at uP1
    nlinarith
  have ppos' : 0 < p.val := by exact_mod_cast ppos
  have ptop : p.val ≤ 2 ^ 30 := by
    have : (p.val : ℝ) ≤ ((2 ^ 30 : ℚ) : ℝ) := by
      have := (abs_le.1 r2).2
      push_cast
      norm_num at uP1 P1 ⊢
      nlinarith
    exact_mod_cast this
  obtain ⟨q0, qf, qe⟩ := hm.sqrt p pf ppos'.le ptop
  have s1 := root_near (a := (p.val : ℝ)) (b := P) (k := 170.6 * f.u) (ε := 0) P0'.le (by positivity) (by norm_num at u1 ⊢; linarith) le_rfl
    (by linarith)
  rw [Real.sqrt_zero, mul_zero, add_zero] at s1
  generalize (Flt.sqrt p : FP f) = q at *
  set R := Real.sqrt P with hR
  have R1 : R ≤ 232 := by rw [hR, Real.sqrt_le_left (by norm_num)]; exact P1
  have R0 : 1 / 2 ^ 62 ≤ R := by
    rw [hR]
    refine Real.le_sqrt_of_sq_le (le_trans (by norm_num) P0)
  generalize Real.sqrt (p.val : ℝ) = M at *
  clear_value R
  have uR : 0 ≤ f.u * R := mul_nonneg u0.le (le_trans (by norm_num) R0)
  have uR1 : f.u * R ≤ 1 / 2 ^ 24 * R := mul_le_mul_of_nonneg_right u1 (le_trans (by norm_num) R0)
  have Mt : M ≤ 1.001 * R := by
    have := (abs_le.1 s1).2
    norm_num at uR1
    nlinarith
  have s2 : |(q.val : ℝ) - R| ≤ 208.8 * (f.u * R) := by
    have := abs_sub_le (q.val : ℝ) M R
    have w := mul_le_mul_of_nonneg_left Mt (by positivity : (0:ℝ) ≤ 4 * f.u)
    nlinarith
  have l2 : Nr (Flt.lit 2.0 : FP f) 2 0 := (Nr.whole hf 2.0 (by short)).congr (by norm_num)
  have hq : Nr q R (208.8 * R) := ⟨qf, by linarith⟩
  have v2 : ((Flt.lit 2.0 : FP f).val : ℝ) = 2 := by
    have := l2.err
    rw [zero_mul] at this
    linarith [abs_nonpos_iff.1 this]
  have qt : (q.val : ℝ) ≤ 1.001 * R := by
    have := (abs_le.1 s2).2
    norm_num at uR1
    linarith
  have q0' : (0:ℝ) ≤ q.val := by exact_mod_cast q0
  obtain ⟨wf, we⟩ := FP.mul_err l2.fin qf (Nr.small_abs hf (q := (Flt.lit 2.0 : FP f).val * q.val) (by
    push_cast; rw [v2, abs_of_nonneg (by linarith)]; norm_num; linarith))
  have we' : |((Flt.lit 2.0 * q : FP f).val : ℝ) - 2 * q.val| ≤ |2 * (q.val : ℝ)| * f.u + f.eta := by
    have : |((Flt.lit 2.0 * q : FP f).val : ℝ) - ((Flt.lit 2.0 : FP f).val : ℝ) * q.val| ≤ |((Flt.lit 2.0 : FP f).val : ℝ) * q.val| * f.u + f.eta := by qcast we
    rwa [v2] at this
  have ηR := absorb hf R0
  have w1 : Nr (Flt.lit 2.0 * q : FP f) (2 * R) (421 * R) := by
    refine ⟨wf, ?_⟩
    have := abs_sub_le ((Flt.lit 2.0 * q : FP f).val : ℝ) (2 * q.val) (2 * R)
    rw [abs_of_nonneg (by linarith : 0 ≤ 2 * (q.val : ℝ))] at we'
    have e3 : |2 * (q.val : ℝ) - 2 * R| = 2 * |(q.val : ℝ) - R| := by rw [← mul_sub, abs_mul, abs_two]
    have w := mul_le_mul_of_nonneg_right qt u0.le
    norm_num at ηR
    nlinarith
  have hd2 := Nr.div₂ hf hd l2 (b0 := 2) (Q := 90) (K := 4838) (by norm_num) le_rfl (by rw [abs_div, abs_two]; linarith) (by norm_num)
    (by norm_num) (by norm_num) (by norm_num)
  have hs := (sind_near hf hm hd2 (M := 90) (by norm_num) (by rw [abs_div, abs_two]; linarith) (by norm_num) (by norm_num)).mono
    (show _ ≤ (96:ℝ) by norm_num)
  have S1 := Real.abs_sin_le_one (Flt.toRad (D / 2))
  generalize Real.sin (Flt.toRad (D / 2)) = S at *
  generalize (Flt.sin (Flt.toRad (d / Flt.lit 2.0)) : FP f) = s at *
  have R0' : 0 ≤ R := le_trans (by norm_num) R0
  have RS : |2 * R * S| = 2 * R * |S| := by rw [abs_mul, abs_of_nonneg (by linarith)]
  have RS1 : R * |S| ≤ 232 := by
    calc R * |S| ≤ R * 1 := mul_le_mul_of_nonneg_left S1 R0'
      _ ≤ _ := by linarith
  have RS0 : 0 ≤ R * |S| := mul_nonneg R0' (abs_nonneg _)
  have fin := Nr.mul₂ hf w1 hs (A := 2 * R) (B := |S|) (P := 2 * R * |S|) (K := 44600 + 213 * (2 * R * |S|)) (abs_of_nonneg (by linarith)).le le_rfl RS.le
    (by norm_num; nlinarith) (by nlinarith) (by norm_num; nlinarith)
  rw [RS]
  exact ⟨ppos', pf, fin.fin, fin.err, by linarith⟩

omit [Libm f] hf in
/-- the lightness weight changes slowly -/
theorem phi_lip (x y : ℝ) : |0.015 * x ^ 2 / Real.sqrt (20 + x ^ 2) - 0.015 * y ^ 2 / Real.sqrt (20 + y ^ 2)| ≤ 0.03 * |x - y| := by
  have h := hypot_near x y (Real.sqrt 20)
  rw [Real.sq_sqrt (by norm_num), add_comm (x ^ 2), add_comm (y ^ 2)] at h
  have gx : ∀ z : ℝ, Real.sqrt (20 + z ^ 2) ^ 2 = 20 + z ^ 2 := fun z => Real.sq_sqrt (by positivity)
  have gp : ∀ z : ℝ, 0 < Real.sqrt (20 + z ^ 2) := fun z => Real.sqrt_pos.2 (by positivity)
  have g4 : ∀ z : ℝ, 4.47 ≤ Real.sqrt (20 + z ^ 2) := fun z => Real.le_sqrt_of_sq_le (by nlinarith [sq_nonneg z])
  have form : ∀ z : ℝ, 0.015 * z ^ 2 / Real.sqrt (20 + z ^ 2) = 0.015 * (Real.sqrt (20 + z ^ 2) - 20 / Real.sqrt (20 + z ^ 2)) := by
    intro z
    have := gx z
    have := (gp z).ne'
    rw [div_eq_iff this, mul_assoc, sub_mul, div_mul_cancel₀ _ this]
    nlinarith
  rw [form, form]
  have px := gp x
  have py := gp y
  have g20 : 20 ≤ Real.sqrt (20 + x ^ 2) * Real.sqrt (20 + y ^ 2) := by
    rw [← Real.sqrt_mul (by positivity)]
    refine Real.le_sqrt_of_sq_le ?_
    nlinarith [sq_nonneg x, sq_nonneg y, mul_nonneg (sq_nonneg x) (sq_nonneg y)]
  generalize Real.sqrt (20 + x ^ 2) = a at *
  generalize Real.sqrt (20 + y ^ 2) = b at *
  have d : |20 / b - 20 / a| ≤ |a - b| := by
    rw [show 20 / b - 20 / a = 20 / (a * b) * (a - b) by field_simp, abs_mul, abs_of_pos (by positivity)]
    have : 20 / (a * b) ≤ 1 := by rw [div_le_one (by positivity)]; exact g20
    nlinarith [abs_nonneg (a - b)]
  rw [show 0.015 * (a - 20 / a) - 0.015 * (b - 20 / b) = 0.015 * ((a - b) + (20 / b - 20 / a)) by ring, abs_mul,
    abs_of_pos (by norm_num : (0:ℝ) < 0.015)]
  have := abs_add_le (a - b) (20 / b - 20 / a)
  linarith

include hm in
set_option maxHeartbeats 800000 in
theorem SL_near {l : FP f} {L : ℝ} (hl : Nr l L 257.4) (hL : |L| ≤ 128) :
    Nr (ciedeSL l) (ciedeSL L : ℝ) 65 ∧ 1 ≤ (ciedeSL L : ℝ) := by
  obtain ⟨u0, u1, e1, η0⟩ := u_facts hf
  have e : (ciedeSL L : ℝ) = 1 + 0.015 * (L - 50) ^ 2 / Real.sqrt (20 + (L - 50) ^ 2) := by
    simp only [ciedeSL, flt_lit, flt_powi, flt_sqrt]
    norm_num only [Rat.cast_ofNat, Rat.cast_div, Rat.cast_one]
  obtain ⟨L0, L1⟩ := abs_le.1 hL
  have l1 : Nr (Flt.lit 1.0 : FP f) 1 0 := (Nr.whole hf 1.0 (by short)).congr (by norm_num)
  have l50 : Nr (Flt.lit 50.0 : FP f) 50 0 := (Nr.whole hf 50.0 (by short)).congr (by norm_num)
  have l20 : Nr (Flt.lit 20.0 : FP f) 20 0 := (Nr.whole hf 20.0 (by short)).congr (by norm_num)
  have c15 : Nr (Flt.lit 0.015 : FP f) 0.015 0.0151 := ((Nr.lit hf (q := 0.015) (by norm_num) (by norm_num)).mono (by norm_num)).congr (by norm_num)
  have hx := Nr.sub₂ hf hl l50 (B := 178) (K := 436) (abs_le.2 ⟨by linarith, by linarith⟩) (by norm_num) (by norm_num) (by norm_num)
  rw [e]
  unfold ciedeSL
  have X1 : |L - 50| ≤ 178 := abs_le.2 ⟨by linarith, by linarith⟩
  generalize L - 50 = X at *
  generalize l - Flt.lit 50.0 = x at *
  have v1 : |(x.val : ℝ)| ≤ 179 := by
    have h1 := abs_add_le ((x.val : ℝ) - X) X
    rw [sub_add_cancel] at h1
    have h2 := hx.err
    norm_num at u1
    linarith
  have lip := phi_lip (x.val : ℝ) X
  have xq : |x.val| ≤ 2 ^ 12 := by
    have : ((|x.val| : ℚ) : ℝ) ≤ ((2 ^ 12 : ℚ) : ℝ) := by push_cast; exact v1.trans (by norm_num)
    exact_mod_cast this
  obtain ⟨p0, pf, pe⟩ := hm.square x hx.fin xq
  have xe := hx.err
  have η1 : (f.eta : ℝ) ≤ 1 / 1000 * f.u := by norm_num at e1 ⊢; linarith
  have v2 : (x.val : ℝ) ^ 2 ≤ 179 ^ 2 := by rw [← sq_abs]; exact pow_le_pow_left₀ (abs_nonneg _) v1 2
  have v0 := sq_nonneg (x.val : ℝ)
  have va : (x.val : ℝ) ^ 2 = |(x.val : ℝ)| * |(x.val : ℝ)| := by rw [← sq_abs]; ring
  have vg : |(x.val : ℝ)| ≤ Real.sqrt (20 + (x.val : ℝ) ^ 2) := Real.abs_le_sqrt (by linarith)
  have g4 : 4.47 ≤ Real.sqrt (20 + (x.val : ℝ) ^ 2) := Real.le_sqrt_of_sq_le (by norm_num at *; linarith)
  generalize (Flt.powi x 2 : FP f) = p at *
  have φn := abs_nonneg (x.val : ℝ)
  generalize |(x.val : ℝ)| = a at *
  generalize (x.val : ℝ) ^ 2 = V at *
  have hp : Nr p V (4 * V + 1 / 1000) := ⟨pf, by linarith⟩
  have hs := Nr.add₂ hf l20 hp (B := 20 + V) (K := 5.1 * (20 + V)) (abs_of_nonneg (by linarith)).le (by norm_num at v2 ⊢; linarith)
    (by linarith) (by norm_num at v2 ⊢; linarith)
  generalize Flt.lit 20.0 + p = s at *
  have Vu : 0 ≤ f.u * (20 + V) := by positivity
  have Vu1 : f.u * (20 + V) ≤ 1 / 2 ^ 24 * (20 + V) := mul_le_mul_of_nonneg_right u1 (by linarith)
  have sv : (0:ℝ) ≤ s.val ∧ (s.val : ℝ) ≤ 2 ^ 30 := by
    have := abs_le.1 hs.err
    norm_num at Vu1 v2
    constructor
    · nlinarith
    · norm_num; nlinarith
  obtain ⟨-, rf, re⟩ := hm.sqrt s hs.fin (by exact_mod_cast sv.1) (by
    have : (s.val : ℝ) ≤ ((2 ^ 30 : ℚ) : ℝ) := by push_cast; exact sv.2
    exact_mod_cast this)
  have sn := root_near (a := (s.val : ℝ)) (b := 20 + V) (k := 5.1 * f.u) (ε := 0) (by linarith) (by positivity) (by norm_num at u1 ⊢; linarith) le_rfl
    (by have := hs.err; linarith)
  rw [Real.sqrt_zero, mul_zero, add_zero] at sn
  generalize (Flt.sqrt s : FP f) = r at *
  generalize Real.sqrt (20 + V) = g at *
  generalize Real.sqrt (s.val : ℝ) = M at *
  have ug : 0 ≤ f.u * g := mul_nonneg u0.le (by linarith)
  have ug1 : f.u * g ≤ 1 / 2 ^ 24 * g := mul_le_mul_of_nonneg_right u1 (by linarith)
  have Mt : M ≤ 1.001 * g := by
    have := (abs_le.1 sn).2
    norm_num at ug1
    nlinarith
  have hr : Nr r g (10.2 * g) := by
    refine ⟨rf, ?_⟩
    have := abs_sub_le (r.val : ℝ) M g
    have w := mul_le_mul_of_nonneg_left Mt (by positivity : (0:ℝ) ≤ 4 * f.u)
    nlinarith
  have hn := Nr.mul₂ hf c15 hp (A := 0.015) (B := V) (P := 0.015 * V) (K := 0.0903 * V + 0.0012) (by norm_num) (abs_of_nonneg v0).le
    (abs_of_nonneg (by linarith)).le (by norm_num at v2 ⊢; linarith) (by norm_num at v2 ⊢; linarith) (by norm_num at v2 ⊢; linarith)
  have g0 : 0 < g := by linarith
  have Vg : V / g ≤ 179 := by
    rw [div_le_iff₀ g0, va]
    exact mul_le_mul v1 vg φn (by norm_num)
  have Vg0 : 0 ≤ V / g := div_nonneg v0 g0.le
  have Q0 : 0.015 * V / g = 0.015 * (V / g) := by ring
  have quo : (0.0903 * V + 0.0012 + 0.015 * (V / g) * (10.2 * g)) / g ≤ 43.6 := by
    rw [add_div, add_div, mul_div_assoc, show 0.015 * (V / g) * (10.2 * g) / g = 0.153 * (V / g) by rw [div_eq_iff g0.ne']; ring]
    have : 0.0012 / g ≤ 0.0012 := div_le_self (by norm_num) (by linarith)
    linarith
  have hq := Nr.div₂ hf hn hr (b0 := g) (Q := 0.015 * (V / g)) (K := 47) g0 le_rfl (by rw [Q0, abs_of_nonneg (by linarith)]) (by norm_num; linarith)
    (by norm_num; linarith) (quo.trans (by norm_num)) (by linarith)
  have pos : 0 ≤ 0.015 * X ^ 2 / Real.sqrt (20 + X ^ 2) := by positivity
  generalize 0.015 * X ^ 2 / Real.sqrt (20 + X ^ 2) = φ at *
  have hq2 : Nr (Flt.lit 0.015 * p / r) φ 60.1 := by
    refine ⟨hq.fin, ?_⟩
    have := abs_sub_le ((Flt.lit 0.015 * p / r : FP f).val : ℝ) (0.015 * V / g) φ
    have := hq.err
    linarith
  have top : φ ≤ 2.7 := by
    have h1 := (abs_le.1 lip).1
    rw [Q0] at h1
    norm_num at u1
    nlinarith
  exact ⟨Nr.add₂ hf l1 hq2 (B := 3.7) (K := 65) (abs_le.2 ⟨by linarith, by linarith⟩) (by norm_num) (by norm_num) (by norm_num), by linarith⟩

end
end CS

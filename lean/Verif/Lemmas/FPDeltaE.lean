import Verif.Lemmas.FPCiede2
import Verif.Lemmas.FPNear
import Verif.Lemmas.DeltaEReal

/-!
# The chromas and hues of `delta_E_2000` in floating point
-/

namespace CS
variable {f : Fmt} [Libm f]

/-- zero, or not below `2^-60` -/
def Plain (x : ℝ) : Prop := x = 0 ∨ 1 / 2 ^ 60 ≤ |x|

/-- a computed quantity that agrees relatively with a quantity that is not negative -/
structure Rz (k : ℝ) (a : FP f) (X : ℝ) : Prop where
  fin : a.isFinite = true
  nn : 0 ≤ a.val
  err : |(a.val : ℝ) - X| ≤ k * f.u * X
  pos : 0 ≤ X
  top : X ≤ 1024
  big : X = 0 ∨ 1 / 2 ^ 62 ≤ X

section
variable (hf : Std f)
include hf

omit [Libm f] in
theorem absorb {X : ℝ} (h : 1 / 2 ^ 62 ≤ X) : (f.eta : ℝ) ≤ 1 / 2 ^ 60 * (f.u * X) := by
  obtain ⟨u0, u1, e1, e0⟩ := u_facts hf
  have h1 : (f.u : ℝ) * (1 / 2 ^ 62) ≤ f.u * X := mul_le_mul_of_nonneg_left h u0.le
  norm_num at h1 e1 ⊢
  linarith

omit [Libm f] hf in
/-- a number from a relative error -/
theorem rel_form {x X k : ℝ} (h : |x - X| ≤ k * |X|) : ∃ t, x = X * (1 + t) ∧ |t| ≤ |k| := by
  by_cases h0 : X = 0
  · subst h0
    refine ⟨0, ?_, by simp⟩
    rw [abs_zero, mul_zero] at h
    have := abs_nonpos_iff.1 h
    linarith
  · refine ⟨(x - X) / X, by field_simp; ring, ?_⟩
    have hX := abs_pos.2 h0
    rw [abs_div, div_le_iff₀ hX]
    exact h.trans (mul_le_mul_of_nonneg_right (le_abs_self k) hX.le)

variable (hm : Spec.MathAccurate f)
include hm

/-- the length of a vector one of whose components is only known relatively -/
theorem hypot_rz {x y : FP f} {X k : ℝ} (hx : x.isFinite = true) (hy : y.isFinite = true) (k0 : 0 ≤ k) (hk : k ≤ 100)
    (h : |(x.val : ℝ) - X| ≤ k * f.u * |X|) (hX : |X| ≤ 256) (hY : |(y.val : ℝ)| ≤ 256) (pX : Plain X) (pY : Plain y.val) :
    Rz (k + 4.1) (Flt.hypot x y) (Real.sqrt (X ^ 2 + (y.val : ℝ) ^ 2)) ∧
    (Real.sqrt (X ^ 2 + (y.val : ℝ) ^ 2) = 0 ∨ 1 / 2 ^ 60 ≤ Real.sqrt (X ^ 2 + (y.val : ℝ) ^ 2)) := by
  obtain ⟨u0, u1, e1, e0⟩ := u_facts hf
  have ku : k * f.u ≤ 1 / 2 ^ 17 := by
    calc k * f.u ≤ 100 * (1 / 2 ^ 24) := mul_le_mul hk u1 u0.le (by norm_num)
      _ ≤ _ := by norm_num
  have xb : |(x.val : ℝ)| ≤ 257 := by
    have h1 := abs_add_le ((x.val : ℝ) - X) X
    rw [sub_add_cancel] at h1
    have h2 : k * f.u * |X| ≤ 1 / 2 ^ 17 * 256 := mul_le_mul ku hX (abs_nonneg _) (by norm_num)
    norm_num at h2
    linarith
  have xq : |x.val| ≤ 2 ^ 11 := by
    have : ((|x.val| : ℚ) : ℝ) ≤ ((2 ^ 11 : ℚ) : ℝ) := by push_cast; exact xb.trans (by norm_num)
    exact_mod_cast this
  have yq : |y.val| ≤ 2 ^ 11 := by
    have : ((|y.val| : ℚ) : ℝ) ≤ ((2 ^ 11 : ℚ) : ℝ) := by push_cast; exact hY.trans (by norm_num)
    exact_mod_cast this
  obtain ⟨h0, hfin, hh⟩ := hm.hypot x y hx hy xq yq
  set N := Real.sqrt (X ^ 2 + (y.val : ℝ) ^ 2) with hN
  have N0 : 0 ≤ N := Real.sqrt_nonneg _
  have Ntop : N ≤ 1024 := by
    rw [hN, Real.sqrt_le_left (by norm_num), ← sq_abs X, ← sq_abs (y.val : ℝ)]
    have h1 := pow_le_pow_left₀ (abs_nonneg _) hX 2
    have h2 := pow_le_pow_left₀ (abs_nonneg _) hY 2
    norm_num at h1 h2 ⊢
    linarith
  have XN : |X| ≤ N := Real.abs_le_sqrt (by nlinarith [sq_nonneg (y.val : ℝ)])
  have YN : |(y.val : ℝ)| ≤ N := Real.abs_le_sqrt (by nlinarith [sq_nonneg X])
  by_cases hz : X = 0 ∧ (y.val : ℝ) = 0
  · have x0 : x.val = 0 := by
      rw [hz.1, abs_zero, mul_zero, sub_zero] at h
      have := abs_nonpos_iff.1 h
      exact_mod_cast this
    have y0 : y.val = 0 := by exact_mod_cast hz.2
    have v := hm.hypot_zero x y hx hy x0 y0
    have Nz : N = 0 := by rw [hN, hz.1, hz.2]; simp
    refine ⟨⟨hfin, h0, ?_, N0, Ntop, Or.inl Nz⟩, Or.inl Nz⟩
    rw [v, Nz]; simp
  · have Nb : 1 / 2 ^ 60 ≤ N := by
      rcases pX with h1 | h1
      · rcases pY with h2 | h2
        · exact absurd ⟨h1, h2⟩ hz
        · exact h2.trans YN
      · exact h1.trans XN
    refine ⟨⟨hfin, h0, ?_, N0, Ntop, Or.inr (le_trans (by norm_num) Nb)⟩, Or.inr Nb⟩
    have a1 := hypot_near (x.val : ℝ) X (y.val : ℝ)
    rw [← hN] at a1
    set M := Real.sqrt ((x.val : ℝ) ^ 2 + (y.val : ℝ) ^ 2)
    have a2 : |M - N| ≤ k * (f.u * N) := by
      refine a1.trans (h.trans ?_)
      rw [mul_assoc]
      exact mul_le_mul_of_nonneg_left (mul_le_mul_of_nonneg_left XN u0.le) k0
    have uN : 0 ≤ f.u * N := mul_nonneg u0.le N0
    have a3 : M ≤ N + 1 / 2 ^ 17 * N := by
      have := (abs_le.1 a2).2
      have h2 : k * (f.u * N) ≤ 1 / 2 ^ 17 * N := by rw [← mul_assoc]; exact mul_le_mul_of_nonneg_right ku N0
      linarith
    have a4 : 4 * f.u * M ≤ 4 * (f.u * N) + 4 / 2 ^ 17 * (f.u * N) := by
      have := mul_le_mul_of_nonneg_left a3 (by linarith : (0:ℝ) ≤ 4 * f.u)
      nlinarith
    have a5 := absorb hf (le_trans (by norm_num) Nb)
    have a6 := abs_sub_le ((Flt.hypot x y : FP f).val : ℝ) M N
    have : (k + 4.1) * f.u * N = k * (f.u * N) + 4.1 * (f.u * N) := by ring
    rw [this]
    norm_num at a4 a5 ⊢
    linarith

omit hm in
/-- half the sum -/
theorem mean_rz {a b : FP f} {X Y k : ℝ} (k0 : 0 ≤ k) (hk : k ≤ 100) (ha : Rz k a X) (hb : Rz k b Y)
    (bX : X = 0 ∨ 1 / 2 ^ 60 ≤ X) (bY : Y = 0 ∨ 1 / 2 ^ 60 ≤ Y) :
    Rz (k + 2.1) ((a + b) / Flt.lit 2.0) ((X + Y) / 2) := by
  obtain ⟨u0, u1, e1, e0⟩ := u_facts hf
  have ku : k * f.u ≤ 1 / 2 ^ 17 := by
    calc k * f.u ≤ 100 * (1 / 2 ^ 24) := mul_le_mul hk u1 u0.le (by norm_num)
      _ ≤ _ := by norm_num
  have X0 := ha.pos
  have Y0 := hb.pos
  have l2 : In (Flt.lit 2.0 : FP f) 2 2 := in_lit hf (by short) (by short) (by norm_num) (by norm_num)
  have v2 : (Flt.lit 2.0 : FP f).val = 2 := le_antisymm l2.2.2 l2.2.1
  have sm : |((a.val : ℝ) + b.val) - (X + Y)| ≤ k * (f.u * (X + Y)) := by
    have := abs_add_le ((a.val : ℝ) - X) (b.val - Y)
    rw [show (a.val : ℝ) + b.val - (X + Y) = (a.val - X) + (b.val - Y) by ring]
    refine this.trans ((add_le_add ha.err hb.err).trans_eq (by ring))
  have S0 : 0 ≤ X + Y := add_nonneg X0 Y0
  have uS : 0 ≤ f.u * (X + Y) := mul_nonneg u0.le S0
  have kS : k * (f.u * (X + Y)) ≤ 1 / 2 ^ 17 * (X + Y) := by rw [← mul_assoc]; exact mul_le_mul_of_nonneg_right ku S0
  have s1 : |(a.val : ℝ) + b.val| ≤ (1 + 1 / 2 ^ 17) * (X + Y) := by
    have := abs_add_le ((a.val : ℝ) + b.val - (X + Y)) (X + Y)
    rw [sub_add_cancel, abs_of_nonneg S0] at this
    linarith
  have tX := ha.top
  have tY := hb.top
  obtain ⟨f1, g1⟩ := FP.add_err ha.fin hb.fin (Nr.small_abs hf (by push_cast; norm_num at s1 ⊢; linarith))
  have g1' : |((a + b).val : ℝ) - ((a.val : ℝ) + b.val)| ≤ |(a.val : ℝ) + b.val| * f.u := by qcast g1
  have s2 : |(a.val : ℝ) + b.val| * f.u ≤ (1 + 1 / 2 ^ 17) * (f.u * (X + Y)) := by
    have := mul_le_mul_of_nonneg_right s1 u0.le
    linarith
  have s3 : |((a + b).val : ℝ) - (X + Y)| ≤ (k + 1 + 1 / 2 ^ 17) * (f.u * (X + Y)) := by
    have := abs_sub_le ((a + b).val : ℝ) ((a.val : ℝ) + b.val) (X + Y)
    linarith
  have s4 : |((a + b).val : ℝ)| ≤ (1 + 1 / 2 ^ 16) * (X + Y) := by
    have h1 := abs_add_le (((a + b).val : ℝ) - (X + Y)) (X + Y)
    rw [sub_add_cancel, abs_of_nonneg S0] at h1
    have h2 : (f.u : ℝ) * (X + Y) ≤ 1 / 2 ^ 24 * (X + Y) := mul_le_mul_of_nonneg_right u1 S0
    norm_num at *
    linarith
  have n1 : 0 ≤ (a + b).val := by
    obtain ⟨-, e⟩ := FP.add_finite ha.fin hb.fin (roundQ_lt (Nr.small_abs hf (q := a.val + b.val) (by push_cast; norm_num at s1 ⊢; linarith)))
    rw [e]
    exact roundQ_nonneg f (add_nonneg ha.nn hb.nn)
  have d1 : |(((a + b).val / (Flt.lit 2.0 : FP f).val : ℚ) : ℝ)| ≤ 2 ^ 40 := by
    rw [v2]; push_cast; rw [abs_div, abs_two]; norm_num at s4 ⊢; linarith
  have v2' : (Flt.lit 2.0 : FP f).val ≠ 0 := by rw [v2]; norm_num
  obtain ⟨f2, g2⟩ := FP.div_err f1 l2.1 v2' (Nr.small_abs hf d1)
  have n2 : 0 ≤ ((a + b) / Flt.lit 2.0).val := by
    obtain ⟨-, e⟩ := FP.div_finite' f1 l2.1 v2' (roundQ_lt (Nr.small_abs hf d1))
    rw [e, v2]
    exact roundQ_nonneg f (by linarith)
  have g2' : |(((a + b) / Flt.lit 2.0).val : ℝ) - (a + b).val / 2| ≤ |((a + b).val : ℝ) / 2| * f.u + f.eta := by
    rw [v2] at g2; qcast g2
  refine ⟨f2, n2, ?_, by linarith, by linarith, ?_⟩
  · rcases eq_or_lt_of_le S0 with hz | hz
    · rw [← hz, mul_zero, mul_zero] at s3
      have e0' : ((a + b).val : ℝ) = 0 := by
        have := abs_nonpos_iff.1 s3
        linarith
      rw [e0'] at g2'
      simp only [_root_.zero_div, abs_zero, zero_mul, zero_add, sub_zero] at g2'
      have : ((a + b) / Flt.lit 2.0).val = 0 := rep_zero (FP.round_val _) (by
        have : ((|((a + b) / Flt.lit 2.0).val| : ℚ) : ℝ) ≤ f.eta := by push_cast; exact g2'
        exact_mod_cast this)
      rw [this, ← hz]; simp
    · have Sb : 1 / 2 ^ 60 ≤ X + Y := by
        rcases bX with h | h
        · rcases bY with h' | h'
          · rw [h, h'] at hz; norm_num at hz
          · linarith
        · linarith
      have Sb' : 1 / 2 ^ 62 ≤ X + Y := by norm_num at Sb ⊢; linarith
      have ab := absorb hf Sb'
      rw [abs_div, abs_two] at g2'
      have t1 : |((a + b).val : ℝ)| / 2 * f.u ≤ (1 + 1 / 2 ^ 16) / 2 * (f.u * (X + Y)) := by
        have := mul_le_mul_of_nonneg_right s4 u0.le
        linarith
      have t2 : |((a + b).val : ℝ) / 2 - (X + Y) / 2| ≤ (k + 1 + 1 / 2 ^ 17) / 2 * (f.u * (X + Y)) := by
        rw [← sub_div, abs_div, abs_two]; linarith
      have t3 := abs_sub_le (((a + b) / Flt.lit 2.0).val : ℝ) ((a + b).val / 2) ((X + Y) / 2)
      have : (k + 2.1) * f.u * ((X + Y) / 2) = k / 2 * (f.u * (X + Y)) + 1.05 * (f.u * (X + Y)) := by ring
      rw [this]
      norm_num at *
      linarith
  · rcases bX with h | h
    · rcases bY with h' | h'
      · left; rw [h, h']; norm_num
      · right
        norm_num at h' ⊢
        linarith
    · right
      norm_num at h ⊢
      linarith

set_option maxHeartbeats 800000 in
/-- the seventh powers and their quotient: the root in `G` and in `R_C` -/
theorem seventh_ratio_near (he : f.eta ≤ f.u ^ 2 / 2 ^ 30) {c : FP f} {C k : ℝ} (k0 : 0 ≤ k) (hk : k ≤ 100) (hc : Rz k c C)
    (hC : C ≤ 256) :
    Nr (Flt.sqrt (Flt.powi c 7 / (Flt.powi c 7 + Flt.powi (Flt.lit 25.0) 7)))
      (Real.sqrt (C ^ 7 / (C ^ 7 + 25 ^ 7))) (17 * k + 45) := by
  obtain ⟨u0, u1, e1, e0⟩ := u_facts hf
  have he' : (f.eta : ℝ) ≤ (f.u : ℝ) ^ 2 / 2 ^ 30 := by qcast he
  have ku : k * f.u ≤ 1 / 2 ^ 17 := by
    calc k * f.u ≤ 100 * (1 / 2 ^ 24) := mul_le_mul hk u1 u0.le (by norm_num)
      _ ≤ _ := by norm_num
  have ku0 : 0 ≤ k * f.u := mul_nonneg k0 u0.le
  have C0 := hc.pos
  obtain ⟨t, et, ht⟩ := rel_form (x := (c.val : ℝ)) (X := C) (k := k * f.u) (by rw [abs_of_nonneg C0]; exact hc.err)
  rw [abs_of_nonneg ku0] at ht
  have ht3 : |t| ≤ 1 / 1000 := ht.trans (ku.trans (by norm_num))
  have s7 := seventh_near ht3
  -- seventh powers
  set P := C ^ 7 with hP
  have P0 : 0 ≤ P := by positivity
  have P1 : ∀ s : ℝ, (C * s) ^ 7 = P * s ^ 7 := fun s => by rw [mul_pow]
  have Ptop : P ≤ 2 ^ 56 := (pow_le_pow_left₀ C0 hC 7).trans (by norm_num)
  have ec : (c.val : ℝ) ^ 7 = P * (1 + t) ^ 7 := by rw [et, P1]
  have cb : (c.val : ℝ) ≤ 257 := by
    rw [et]
    have := (abs_le.1 ht3).2
    nlinarith
  have cq : c.val ≤ 2 ^ 11 := by
    have : (c.val : ℝ) ≤ ((2 ^ 11 : ℚ) : ℝ) := by push_cast; exact cb.trans (by norm_num)
    exact_mod_cast this
  obtain ⟨p0, pf, pe⟩ := hm.seventh c hc.fin hc.nn cq
  have l25 : In (Flt.lit 25.0 : FP f) 25 25 := in_lit hf (by short) (by short) (by norm_num) (by norm_num)
  have v25 : (Flt.lit 25.0 : FP f).val = 25 := le_antisymm l25.2.2 l25.2.1
  obtain ⟨q0, qf, qe⟩ := hm.seventh (Flt.lit 25.0) l25.1 (by rw [v25]; norm_num) (by rw [v25]; norm_num)
  rw [v25] at qe
  push_cast at qe
  generalize (Flt.powi c 7 : FP f) = p at *
  generalize (Flt.powi (Flt.lit 25.0) 7 : FP f) = q at *
  clear_value P
  set κ := 7.03 * k + 14.1 with hκ
  clear_value κ
  have κ0 : 14.1 ≤ κ := by linarith
  have κ1 : κ ≤ 720 := by linarith
  have κu : κ * f.u ≤ 1 / 2 ^ 14 := by
    calc κ * f.u ≤ 720 * (1 / 2 ^ 24) := mul_le_mul κ1 u1 u0.le (by norm_num)
      _ ≤ _ := by norm_num
  have uP : 0 ≤ f.u * P := mul_nonneg u0.le P0
  have pP : |(p.val : ℝ) - P| ≤ κ * (f.u * P) + 8 * f.eta := by
    have a1 : |(c.val : ℝ) ^ 7 - P| ≤ 7.03 * k * (f.u * P) := by
      rw [ec, show P * (1 + t) ^ 7 - P = P * ((1 + t) ^ 7 - 1) by ring, abs_mul, abs_of_nonneg P0]
      have : |(1 + t) ^ 7 - 1| ≤ 7.03 * (k * f.u) := s7.trans (mul_le_mul_of_nonneg_left ht (by norm_num))
      calc P * |(1 + t) ^ 7 - 1| ≤ P * (7.03 * (k * f.u)) := mul_le_mul_of_nonneg_left this P0
        _ = _ := by ring
    have a2 : (c.val : ℝ) ^ 7 ≤ 1.001 * P := by
      have h1 := (abs_le.1 a1).2
      have h2 : 7.03 * k * (f.u * P) ≤ 7.03 * (1 / 2 ^ 17 * P) := by
        have := mul_le_mul_of_nonneg_right ku P0
        nlinarith
      norm_num at h2
      linarith
    have a3 : 14 * f.u * (c.val : ℝ) ^ 7 ≤ 14.1 * (f.u * P) := by
      have := mul_le_mul_of_nonneg_left a2 (by linarith : (0:ℝ) ≤ 14 * f.u)
      nlinarith
    have a4 := abs_sub_le (p.val : ℝ) ((c.val : ℝ) ^ 7) P
    have : κ * (f.u * P) = 7.03 * k * (f.u * P) + 14.1 * (f.u * P) := by rw [hκ]; ring
    linarith
  set Q : ℝ := 25 ^ 7 with hQ
  have Q0 : (6e9:ℝ) ≤ Q := by rw [hQ]; norm_num
  have Q1 : Q ≤ 2 ^ 33 := by rw [hQ]; norm_num
  clear_value Q
  have uQ : 0 ≤ f.u * Q := mul_nonneg u0.le (by linarith)
  have ηQ : (f.eta : ℝ) ≤ 1 / 2 ^ 60 * (f.u * Q) := absorb hf (le_trans (by norm_num) Q0)
  have qQ : |(q.val : ℝ) - Q| ≤ 14.05 * (f.u * Q) := by
    norm_num at ηQ qe ⊢
    linarith
  -- the sum
  set D := P + Q with hD
  clear_value D
  have D0 : (6e9:ℝ) ≤ D := by linarith
  have D1 : D ≤ 2 ^ 57 := by norm_num at Q1 Ptop ⊢; linarith
  have uD : 0 ≤ f.u * D := mul_nonneg u0.le (by linarith)
  have eD : f.u * D = f.u * P + f.u * Q := by rw [hD]; ring
  have s1 : |((p.val : ℝ) + q.val) - D| ≤ κ * (f.u * D) := by
    have h1 := abs_add_le ((p.val : ℝ) - P) (q.val - Q)
    rw [show (p.val : ℝ) + q.val - D = (p.val - P) + (q.val - Q) by rw [hD]; ring]
    have h2 : κ * (f.u * D) = κ * (f.u * P) + κ * (f.u * Q) := by rw [eD]; ring
    have h3 : 14.1 * (f.u * Q) ≤ κ * (f.u * Q) := mul_le_mul_of_nonneg_right κ0 uQ
    have h4 := pP
    have h5 : 8 * (f.eta : ℝ) ≤ 0.05 * (f.u * Q) := by norm_num at ηQ ⊢; linarith
    linarith
  have κD : κ * (f.u * D) ≤ 1 / 2 ^ 14 * D := by rw [← mul_assoc]; exact mul_le_mul_of_nonneg_right κu (by linarith)
  have s2 : |(p.val : ℝ) + q.val| ≤ (1 + 1 / 2 ^ 14) * D := by
    have := abs_add_le ((p.val : ℝ) + q.val - D) D
    rw [sub_add_cancel, abs_of_nonneg (by linarith : 0 ≤ D)] at this
    linarith
  have emax : (2:ℚ) ^ 100 ≤ 2 ^ f.emax := by
    have := hf.wide.hmax
    norm_num at this ⊢
    linarith
  have bigD : |p.val + q.val| ≤ 2 ^ f.emax := by
    refine le_trans ?_ emax
    have : ((|p.val + q.val| : ℚ) : ℝ) ≤ ((2 ^ 100 : ℚ) : ℝ) := by
      push_cast
      refine s2.trans ?_
      norm_num at D1 ⊢
      linarith
    exact_mod_cast this
  obtain ⟨df, de⟩ := FP.add_err pf qf bigD
  have de' : |((p + q).val : ℝ) - ((p.val : ℝ) + q.val)| ≤ |(p.val : ℝ) + q.val| * f.u := by qcast de
  have s3 : |((p + q).val : ℝ) - D| ≤ (κ + 1.1) * (f.u * D) := by
    have h1 := abs_sub_le ((p + q).val : ℝ) ((p.val : ℝ) + q.val) D
    have h2 := mul_le_mul_of_nonneg_right s2 u0.le
    norm_num at h2 ⊢
    nlinarith
  have s4 : D ≤ 1.001 * ((p + q).val : ℝ) := by
    have h1 := (abs_le.1 s3).1
    have h2 : (f.u : ℝ) * D ≤ 1 / 2 ^ 24 * D := mul_le_mul_of_nonneg_right u1 (by linarith)
    norm_num at h2 κD
    linarith
  have dpos : (0:ℝ) < (p + q).val := by linarith
  have dne : (p + q).val ≠ 0 := by intro h; rw [h] at dpos; norm_num at dpos
  -- the quotient
  set ρ := P / D with hρ
  have Dp : 0 < D := by linarith
  have ρ0 : 0 ≤ ρ := div_nonneg P0 Dp.le
  have ρ1 : ρ ≤ 1 := by rw [hρ, div_le_one Dp]; linarith
  have eP : P = ρ * D := by rw [hρ]; field_simp
  clear_value ρ
  have uρ : 0 ≤ f.u * ρ := mul_nonneg u0.le ρ0
  have r1 : |(p.val : ℝ) / (p + q).val - ρ| ≤ 1.001 * (2 * κ + 1.1) * (f.u * ρ) + 8 * f.eta := by
    have e : (p.val : ℝ) / (p + q).val - ρ = ((p.val - P) - ρ * ((p + q).val - D)) / (p + q).val := by
      rw [eq_div_iff dpos.ne', sub_mul, div_mul_cancel₀ _ dpos.ne']
      linear_combination eP
    rw [e, abs_div, abs_of_pos dpos, div_le_iff₀ dpos]
    have h1 := abs_sub_le ((p.val : ℝ) - P) 0 (ρ * ((p + q).val - D))
    simp only [sub_zero, zero_sub, abs_neg] at h1
    have h2 : |ρ * (((p + q).val : ℝ) - D)| ≤ ρ * ((κ + 1.1) * (f.u * D)) := by
      rw [abs_mul, abs_of_nonneg ρ0]; exact mul_le_mul_of_nonneg_left s3 ρ0
    have h3 : κ * (f.u * P) + ρ * ((κ + 1.1) * (f.u * D)) = (2 * κ + 1.1) * (f.u * ρ) * D := by rw [eP]; ring
    have h4 : (2 * κ + 1.1) * (f.u * ρ) * D ≤ (2 * κ + 1.1) * (f.u * ρ) * (1.001 * ((p + q).val : ℝ)) :=
      mul_le_mul_of_nonneg_left s4 (by positivity)
    have h5 : 8 * (f.eta : ℝ) ≤ 8 * f.eta * (p + q).val := le_mul_of_one_le_right (by linarith) (by linarith)
    linarith
  have ρu : f.u * ρ ≤ 1 / 2 ^ 24 * ρ := mul_le_mul_of_nonneg_right u1 ρ0
  have κρ : κ * (f.u * ρ) ≤ 1 / 2 ^ 14 * ρ := by rw [← mul_assoc]; exact mul_le_mul_of_nonneg_right κu ρ0
  have ηs : (f.eta : ℝ) ≤ 1 / 2 ^ 100 := by norm_num at e1 u1 ⊢; linarith
  have r2 : |(p.val : ℝ) / (p + q).val| ≤ 1.001 * ρ + 8 * f.eta := by
    have := abs_add_le ((p.val : ℝ) / (p + q).val - ρ) ρ
    rw [sub_add_cancel, abs_of_nonneg ρ0] at this
    norm_num at *
    linarith
  have r2' : |(p.val : ℝ) / (p + q).val| ≤ 2 ^ 40 := by norm_num at ηs ⊢; linarith
  have sm : |p.val / (p + q).val| ≤ 2 ^ f.emax := Nr.small_abs hf (by push_cast; exact r2')
  obtain ⟨rf, re⟩ := FP.div_err pf df dne sm
  have r0 : 0 ≤ (p / (p + q)).val := by
    obtain ⟨-, e⟩ := FP.div_finite' pf df dne (roundQ_lt sm)
    rw [e]
    exact roundQ_nonneg f (div_nonneg p0 (by exact_mod_cast dpos.le))
  have re' : |((p / (p + q)).val : ℝ) - (p.val : ℝ) / (p + q).val| ≤ |(p.val : ℝ) / (p + q).val| * f.u + f.eta := by
    qcast re
  generalize (p / (p + q) : FP f) = r at *
  set κ2 := 1.001 * (2 * κ + 1.1) + 1.1 with hκ2
  clear_value κ2
  have r3 : |(r.val : ℝ) - ρ| ≤ κ2 * f.u * ρ + 10 * f.eta := by
    have h1 := abs_sub_le (r.val : ℝ) ((p.val : ℝ) / (p + q).val) ρ
    have h2 : |(p.val : ℝ) / (p + q).val| * f.u ≤ 1.001 * (f.u * ρ) + f.eta := by
      have a := mul_le_mul_of_nonneg_right r2 u0.le
      have b : 8 * (f.eta : ℝ) * f.u ≤ 8 * f.eta * (1 / 2 ^ 24) := mul_le_mul_of_nonneg_left u1 (by linarith)
      norm_num at b
      linarith
    have : κ2 * f.u * ρ = 1.001 * (2 * κ + 1.1) * (f.u * ρ) + 1.1 * (f.u * ρ) := by rw [hκ2]; ring
    rw [this]
    linarith
  have κ2u : κ2 * f.u ≤ 1 / 4 := by
    calc κ2 * f.u ≤ 2000 * (1 / 2 ^ 24) := mul_le_mul (by rw [hκ2]; linarith) u1 u0.le (by norm_num)
      _ ≤ _ := by norm_num
  have κ20 : 0 ≤ κ2 := by rw [hκ2]; linarith
  have hs := root_near ρ0 (mul_nonneg κ20 u0.le) κ2u (by linarith : (0:ℝ) ≤ 10 * f.eta) r3
  have sη : Real.sqrt (10 * f.eta) ≤ 1 / 1000 * f.u := by
    rw [Real.sqrt_le_left (by linarith)]
    have := sq_nonneg (f.u : ℝ)
    rw [mul_pow]
    norm_num at he' ⊢
    linarith
  have sρ : Real.sqrt ρ ≤ 1 := Real.sqrt_le_one.2 ρ1
  have sρ0 := Real.sqrt_nonneg ρ
  have rtop : r.val ≤ 2 ^ 30 := by
    have h1 := (abs_le.1 r3).2
    have h2 : κ2 * f.u * ρ ≤ 1 / 4 * ρ := mul_le_mul_of_nonneg_right κ2u ρ0
    have : (r.val : ℝ) ≤ ((2 ^ 30 : ℚ) : ℝ) := by push_cast; norm_num at ηs ⊢; linarith
    exact_mod_cast this
  obtain ⟨-, sf, se⟩ := hm.sqrt r rf r0 rtop
  refine ⟨sf, ?_⟩
  have w1 : 1.2 * (κ2 * f.u) * Real.sqrt ρ ≤ 1.2 * (κ2 * f.u) := mul_le_of_le_one_right (by positivity) sρ
  have w2 : Real.sqrt (r.val : ℝ) ≤ 2 := by
    have := (abs_le.1 hs).2
    linarith
  have w3 : Real.sqrt (r.val : ℝ) ≤ 1 + 1 / 1000 := by
    have := (abs_le.1 hs).2
    have h4 : κ2 * f.u ≤ 2000 * (1 / 2 ^ 24) := mul_le_mul (by rw [hκ2]; linarith) u1 u0.le (by norm_num)
    norm_num at h4 u1
    linarith
  have w4 : 4 * f.u * Real.sqrt (r.val : ℝ) ≤ 4 * f.u * (1 + 1 / 1000) := mul_le_mul_of_nonneg_left w3 (by linarith)
  have w5 := abs_sub_le ((Flt.sqrt r : FP f).val : ℝ) (Real.sqrt r.val) (Real.sqrt ρ)
  have w6 : 1.2 * (κ2 * f.u) = 1.2 * κ2 * f.u := by ring
  have w7 : (1.2 * κ2 + 4.1) * f.u ≤ (17 * k + 45) * f.u := mul_le_mul_of_nonneg_right (by rw [hκ2, hκ]; linarith) u0.le
  linarith

end
end CS

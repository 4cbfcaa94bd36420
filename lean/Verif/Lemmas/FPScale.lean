import Verif.Lemmas.ImageQ
import Mathlib.Algebra.Order.Ring.Abs

/-!
# Error bounds relative to a scale

`Tr V a X M k`: the finite number `a` stands for the real number `X`, `|X| ≤ M V` and `a` is off by at
most `k` times `u V`, where `u` is half an ulp of 1.
-/

namespace CS

structure Tr {f : Fmt} (V : ℝ) (a : FP f) (X M k : ℝ) : Prop where
  fin : a.isFinite = true
  abs : |X| ≤ M * V
  err : |(a.val : ℝ) - X| ≤ k * (f.u * V)

/-- what scales are allowed -/
structure Scale (V : ℝ) : Prop where
  lo : 1 / 2 ^ 60 ≤ V
  hi : V ≤ 2 ^ 60

/-- one rounding of a value known up to `E` with size up to `M` -/
noncomputable def rnd (E M : ℝ) : ℝ := E * (1 + 1 / 10 ^ 7) + M + 1 / 10 ^ 9

theorem Scale.pos {V : ℝ} (h : Scale V) : 0 < V := lt_of_lt_of_le (by positivity) h.lo

section
variable {f : Fmt} {V : ℝ} {a b : FP f} {X Y M N k l : ℝ}

theorem Std.u_bounds (hf : Std f) : (0:ℝ) < f.u ∧ (f.u : ℝ) ≤ 1 / 2 ^ 24 ∧ (f.eta : ℝ) ≤ f.u / 2 ^ 124 :=
  ⟨by exact_mod_cast f.u_pos, by qcast hf.hu, by qcast hf.wide.heta⟩

theorem Tr.mono (h : Tr V a X M k) (hV : Scale V) (hM : M ≤ N) (hk : k ≤ l) : Tr V a X N l := by
  have := hV.pos
  have hu : (0:ℝ) < f.u := by exact_mod_cast f.u_pos
  exact ⟨h.fin, h.abs.trans (mul_le_mul_of_nonneg_right hM this.le),
    h.err.trans (mul_le_mul_of_nonneg_right hk (by positivity))⟩

theorem Tr.congr (h : Tr V a X M k) (e : X = Y) : Tr V a Y M k := e ▸ h

theorem Tr.exact (ha : a.isFinite = true) (hM : |(a.val : ℝ)| ≤ M * V) : Tr V a (a.val : ℝ) M 0 :=
  ⟨ha, hM, by simp⟩

theorem Tr.neg (h : Tr V a X M k) : Tr V (-a) (-X) M k := by
  obtain ⟨h1, h2⟩ := FP.neg_finite h.fin
  refine ⟨h1, by rw [abs_neg]; exact h.abs, ?_⟩
  rw [h2, Rat.cast_neg, ← neg_sub_neg, neg_neg, neg_neg, abs_sub_comm, abs_sub_comm]
  rw [abs_sub_comm]
  exact h.err

/-- the value a rounding starts from is in range -/
theorem Scale.range (hf : Std f) (hV : Scale V) {Z : ℚ} {W E : ℝ} (h : |(Z : ℝ) - W| ≤ E * (f.u * V))
    (hW : |W| ≤ M * V) (hM : M ≤ 10 ^ 6) (hE0 : 0 ≤ E) (hE : E ≤ 10 ^ 6) :
    |Z| ≤ 2 ^ f.emax ∧ |(Z : ℝ)| ≤ (M + E / 2 ^ 24) * V := by
  obtain ⟨u0, u1, -⟩ := hf.u_bounds
  have hp := hV.pos
  have h1 : |(Z : ℝ)| ≤ (M + E / 2 ^ 24) * V := by
    have t := abs_add_le ((Z : ℝ) - W) W
    rw [sub_add_cancel] at t
    have : E * (f.u * V) ≤ E * (1 / 2 ^ 24 * V) :=
      mul_le_mul_of_nonneg_left (mul_le_mul_of_nonneg_right u1 hp.le) hE0
    linarith
  refine ⟨?_, h1⟩
  have h2 : (M + E / 2 ^ 24) * V ≤ 2 ^ 102 := by
    have e1 : M + E / 2 ^ 24 ≤ 2 ^ 21 := by
      have : E / 2 ^ 24 ≤ 10 ^ 6 / 2 ^ 24 := by gcongr
      norm_num at this hM ⊢; linarith
    have e2 : (M + E / 2 ^ 24) * V ≤ 2 ^ 21 * V := mul_le_mul_of_nonneg_right e1 hp.le
    have e3 : (2:ℝ) ^ 21 * V ≤ 2 ^ 21 * 2 ^ 60 := mul_le_mul_of_nonneg_left hV.hi (by positivity)
    have e4 : (2:ℝ) ^ 21 * 2 ^ 60 ≤ 2 ^ 102 := by norm_num
    linarith
  have h3 : |Z| ≤ 2 ^ 102 := by
    have := h1.trans h2
    qcast this
  have b := hf.wide.hmax
  have c : (2:ℚ) ^ 102 ≤ 2 ^ 126 := pow_le_pow_right₀ (by norm_num) (by norm_num)
  have hp : (0:ℚ) < 2 ^ f.emax := by positivity
  generalize (2:ℚ) ^ f.emax = z at *
  generalize (2:ℚ) ^ 126 = z' at *
  generalize (2:ℚ) ^ 102 = z'' at *
  linarith

/-- the error after one rounding -/
theorem Tr.round (hf : Std f) (hV : Scale V) {c : FP f} {Z : ℚ} {W E K : ℝ} (hc : c.isFinite = true)
    (hr : |c.val - Z| ≤ |Z| * f.u + f.eta) (h : |(Z : ℝ) - W| ≤ E * (f.u * V)) (hW : |W| ≤ M * V)
    (hM : M ≤ 10 ^ 6) (hE0 : 0 ≤ E) (hE : E ≤ 10 ^ 6) (hK : rnd E M ≤ K) : Tr V c W M K := by
  obtain ⟨u0, u1, u2⟩ := hf.u_bounds
  have hp := hV.pos
  obtain ⟨-, hZ⟩ := hV.range hf h hW hM hE0 hE
  have hr' : |(c.val : ℝ) - Z| ≤ |(Z : ℝ)| * f.u + f.eta := by qcast hr
  refine ⟨hc, hW, ?_⟩
  have t := abs_add_le ((c.val : ℝ) - Z) ((Z : ℝ) - W)
  rw [sub_add_sub_cancel] at t
  have e1 : |(Z : ℝ)| * f.u ≤ (M + E / 2 ^ 24) * V * f.u := mul_le_mul_of_nonneg_right hZ u0.le
  have e2 : (f.eta : ℝ) ≤ 1 / 10 ^ 9 * (f.u * V) := by
    refine u2.trans ?_
    rw [div_eq_mul_one_div, mul_comm (1 / 10 ^ 9 : ℝ), mul_assoc]
    refine mul_le_mul_of_nonneg_left ?_ u0.le
    have := mul_le_mul_of_nonneg_right hV.lo (show (0:ℝ) ≤ 1 / 10 ^ 9 by positivity)
    refine le_trans ?_ this
    norm_num
  have e3 : (M + E / 2 ^ 24) * V * f.u + 1 / 10 ^ 9 * (f.u * V) + E * (f.u * V)
      = (E + E / 2 ^ 24 + M + 1 / 10 ^ 9) * (f.u * V) := by ring
  have e4 : E + E / 2 ^ 24 + M + 1 / 10 ^ 9 ≤ K := by
    refine le_trans ?_ hK
    unfold rnd
    have : E / 2 ^ 24 ≤ E * (1 / 10 ^ 7) := by
      rw [div_eq_mul_one_div]
      exact mul_le_mul_of_nonneg_left (by norm_num) hE0
    linarith
  have e5 := mul_le_mul_of_nonneg_right e4 (show (0:ℝ) ≤ f.u * V by positivity)
  linarith

theorem Tr.add (hf : Std f) (hV : Scale V) (ha : Tr V a X M k) (hb : Tr V b Y N l) {P K : ℝ}
    (hk : 0 ≤ k := by norm_num) (hl : 0 ≤ l := by norm_num) (hP : M + N ≤ P := by norm_num)
    (hP2 : P ≤ 10 ^ 6 := by norm_num)
    (hE : k + l ≤ 10 ^ 6 := by norm_num) (hK : rnd (k + l) P ≤ K := by norm_num [rnd]) :
    Tr V (a + b) (X + Y) P K := by
  have hp := hV.pos
  have h1 : |((a.val + b.val : ℚ) : ℝ) - (X + Y)| ≤ (k + l) * (f.u * V) := by
    push_cast
    have t := abs_add_le ((a.val : ℝ) - X) ((b.val : ℝ) - Y)
    rw [add_sub_add_comm, add_mul]
    linarith [ha.err, hb.err]
  have h2 : |X + Y| ≤ P * V := by
    have := abs_add_le X Y
    have := mul_le_mul_of_nonneg_right hP hp.le
    rw [add_mul] at this
    linarith [ha.abs, hb.abs]
  obtain ⟨r, -⟩ := hV.range hf h1 h2 hP2 (by linarith) hE
  obtain ⟨c1, c2⟩ := FP.add_err ha.fin hb.fin r
  exact Tr.round hf hV c1 (c2.trans (by linarith [f.eta_pos])) h1 h2 hP2 (by linarith) hE hK

theorem Tr.sub (hf : Std f) (hV : Scale V) (ha : Tr V a X M k) (hb : Tr V b Y N l) {P K : ℝ}
    (hk : 0 ≤ k := by norm_num) (hl : 0 ≤ l := by norm_num) (hP : M + N ≤ P := by norm_num)
    (hP2 : P ≤ 10 ^ 6 := by norm_num)
    (hE : k + l ≤ 10 ^ 6 := by norm_num) (hK : rnd (k + l) P ≤ K := by norm_num [rnd]) :
    Tr V (a - b) (X - Y) P K := by
  have hp := hV.pos
  have h1 : |((a.val - b.val : ℚ) : ℝ) - (X - Y)| ≤ (k + l) * (f.u * V) := by
    push_cast
    have t := abs_sub ((a.val : ℝ) - X) ((b.val : ℝ) - Y)
    rw [sub_sub_sub_comm, add_mul]
    linarith [ha.err, hb.err]
  have h2 : |X - Y| ≤ P * V := by
    have := abs_sub X Y
    have := mul_le_mul_of_nonneg_right hP hp.le
    rw [add_mul] at this
    linarith [ha.abs, hb.abs]
  obtain ⟨r, -⟩ := hV.range hf h1 h2 hP2 (by linarith) hE
  obtain ⟨c1, c2⟩ := FP.sub_err ha.fin hb.fin r
  exact Tr.round hf hV c1 (c2.trans (by linarith [f.eta_pos])) h1 h2 hP2 (by linarith) hE hK

/-- multiplication by an exactly known number -/
theorem Tr.mulc (hf : Std f) (hV : Scale V) {c : FP f} {C : ℝ} (hc : c.isFinite = true)
    (hC : (c.val : ℝ) = C) (ha : Tr V a X M k) {B P K : ℝ} (hB : |C| ≤ B)
    (hk : 0 ≤ k := by norm_num) (hP : B * M ≤ P := by norm_num)
    (hP2 : P ≤ 10 ^ 6 := by norm_num)
    (hE : B * k ≤ 10 ^ 6 := by norm_num) (hK : rnd (B * k) P ≤ K := by norm_num [rnd]) :
    Tr V (c * a) (C * X) P K := by
  have hp := hV.pos
  have u0 := hf.u_bounds.1
  have hB0 : 0 ≤ B := le_trans (abs_nonneg _) hB
  have h1 : |((c.val * a.val : ℚ) : ℝ) - C * X| ≤ B * k * (f.u * V) := by
    push_cast
    rw [hC, ← mul_sub, abs_mul, mul_assoc]
    exact mul_le_mul hB ha.err (abs_nonneg _) hB0
  have h2 : |C * X| ≤ P * V := by
    rw [abs_mul]
    have := mul_le_mul hB ha.abs (abs_nonneg _) hB0
    have := mul_le_mul_of_nonneg_right hP hp.le
    linarith
  obtain ⟨r, -⟩ := hV.range hf h1 h2 hP2 (by positivity) hE
  obtain ⟨c1, c2⟩ := FP.mul_err hc ha.fin r
  exact Tr.round hf hV c1 c2 h1 h2 hP2 (by positivity) hE hK

/-- division by an exactly known positive number -/
theorem Tr.divc [Libm f] (hf : Std f) (hV : Scale V) {c : FP f} {C : ℝ} (hc : c.isFinite = true)
    (hC : (c.val : ℝ) = C) (h0 : 0 < C) (ha : Tr V a X M k) {P K : ℝ}
    (hk : 0 ≤ k := by norm_num) (hP : M / C ≤ P := by norm_num)
    (hP2 : P ≤ 10 ^ 6 := by norm_num)
    (hE : k / C ≤ 10 ^ 6 := by norm_num) (hK : rnd (k / C) P ≤ K := by norm_num [rnd]) :
    Tr V (a / c) (X / C) P K := by
  have hp := hV.pos
  have h1 : |((a.val / c.val : ℚ) : ℝ) - X / C| ≤ k / C * (f.u * V) := by
    push_cast
    rw [hC, ← sub_div, abs_div, abs_of_pos h0, div_mul_eq_mul_div]
    exact div_le_div_of_nonneg_right ha.err h0.le
  have h2 : |X / C| ≤ P * V := by
    rw [abs_div, abs_of_pos h0]
    have := div_le_div_of_nonneg_right ha.abs h0.le
    have e := mul_le_mul_of_nonneg_right hP hp.le
    rw [div_mul_eq_mul_div] at e
    linarith
  have hc0 : c.val ≠ 0 := by
    intro h; rw [h] at hC; simp at hC; linarith
  obtain ⟨r, -⟩ := hV.range hf h1 h2 hP2 (by positivity) hE
  obtain ⟨c1, c2⟩ := FP.div_err ha.fin hc hc0 r
  exact Tr.round hf hV c1 c2 h1 h2 hP2 (by positivity) hE hK

/-- multiplication by a number in `[0, 1]` known up to `j` roundings -/
theorem Tr.mulp (hf : Std f) (hV : Scale V) (ha : Tr V a X M k) {p : FP f} {D j : ℝ}
    (hp : p.isFinite = true) (hD : |D| ≤ 1) (he : |(p.val : ℝ) - D| ≤ j * f.u) {K : ℝ}
    (hk : 0 ≤ k := by norm_num) (hj : 0 ≤ j := by norm_num) (hM : M ≤ 10 ^ 6 := by norm_num)
    (hM0 : 0 ≤ M := by norm_num)
    (hE : k + j * (M + k / 2 ^ 24) ≤ 10 ^ 6 := by norm_num)
    (hK : rnd (k + j * (M + k / 2 ^ 24)) M ≤ K := by norm_num [rnd]) :
    Tr V (a * p) (X * D) M K := by
  have hv := hV.pos
  obtain ⟨u0, u1, -⟩ := hf.u_bounds
  have h1 : |((a.val * p.val : ℚ) : ℝ) - X * D| ≤ (k + j * (M + k / 2 ^ 24)) * (f.u * V) := by
    push_cast
    have e : (a.val : ℝ) * p.val - X * D = (a.val - X) * D + a.val * (p.val - D) := by ring
    rw [e]
    have t := abs_add_le (((a.val : ℝ) - X) * D) (a.val * (p.val - D))
    rw [abs_mul, abs_mul] at t
    have e1 : |(a.val : ℝ) - X| * |D| ≤ k * (f.u * V) * 1 :=
      mul_le_mul ha.err hD (abs_nonneg _) (by positivity)
    have e2 : |(a.val : ℝ)| ≤ (M + k / 2 ^ 24) * V := by
      have t := abs_add_le ((a.val : ℝ) - X) X
      rw [sub_add_cancel] at t
      have : k * (f.u * V) ≤ k * (1 / 2 ^ 24 * V) :=
        mul_le_mul_of_nonneg_left (mul_le_mul_of_nonneg_right u1 hv.le) hk
      linarith [ha.err, ha.abs]
    have e3 : |(a.val : ℝ)| * |(p.val : ℝ) - D| ≤ (M + k / 2 ^ 24) * V * (j * f.u) :=
      mul_le_mul e2 he (abs_nonneg _) (by positivity)
    nlinarith
  have h2 : |X * D| ≤ M * V := by
    rw [abs_mul]
    have := mul_le_mul ha.abs hD (abs_nonneg _) (by positivity)
    linarith
  obtain ⟨r, -⟩ := hV.range hf h1 h2 hM (by positivity) hE
  obtain ⟨c1, c2⟩ := FP.mul_err ha.fin hp r
  exact Tr.round hf hV c1 c2 h1 h2 hM (by positivity) hE hK

end

/-- natural literals up to `2^24` are exact -/
theorem lit_natural {f : Fmt} [Libm f] (hf : Std f) (n : ℕ) (h0 : 0 < n) (hn : n ≤ 2 ^ 24) (q : ℚ) (hq : q = n) :
    (FP.lit q : FP f).isFinite = true ∧ (FP.lit q : FP f).val = n := by
  subst hq
  have h1 : IsRep f (n : ℚ) := FP.isRep_nat (f := f) n (hn.trans
      (Nat.pow_le_pow_right (by norm_num) (by have := hf.p24; omega : 24 ≤ f.p)))
  have h2 : IsRep Fmt.b64 (n : ℚ) := FP.isRep_nat (f := Fmt.b64) n (hn.trans (by decide))
  have hn0 : (n : ℚ) ≠ 0 := by exact_mod_cast h0.ne'
  have e : (FP.lit (n : ℚ) : FP f) = FP.fin n h1 := by
    unfold FP.lit
    rw [FP.ofQ_isRep h2 hn0]
    exact FP.ofQ_isRep h1 hn0 _
  rw [e]; exact ⟨rfl, rfl⟩

end CS

import Verif.Lemmas.FPSprague
import Verif.Lemmas.IdealLibm
import Mathlib.Tactic.IntervalCases

/-!
# `powi` by repeated squaring (C87, C89)

C87 and C89 assume that `powi` is accurate. On targets without a power instruction `f32::powi` and
`f64::powi` are calls of compiler-rt's `__powisf2` and `__powidf2`, a loop of multiplications. That loop is
not in the repository; it is written down here to show that the assumption holds of it.
-/

namespace CS

section
variable {f : Fmt}

/-- `__powidf2(a, b)` for `b ≥ 0`: `r = 1; loop { if b & 1 {r *= a}; b /= 2; if b == 0 {return r}; a *= a }` -/
def powiLoop (r a : FP f) (b : ℕ) : FP f :=
  let r := if b % 2 = 1 then r * a else r
  if b / 2 = 0 then r else powiLoop r (a * a) (b / 2)
termination_by b
decreasing_by omega

/-- `a` is finite and close to `A`, up to `k` roundings and an underflow of `e` units -/
structure Close (a : FP f) (A M k e : ℝ) : Prop where
  fin : a.isFinite = true
  abs : |A| ≤ M
  err : |(a.val : ℝ) - A| ≤ k * f.u * |A| + e * f.eta

theorem Close.mul (hf : Std f) {a b : FP f} {A B M N k l e g K E : ℝ} (ha : Close a A M k e) (hb : Close b B N l g)
    (hk : 0 ≤ k) (hk8 : k ≤ 8) (hl : 0 ≤ l) (hl8 : l ≤ 8) (he : 0 ≤ e) (he2 : e ≤ 1024) (hg : 0 ≤ g)
    (hg2 : g ≤ 1024) (hM : M ≤ 1024) (hN : N ≤ 1024) (hK : k + l + 1 + 1 / 1000 ≤ K)
    (hE : e * (101 / 100 * N + 1 / 100) + 101 / 100 * (g * M) + 1 + 1 / 100 ≤ E) :
    Close (a * b) (A * B) (M * N) K E := by
  obtain ⟨u0, u1, u2⟩ := hf.u_bounds
  have u9 : (f.u : ℝ) ≤ 1 / 10 ^ 7 := u1.trans (by norm_num)
  have h0 : (0:ℝ) < f.eta := by exact_mod_cast f.eta_pos
  have h9 : (f.eta : ℝ) ≤ 1 / 10 ^ 9 := by
    refine u2.trans ?_
    rw [div_le_div_iff₀ (by positivity) (by positivity)]
    norm_num at u9 ⊢; linarith
  have A0 := abs_nonneg A
  have B0 := abs_nonneg B
  have M0 : 0 ≤ M := A0.trans ha.abs
  have N0 : 0 ≤ N := B0.trans hb.abs
  set α : ℝ := (a.val : ℝ) - A with hα
  set β : ℝ := (b.val : ℝ) - B with hβ
  have ea : |α| ≤ k * f.u * |A| + e * f.eta := ha.err
  have eb : |β| ≤ l * f.u * |B| + g * f.eta := hb.err
  have ku : k * (f.u : ℝ) ≤ 1 / 10 ^ 6 := by
    have := mul_le_mul hk8 u9 u0.le (by norm_num)
    norm_num at this ⊢; linarith
  have lu : l * (f.u : ℝ) ≤ 1 / 10 ^ 6 := by
    have := mul_le_mul hl8 u9 u0.le (by norm_num)
    norm_num at this ⊢; linarith
  have ge : g * (f.eta : ℝ) ≤ 1 / 10 ^ 5 := by
    have := mul_le_mul hg2 h9 h0.le (by norm_num)
    norm_num at this ⊢; linarith
  have hBb : |β| ≤ 1 / 10 ^ 6 * |B| + g * f.eta :=
    eb.trans (by have := mul_le_mul_of_nonneg_right lu B0; linarith)
  -- the exact product
  have hZ : (a.val : ℝ) * b.val - A * B = A * β + α * B + α * β := by rw [hα, hβ]; ring
  have hAB : |A * B| = |A| * |B| := abs_mul _ _
  have d1 : |A| * |β| ≤ l * f.u * (|A| * |B|) + g * M * f.eta := by
    have := mul_le_mul_of_nonneg_left eb A0
    have h2 : |A| * (g * f.eta) ≤ M * (g * f.eta) := mul_le_mul_of_nonneg_right ha.abs (by positivity)
    nlinarith
  have d2 : |α| * |B| ≤ k * f.u * (|A| * |B|) + e * N * f.eta := by
    have := mul_le_mul_of_nonneg_right ea B0
    have h2 : e * f.eta * |B| ≤ e * f.eta * N := mul_le_mul_of_nonneg_left hb.abs (by positivity)
    nlinarith
  have d3 : |α| * |β| ≤ 1 / 10 ^ 4 * f.u * (|A| * |B|) + (1 / 10 ^ 4 * g * M + 1 / 10 ^ 4 * e * N + 1 / 10 ^ 4 * e) * f.eta := by
    have m1 := mul_le_mul ea hBb (abs_nonneg _) (by positivity)
    have p1 : k * (f.u * (|A| * |B|)) ≤ 8 * (f.u * (|A| * |B|)) := mul_le_mul_of_nonneg_right hk8 (by positivity)
    have p2 : (k * f.u) * (|A| * (g * f.eta)) ≤ 1 / 10 ^ 6 * (M * (g * f.eta)) :=
      mul_le_mul ku (mul_le_mul_of_nonneg_right ha.abs (by positivity)) (by positivity) (by norm_num)
    have p3 : e * f.eta * |B| ≤ e * f.eta * N := mul_le_mul_of_nonneg_left hb.abs (by positivity)
    have p4 : (g * f.eta) * (e * f.eta) ≤ 1 / 10 ^ 5 * (e * f.eta) := mul_le_mul_of_nonneg_right ge (by positivity)
    have q1 : 0 ≤ f.u * (|A| * |B|) := by positivity
    have q2 : 0 ≤ M * (g * f.eta) := by positivity
    have q3 : 0 ≤ e * f.eta * N := by positivity
    have q4 : 0 ≤ e * f.eta := by positivity
    have e1 : (k * f.u * |A| + e * f.eta) * (1 / 10 ^ 6 * |B| + g * f.eta) =
      1 / 10 ^ 6 * (k * (f.u * (|A| * |B|))) + (k * f.u) * (|A| * (g * f.eta)) + 1 / 10 ^ 6 * (e * f.eta * |B|) +
        (g * f.eta) * (e * f.eta) := by ring
    rw [e1] at m1
    have e2 : 1 / 10 ^ 4 * f.u * (|A| * |B|) + (1 / 10 ^ 4 * g * M + 1 / 10 ^ 4 * e * N + 1 / 10 ^ 4 * e) * f.eta =
      1 / 10 ^ 4 * (f.u * (|A| * |B|)) + 1 / 10 ^ 4 * (M * (g * f.eta)) + 1 / 10 ^ 4 * (e * f.eta * N) +
        1 / 10 ^ 4 * (e * f.eta) := by ring
    rw [e2]
    norm_num at *
    linarith
  have dz : |(a.val : ℝ) * b.val - A * B| ≤ |A| * |β| + |α| * |B| + |α| * |β| := by
    rw [hZ]
    have := abs_add_le (A * β + α * B) (α * β)
    have h2 := abs_add_le (A * β) (α * B)
    rw [abs_mul] at this h2
    rw [abs_mul α B] at h2
    linarith
  have hMN : |A| * |B| ≤ M * N := mul_le_mul ha.abs hb.abs B0 M0
  set W := |A| * |B| with hW
  have W0 : 0 ≤ W := by positivity
  have dz' : |(a.val : ℝ) * b.val - A * B| ≤ (k + l + 1 / 10 ^ 4) * f.u * W +
      (10001 / 10000 * (g * M) + 10001 / 10000 * (e * N) + 1 / 10000 * e) * f.eta := by
    norm_num at d1 d2 d3 dz ⊢; linarith
  have gM : g * M ≤ 1024 * 1024 := mul_le_mul hg2 hM M0 (by norm_num)
  have eN : e * N ≤ 1024 * 1024 := mul_le_mul he2 hN N0 (by norm_num)
  have small : (10001 / 10000 * (g * M) + 10001 / 10000 * (e * N) + 1 / 10000 * e) * f.eta ≤ 1 / 100 := by
    have := mul_le_mul (show 10001 / 10000 * (g * M) + 10001 / 10000 * (e * N) + 1 / 10000 * e ≤ 3 * 10 ^ 6 by
      norm_num at *; linarith) h9 h0.le (by norm_num)
    norm_num at this ⊢; linarith
  have klu : (k + l + 1 / 10 ^ 4) * f.u * W ≤ 1 / 10 ^ 5 * W := by
    refine mul_le_mul_of_nonneg_right ?_ W0
    have := mul_le_mul (show k + l + 1 / 10 ^ 4 ≤ 17 by norm_num; linarith) u9 u0.le (by norm_num)
    norm_num at this ⊢; linarith
  have hzW : |(a.val : ℝ) * b.val| ≤ W + |(a.val : ℝ) * b.val - A * B| := by
    have := abs_add_le (A * B) ((a.val : ℝ) * b.val - A * B)
    rw [add_sub_cancel, hAB] at this
    exact this
  have hN' : M * N ≤ 1024 * 1024 := mul_le_mul hM hN N0 (by norm_num)
  obtain ⟨m1, m2⟩ := FP.mul_err ha.fin hb.fin (pow_le_emax hf.wide (q := a.val * b.val) (by
    have : |((a.val * b.val : ℚ) : ℝ)| ≤ 2 ^ 61 := by
      push_cast
      have h61 : (10:ℝ) ^ 7 ≤ 2 ^ 61 := by norm_num
      refine le_trans ?_ h61
      have k2 : 1 / 10 ^ 5 * W ≤ W := by rw [← one_mul W, ← mul_assoc]; exact mul_le_mul_of_nonneg_right (by norm_num) W0
      have k3 := dz'.trans (add_le_add (klu.trans k2) small)
      linarith
    exact_mod_cast this))
  have m2' : |((a * b).val : ℝ) - a.val * b.val| ≤ |(a.val : ℝ) * b.val| * f.u + f.eta := by qcast m2
  refine ⟨m1, by rw [hAB]; exact hMN, ?_⟩
  rw [hAB]
  have t := abs_add_le (((a * b).val : ℝ) - a.val * b.val) ((a.val : ℝ) * b.val - A * B)
  rw [sub_add_sub_cancel] at t
  have r1 : |(a.val : ℝ) * b.val| * f.u ≤ (W + |(a.val : ℝ) * b.val - A * B|) * f.u :=
    mul_le_mul_of_nonneg_right hzW u0.le
  set D := |(a.val : ℝ) * b.val - A * B|
  set S := 10001 / 10000 * (g * M) + 10001 / 10000 * (e * N) + 1 / 10000 * e with hS
  have r2 : D * f.u ≤ 1 / 10 ^ 5 * f.u * W + 1 / 10 ^ 7 * (S * f.eta) := by
    have s1 : (k + l + 1 / 10 ^ 4) * f.u * W + S * f.eta ≤ 1 / 10 ^ 5 * W + S * f.eta := by linarith
    have s2 := mul_le_mul_of_nonneg_right (dz'.trans s1) u0.le
    have s3 : S * f.eta * f.u ≤ S * f.eta * (1 / 10 ^ 7) := mul_le_mul_of_nonneg_left u9 (by positivity)
    linarith
  have r3 : (k + l + 1 + 1 / 1000) * (f.u * W) ≤ K * (f.u * W) := mul_le_mul_of_nonneg_right hK (by positivity)
  have r4 : (e * (101 / 100 * N + 1 / 100) + 101 / 100 * (g * M) + 1 + 1 / 100) * f.eta ≤ E * f.eta :=
    mul_le_mul_of_nonneg_right hE h0.le
  have r5 : (1 + 1 / 10 ^ 7) * (S * f.eta) + f.eta ≤
      (e * (101 / 100 * N + 1 / 100) + 101 / 100 * (g * M) + 1 + 1 / 100) * f.eta := by
    rw [← mul_assoc, show (1 + 1 / 10 ^ 7) * S * (f.eta : ℝ) + f.eta = ((1 + 1 / 10 ^ 7) * S + 1) * f.eta by ring]
    refine mul_le_mul_of_nonneg_right ?_ h0.le
    have gM0 : 0 ≤ g * M := by positivity
    have eN0 : 0 ≤ e * N := by positivity
    rw [hS]
    norm_num
    linarith
  have r6 : 0 ≤ f.u * W := by positivity
  norm_num at *
  linarith

theorem Close.exact {a : FP f} {M : ℝ} (ha : a.isFinite = true) (h : |(a.val : ℝ)| ≤ M) :
    Close a (a.val : ℝ) M 0 0 := ⟨ha, h, by simp⟩

/-- C87, C89: the multiplication loop of compiler-rt is a `powi` as accurate as they assume. -/
theorem C87_powi_loop [Libm f] (hf : Std f)
    (h : ∀ (x : FP f) (n : ℕ), Flt.powi x n = powiLoop (Flt.lit 1) x n) : PowiAccurate f := by
  refine ⟨fun x n hx h4 hn => ?_⟩
  have h4r : |(x.val : ℝ)| ≤ 4 := by exact_mod_cast h4
  rw [h]
  have hone : Close (Flt.lit 1 : FP f) 1 1 0 0 := ⟨lit_fin hf 1 1, by norm_num, by rw [lit_val hf 1 1]; norm_num⟩
  have c1 : Close x (x.val : ℝ) 4 0 0 := Close.exact hx h4r
  have c2 : Close (x * x) ((x.val : ℝ) * x.val) 16 (11 / 10) (11 / 10) := by
    have := c1.mul hf c1 (K := 11 / 10) (E := 11 / 10) (by norm_num) (by norm_num) (by norm_num) (by norm_num) (by norm_num)
      (by norm_num) (by norm_num) (by norm_num) (by norm_num) (by norm_num) (by norm_num) (by norm_num)
    norm_num at this; exact this
  have c4 : Close (x * x * (x * x)) ((x.val : ℝ) * x.val * ((x.val : ℝ) * x.val)) 256 (33 / 10) 37 := by
    have := c2.mul hf c2 (K := 33 / 10) (E := 37) (by norm_num) (by norm_num) (by norm_num) (by norm_num) (by norm_num)
      (by norm_num) (by norm_num) (by norm_num) (by norm_num) (by norm_num) (by norm_num) (by norm_num)
    norm_num at this; exact this
  have r1 : Close (Flt.lit 1 * x) (1 * (x.val : ℝ)) 4 (11 / 10) (11 / 10) := by
    have := hone.mul hf c1 (K := 11 / 10) (E := 11 / 10) (by norm_num) (by norm_num) (by norm_num) (by norm_num) (by norm_num)
      (by norm_num) (by norm_num) (by norm_num) (by norm_num) (by norm_num) (by norm_num) (by norm_num)
    rw [show (1:ℝ) * 4 = 4 by norm_num] at this; exact this
  have fin : ∀ {c : FP f} {X M k e : ℝ}, Close c X M k e → k ≤ 7 → e ≤ 1024 →
      X = (x.val : ℝ) ^ n → c.isFinite = true ∧
        |(c.val : ℝ) - (x.val : ℝ) ^ n| ≤ 7 * f.u * |(x.val : ℝ) ^ n| + 2 ^ 10 * f.eta := by
    intro c X M k e hc hk he e1
    subst e1
    refine ⟨hc.fin, hc.err.trans ?_⟩
    have u0 := hf.u_bounds.1
    have h0 : (0:ℝ) < f.eta := by exact_mod_cast f.eta_pos
    have a1 := mul_le_mul_of_nonneg_right hk (show 0 ≤ f.u * |(x.val : ℝ) ^ n| by positivity)
    have a2 := mul_le_mul_of_nonneg_right he h0.le
    have e2 : (2:ℝ) ^ 10 = 1024 := by norm_num
    rw [e2]; linarith
  interval_cases n
  · have e : powiLoop (Flt.lit 1) x 0 = Flt.lit 1 := by simp [powiLoop]
    rw [e]; exact fin hone (by norm_num) (by norm_num) (by norm_num)
  · have e : powiLoop (Flt.lit 1) x 1 = Flt.lit 1 * x := by simp [powiLoop]
    rw [e]; exact fin r1 (by norm_num) (by norm_num) (by ring)
  · have e : powiLoop (Flt.lit 1) x 2 = Flt.lit 1 * (x * x) := by simp [powiLoop]
    rw [e]
    refine fin (hone.mul hf c2 (K := 22 / 10) (E := 3) ?_ ?_ ?_ ?_ ?_ ?_ ?_ ?_ ?_ ?_ ?_ ?_) ?_ ?_ (by ring) <;> norm_num
  · have e : powiLoop (Flt.lit 1) x 3 = Flt.lit 1 * x * (x * x) := by simp [powiLoop]
    rw [e]
    refine fin (r1.mul hf c2 (K := 33 / 10) (E := 25) ?_ ?_ ?_ ?_ ?_ ?_ ?_ ?_ ?_ ?_ ?_ ?_) ?_ ?_ (by ring) <;> norm_num
  · have e : powiLoop (Flt.lit 1) x 4 = Flt.lit 1 * (x * x * (x * x)) := by simp [powiLoop]
    rw [e]
    refine fin (hone.mul hf c4 (K := 44 / 10) (E := 40) ?_ ?_ ?_ ?_ ?_ ?_ ?_ ?_ ?_ ?_ ?_ ?_) ?_ ?_ (by ring) <;> norm_num
  · have e : powiLoop (Flt.lit 1) x 5 = Flt.lit 1 * x * (x * x * (x * x)) := by simp [powiLoop]
    rw [e]
    refine fin (r1.mul hf c4 (K := 55 / 10) (E := 440) ?_ ?_ ?_ ?_ ?_ ?_ ?_ ?_ ?_ ?_ ?_ ?_) ?_ ?_ (by ring) <;> norm_num

/-- Not vacuous: a math library whose `powi` is the loop; in f32 the cube of 3/2 it gives is near 27/8. -/
example : ∃ (_ : Libm Fmt.b32) (x : FP Fmt.b32), x.val = 3 / 2 ∧ |((Flt.powi x 3).val : ℝ) - 27 / 8| ≤ 1 / 10 ^ 5 := by
  letI : Libm Fmt.b32 := { idealLibm Fmt.b32 with powi := fun x n => powiLoop (FP.lit 1) x n }
  have r : IsRep Fmt.b32 (3 / 2) := by decide +kernel
  have h := (C87_powi_loop std_b32 (fun _ _ => rfl)).near (FP.fin _ r) 3 rfl (by simp only [FP.val]; norm_num [abs_le])
    (by norm_num)
  refine ⟨this, FP.fin _ r, rfl, ?_⟩
  have e : (((FP.fin (3 / 2) r : FP Fmt.b32).val : ℚ) : ℝ) = 3 / 2 := by show ((3 / 2 : ℚ) : ℝ) = _; norm_num
  have h2 := h.2
  rw [e] at h2
  obtain ⟨-, u1, u2⟩ := std_b32.u_bounds
  have h3 : (2:ℝ) ^ 10 * (Fmt.b32.eta : ℝ) ≤ 1 / 10 ^ 6 := by
    have : (Fmt.b32.u : ℝ) / 2 ^ 124 ≤ 1 / 2 ^ 24 / 2 ^ 124 := div_le_div_of_nonneg_right u1 (by positivity)
    norm_num at this u2 ⊢; linarith
  rw [show (3 / 2 : ℝ) ^ 3 = 27 / 8 by norm_num, abs_of_nonneg (show (0:ℝ) ≤ 27 / 8 by norm_num)] at h2
  refine h2.trans ?_
  norm_num at u1 h3 ⊢; linarith

end
end CS

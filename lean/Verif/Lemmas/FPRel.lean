import Verif.Lemmas.RelErr
import Verif.Lemmas.FPRound
import Mathlib.Analysis.Complex.ExponentialBounds
import Mathlib.Analysis.SpecialFunctions.Log.Basic

/-!
# Relative errors of floating-point expressions
`RelF n a X`: the float `a` is finite and within about `n` roundings of the real number `X > 0`.
-/

namespace CS

/-- rational inequalities carry over to the reals and back -/
macro "qcast " h:term : tactic =>
  `(tactic| first
    | (have hq := (Rat.cast_le (K := ℝ)).2 $h; push_cast at hq ⊢; exact hq)
    | (refine (Rat.cast_le (K := ℝ)).1 ?_; have hq := $h; push_cast at hq ⊢; exact hq))

/-- binary32 and binary64: precise, wide, and decimal literals are off by one rounding at most (up to
the extra rounding of `f64` to `f32`, which is negligible) -/
structure Std (f : Fmt) : Prop where
  wide : Wide f
  hu : f.u ≤ 1 / 2 ^ 24
  lit : ∀ q : ℚ, 1 / 2 ^ 20 ≤ q → q ≤ 2 ^ 20 →
    (FP.lit q : FP f).isFinite = true ∧ |(FP.lit q : FP f).val - q| ≤ q * (f.u * (1 + 1 / 2 ^ 20))

theorem ofQ_err {f : Fmt} (s : Bool) {q : ℚ} (hq : |q| ≤ 2 ^ f.emax) :
    (FP.ofQ f s q).isFinite = true ∧ |(FP.ofQ f s q).val - q| ≤ |q| * f.u + f.eta := by
  obtain ⟨h1, h2⟩ := FP.ofQ_finite s (roundQ_lt hq)
  exact ⟨h1, by rw [h2]; exact roundQ_err_mixed f _⟩

theorem cast_ofQ {f g : Fmt} {a : FP g} (ha : a.isFinite = true) (h0 : a.val ≠ 0) :
    (FP.cast a : FP f) = FP.ofQ f false a.val := by
  cases a <;> simp_all [FP.isFinite, FP.val, FP.cast]

theorem wide_eta {f : Fmt} (hf : Wide f) {q : ℚ} (hq : 1 / 2 ^ 61 ≤ q) :
    f.eta ≤ q * (f.u / 2 ^ 60) := by
  have h1 := hf.heta
  have h2 : f.u / 2 ^ 124 ≤ 1 / 2 ^ 61 * (f.u / 2 ^ 60) := by
    have := f.u_pos
    rw [div_mul_div_comm, one_mul]
    exact div_le_div_of_nonneg_left this.le (by positivity) (by norm_num)
  have h3 : 1 / 2 ^ 61 * (f.u / 2 ^ 60) ≤ q * (f.u / 2 ^ 60) :=
    mul_le_mul_of_nonneg_right hq (div_nonneg f.u_pos.le (by positivity))
  linarith

theorem pow_le_emax {f : Fmt} (hf : Wide f) {q : ℚ} (hq : |q| ≤ 2 ^ 61) : |q| ≤ 2 ^ f.emax := by
  have := hf.hmax
  have h : (2:ℚ) ^ 61 ≤ 2 ^ 126 := pow_le_pow_right₀ (by norm_num) (by norm_num)
  have hp : (0:ℚ) < 2 ^ f.emax := by positivity
  generalize (2:ℚ) ^ f.emax = z at *
  generalize (2:ℚ) ^ 126 = z' at *
  generalize (2:ℚ) ^ 61 = z'' at *
  linarith

theorem lit_b64 {q : ℚ} (h1 : 1 / 2 ^ 20 ≤ q) (h2 : q ≤ 2 ^ 20) :
    (FP.ofQ Fmt.b64 false q).isFinite = true ∧
    |(FP.ofQ Fmt.b64 false q).val - q| ≤ q * (Fmt.b64.u * (1 + 1 / 2 ^ 60)) := by
  have hq : 0 < q := lt_of_lt_of_le (by positivity) h1
  obtain ⟨a, b⟩ := ofQ_err (f := Fmt.b64) false (q := q) (pow_le_emax wide_b64 (by
    rw [abs_of_pos hq]; exact le_trans h2 (by norm_num)))
  refine ⟨a, le_trans b ?_⟩
  have := wide_eta wide_b64 (q := q) (le_trans (by norm_num) h1)
  rw [abs_of_pos hq]
  have e : q * (Fmt.b64.u * (1 + 1 / 2 ^ 60)) = q * Fmt.b64.u + q * (Fmt.b64.u / 2 ^ 60) := by ring
  rw [e]; linarith

theorem u_b64 : Fmt.b64.u = 1 / 2 ^ 53 := rfl
theorem u_b32 : Fmt.b32.u = 1 / 2 ^ 24 := rfl

theorem std_b64 : Std Fmt.b64 where
  wide := wide_b64
  hu := by rw [u_b64]; norm_num
  lit q h1 h2 := by
    have hq : 0 < q := lt_of_lt_of_le (by positivity) h1
    obtain ⟨a, b⟩ := lit_b64 h1 h2
    have hu := u_b64
    have hv : 0 < (FP.ofQ Fmt.b64 false q).val := by
      have := (abs_le.1 b).1
      rw [hu] at this
      nlinarith
    have e : (FP.lit q : FP Fmt.b64) = FP.ofQ Fmt.b64 false q := by
      unfold FP.lit
      rw [cast_ofQ a hv.ne']
      obtain ⟨c, d⟩ := FP.ofQ_finite (f := Fmt.b64) false (q := (FP.ofQ Fmt.b64 false q).val)
        (by rw [FP.round_val]; exact (FP.val_rep _).2)
      exact FP.eq_of_val c a (by rw [d, FP.round_val]) (by rw [d, FP.round_val]; exact hv.ne')
    rw [e]
    refine ⟨a, le_trans b (mul_le_mul_of_nonneg_left ?_ hq.le)⟩
    rw [hu]; norm_num

theorem std_b32 : Std Fmt.b32 where
  wide := wide_b32
  hu := by rw [u_b32]
  lit q h1 h2 := by
    have hq : 0 < q := lt_of_lt_of_le (by positivity) h1
    obtain ⟨a, b⟩ := lit_b64 h1 h2
    rw [u_b64] at b
    set v := (FP.ofQ Fmt.b64 false q).val with hv
    obtain ⟨b1, b2⟩ := abs_le.1 b
    norm_num at h1 h2 b1 b2
    have hv0 : 1 / 2 ^ 61 ≤ v := by norm_num; nlinarith
    have hv1 : v ≤ 2 ^ 61 := by norm_num; nlinarith
    have hvp : 0 < v := lt_of_lt_of_le (by positivity) hv0
    unfold FP.lit
    rw [cast_ofQ a (by rw [← hv]; exact hvp.ne'), ← hv]
    obtain ⟨c, d⟩ := ofQ_err (f := Fmt.b32) false (q := v) (pow_le_emax wide_b32 (by
      rw [abs_of_pos hvp]; exact hv1))
    have := wide_eta wide_b32 (q := v) hv0
    rw [abs_of_pos hvp] at d
    rw [u_b32] at *
    refine ⟨c, ?_⟩
    obtain ⟨d1, d2⟩ := abs_le.1 d
    generalize (FP.ofQ Fmt.b32 false v).val = w at *
    generalize Fmt.b32.eta = et at *
    norm_num at this d1 d2 ⊢
    rw [abs_le]
    constructor <;> linarith

/-- the unit of relative error, slightly more than one rounding -/
noncomputable def kap (f : Fmt) : ℝ := (f.u : ℝ) * (1 + 1 / 10 ^ 4)

theorem kap_pos (f : Fmt) : 0 < kap f := by
  unfold kap
  have : (0:ℝ) < (f.u : ℝ) := by exact_mod_cast f.u_pos
  positivity

theorem kap_le {f : Fmt} (hf : Std f) : kap f ≤ 1 / 2 ^ 23 := by
  unfold kap
  have : (f.u : ℝ) ≤ 1 / 2 ^ 24 := by qcast hf.hu
  norm_num at this ⊢
  linarith

/-- `a` is finite and within `n` roundings of `X` -/
structure RelF {f : Fmt} (n : ℝ) (a : FP f) (X : ℝ) : Prop where
  fin : a.isFinite = true
  err : RelE (n * kap f) (a.val : ℝ) X

/-- a relative error of `k` roundings, with room for underflow terms -/
theorem relE_kap {f : Fmt} (hf : Std f) {x X k : ℝ} (hX : 0 < X) (hk0 : 1 ≤ k) (hk : k ≤ 16)
    (h : |x - X| ≤ X * (k * (f.u * (1 + 1 / 2 ^ 20)))) : RelE (k * kap f) x X := by
  have hu : (f.u : ℝ) ≤ 1 / 2 ^ 24 := by qcast hf.hu
  have hu0 : (0:ℝ) < (f.u : ℝ) := by exact_mod_cast f.u_pos
  refine RelE.of_abs hX (δ := k * (f.u * (1 + 1 / 2 ^ 20))) ?_ h ?_
  · norm_num at hu ⊢; nlinarith
  · have hd : k * (f.u * (1 + 1 / 2 ^ 20)) ≤ 1 / 2 ^ 16 := by
      norm_num at hu ⊢; nlinarith
    rw [div_le_iff₀ (by norm_num at hd ⊢; linarith)]
    unfold kap
    have e : k * (↑f.u * (1 + 1 / 10 ^ 4)) * (1 - k * (↑f.u * (1 + 1 / 2 ^ 20)))
      = (k * f.u) * ((1 + 1 / 10 ^ 4) * (1 - k * (↑f.u * (1 + 1 / 2 ^ 20)))) := by ring
    rw [e, ← mul_assoc]
    refine mul_le_mul_of_nonneg_left ?_ (by positivity)
    norm_num at hd ⊢
    linarith

/-- crude size control -/
theorem RelE.bounds {t x X : ℝ} (h : RelE t x X) (h0 : 0 ≤ t) (ht : t ≤ 1 / 4) :
    X / 2 ≤ x ∧ x ≤ 2 * X := by
  have := abs_le.1 (h.to_abs h0 (by linarith))
  have hp := h.pos
  have e : X * (t * (1 + t)) ≤ X * (1 / 2) := mul_le_mul_of_nonneg_left (by nlinarith) hp.le
  constructor <;> linarith

namespace RelF
variable {f : Fmt} {m n k : ℝ} {a b : FP f} {X Y : ℝ}

theorem mono (h : RelF m a X) (hmn : m ≤ n) : RelF n a X :=
  ⟨h.fin, h.err.mono (mul_le_mul_of_nonneg_right hmn (kap_pos f).le)⟩

theorem congr (h : RelF n a X) (e : X = Y) : RelF n a Y := e ▸ h

theorem exact (ha : a.isFinite = true) (hp : 0 < a.val) : RelF 0 a (a.val : ℝ) :=
  ⟨ha, by rw [zero_mul]; exact RelE.refl (by exact_mod_cast hp) le_rfl⟩

theorem litE (hf : Std f) {q : ℚ} (h1 : 1 / 2 ^ 20 ≤ q) (h2 : q ≤ 2 ^ 20) :
    RelF 1 (FP.lit q : FP f) (q : ℝ) := by
  obtain ⟨h3, h4⟩ := hf.lit q h1 h2
  refine ⟨h3, relE_kap hf ?_ le_rfl (by norm_num) ?_⟩
  · exact_mod_cast lt_of_lt_of_le (by positivity) h1
  · rw [one_mul]; qcast h4

theorem of_mixed (hf : Std f) {a : FP f} {q : ℚ} (ha : a.isFinite = true) (hq : 1 / 2 ^ 61 ≤ q)
    (h : |a.val - q| ≤ |q| * f.u + f.eta) : RelF 1 a (q : ℝ) := by
  have hq0 : 0 < q := lt_of_lt_of_le (by positivity) hq
  refine ⟨ha, relE_kap hf (by exact_mod_cast hq0) le_rfl (by norm_num) ?_⟩
  rw [one_mul]
  have : |a.val - q| ≤ q * (f.u * (1 + 1 / 2 ^ 20)) := by
    refine le_trans h ?_
    rw [abs_of_pos hq0]
    have e := wide_eta hf.wide hq
    have e2 : q * (f.u / 2 ^ 60) ≤ q * (f.u / 2 ^ 20) :=
      mul_le_mul_of_nonneg_left (div_le_div_of_nonneg_left f.u_pos.le (by positivity) (by norm_num)) hq0.le
    have e3 : q * (f.u * (1 + 1 / 2 ^ 20)) = q * f.u + q * (f.u / 2 ^ 20) := by ring
    rw [e3]; linarith
  qcast this

/-- small accumulated error -/
theorem small (hf : Std f) (hn0 : 0 ≤ n) (hn : n ≤ 1024) : 0 ≤ n * kap f ∧ n * kap f ≤ 1 / 2 ^ 13 := by
  have h1 := kap_le hf
  have h2 := kap_pos f
  refine ⟨by positivity, ?_⟩
  norm_num at h1 ⊢; nlinarith

theorem mul (hf : Std f) (ha : RelF m a X) (hb : RelF n b Y) (hm : 0 ≤ m) (hn : 0 ≤ n)
    (hmn : m + n ≤ 1024) (h1 : 1 / 2 ^ 59 ≤ X * Y) (h2 : X * Y ≤ 2 ^ 59) :
    RelF (m + n + 1) (a * b) (X * Y) := by
  have hp := ha.err.mul hb.err
  rw [← add_mul] at hp
  obtain ⟨s0, s1⟩ := small hf (add_nonneg hm hn) hmn
  obtain ⟨p1, p2⟩ := hp.bounds s0 (le_trans s1 (by norm_num))
  have q1 : (1:ℚ) / 2 ^ 61 ≤ a.val * b.val := by
    have : (1:ℝ) / 2 ^ 61 ≤ (a.val : ℝ) * b.val := by
      norm_num at h1 ⊢; linarith
    qcast this
  have q2 : a.val * b.val ≤ 2 ^ 61 := by
    have : (a.val : ℝ) * b.val ≤ 2 ^ 61 := by
      norm_num at h2 ⊢; linarith
    exact_mod_cast this
  have q0 : 0 < a.val * b.val := lt_of_lt_of_le (by positivity) q1
  obtain ⟨e1, e2⟩ := FP.mul_err ha.fin hb.fin (pow_le_emax hf.wide (by rw [abs_of_pos q0]; exact q2))
  have h3 := of_mixed hf e1 q1 e2
  refine ⟨e1, ?_⟩
  have h4 := h3.err
  rw [Rat.cast_mul] at h4
  have := h4.trans hp
  rwa [← add_mul, show 1 + (m + n) = m + n + 1 by ring] at this

theorem div [Libm f] (hf : Std f) (ha : RelF m a X) (hb : RelF n b Y) (hm : 0 ≤ m) (hn : 0 ≤ n)
    (hmn : m + n ≤ 1024) (h1 : 1 / 2 ^ 59 ≤ X / Y) (h2 : X / Y ≤ 2 ^ 59) :
    RelF (m + n + 1) (a / b) (X / Y) := by
  have hp := ha.err.div hb.err
  rw [← add_mul] at hp
  obtain ⟨s0, s1⟩ := small hf (add_nonneg hm hn) hmn
  obtain ⟨p1, p2⟩ := hp.bounds s0 (le_trans s1 (by norm_num))
  have q1 : (1:ℚ) / 2 ^ 61 ≤ a.val / b.val := by
    have : (1:ℝ) / 2 ^ 61 ≤ (a.val : ℝ) / b.val := by
      norm_num at h1 ⊢; linarith
    qcast this
  have q2 : a.val / b.val ≤ 2 ^ 61 := by
    have : (a.val : ℝ) / b.val ≤ 2 ^ 61 := by
      norm_num at h2 ⊢; linarith
    exact_mod_cast this
  have q0 : 0 < a.val / b.val := lt_of_lt_of_le (by positivity) q1
  have hb0 : b.val ≠ 0 := by
    have := hb.err.xpos
    exact_mod_cast this.ne'
  obtain ⟨e1, e2⟩ := FP.div_err ha.fin hb.fin hb0
    (pow_le_emax hf.wide (by rw [abs_of_pos q0]; exact q2))
  have h3 := of_mixed hf e1 q1 e2
  refine ⟨e1, ?_⟩
  have h4 := h3.err
  rw [Rat.cast_div] at h4
  have := h4.trans hp
  rwa [← add_mul, show 1 + (m + n) = m + n + 1 by ring] at this

theorem add (hf : Std f) (ha : RelF n a X) (hb : RelF n b Y) (hn : 0 ≤ n)
    (hn1 : n ≤ 1024) (h2 : X + Y ≤ 2 ^ 59) : RelF (n + 1) (a + b) (X + Y) := by
  have hp := ha.err.add hb.err
  obtain ⟨s0, s1⟩ := small hf hn hn1
  obtain ⟨p1, p2⟩ := hp.bounds s0 (le_trans s1 (by norm_num))
  have q0 : 0 < a.val + b.val := by
    have := hp.xpos
    exact_mod_cast this
  have q2 : a.val + b.val ≤ 2 ^ 61 := by
    have : (a.val : ℝ) + b.val ≤ 2 ^ 61 := by
      norm_num at h2 ⊢; linarith
    exact_mod_cast this
  obtain ⟨e1, e2⟩ := FP.add_err ha.fin hb.fin (pow_le_emax hf.wide (by rw [abs_of_pos q0]; exact q2))
  refine ⟨e1, ?_⟩
  have h3 : RelE (1 * kap f) ((a + b).val : ℝ) ((a.val : ℝ) + b.val) := by
    refine relE_kap hf hp.xpos le_rfl (by norm_num) ?_
    rw [one_mul]
    rw [abs_of_pos q0] at e2
    have : |(a + b).val - (a.val + b.val)| ≤ (a.val + b.val) * (f.u * (1 + 1 / 2 ^ 20)) := by
      refine le_trans e2 (mul_le_mul_of_nonneg_left ?_ q0.le)
      have := f.u_pos
      nlinarith
    qcast this
  have := h3.trans hp
  rwa [← add_mul, show 1 + n = n + 1 by ring] at this

end RelF

/-- What the theorems about images assume of the platform's `powf`: where the exact power lies between
`2^-100` and `2^100` (bases from `2^-60` to `2^10`, exponents from -4 to 4) the result is within two
units in the last place of it, and positive powers of zero are zero. -/
structure PowAccurate (f : Fmt) [Libm f] : Prop where
  near : ∀ x y : FP f, x.isFinite = true → y.isFinite = true → 1 / 2 ^ 60 ≤ x.val → x.val ≤ 2 ^ 10 →
    |y.val| ≤ 4 → 1 / 2 ^ 100 ≤ (x.val : ℝ) ^ (y.val : ℝ) → (x.val : ℝ) ^ (y.val : ℝ) ≤ 2 ^ 100 →
    (Flt.powf x y).isFinite = true ∧
      |((Flt.powf x y).val : ℝ) - (x.val : ℝ) ^ (y.val : ℝ)| ≤
        4 * (f.u : ℝ) * (x.val : ℝ) ^ (y.val : ℝ)
  zero : ∀ x y : FP f, x.isFinite = true → y.isFinite = true → x.val = 0 → 0 < y.val →
    (Flt.powf x y).isFinite = true ∧ (Flt.powf x y).val = 0

/-- bounds on a power from bounds on the logarithm of the base -/
theorem rpow_range {x y : ℝ} (hx : 0 < x) (h : |Real.log x| * |y| ≤ 69) :
    1 / 2 ^ 100 ≤ x ^ y ∧ x ^ y ≤ 2 ^ 100 := by
  have h2 : (2:ℝ) ^ 100 = Real.exp (100 * Real.log 2) := by
    rw [show (100:ℝ) * Real.log 2 = Real.log ((2:ℝ) ^ 100) by rw [Real.log_pow]; norm_num,
      Real.exp_log (by positivity)]
  have hl := Real.log_two_gt_d9
  rw [Real.rpow_def_of_pos hx, h2, one_div, ← Real.exp_neg, Real.exp_le_exp, Real.exp_le_exp]
  rw [← abs_mul] at h
  obtain ⟨a, b⟩ := abs_le.1 h
  constructor <;> linarith

theorem abs_log_le {X : ℝ} (k : ℕ) (h1 : 1 / 2 ^ k ≤ X) (h2 : X ≤ 2 ^ k) :
    |Real.log X| ≤ k * (6932 / 10000) := by
  have hX : 0 < X := lt_of_lt_of_le (by positivity) h1
  have hl := Real.log_two_lt_d9
  have hl0 := Real.log_two_gt_d9
  have e : (k:ℝ) * Real.log 2 ≤ k * (6932 / 10000) :=
    mul_le_mul_of_nonneg_left (by linarith) (by positivity)
  rw [abs_le]
  constructor
  · have := Real.log_le_log (by positivity) h1
    rw [Real.log_div one_ne_zero (by positivity), Real.log_one, Real.log_pow] at this
    linarith
  · have := Real.log_le_log hX h2
    rw [Real.log_pow] at this
    linarith

theorem RelF.powf_wide {f : Fmt} [Libm f] (hf : Std f) (hp : PowAccurate f) {m n N L : ℝ} {a b : FP f}
    {X B : ℝ} (ha : RelF m a X) (hb : RelF n b B) (hm0 : 0 ≤ m) (hm : m ≤ 100) (hn0 : 0 ≤ n)
    (hn : n ≤ 100) (hX1 : 1 / 2 ^ 59 ≤ X) (hX2 : X ≤ 2 ^ 9) (hB1 : 3 / 10 ≤ B) (hB2 : B ≤ 3)
    (hL : |Real.log X| ≤ L) (hN : 4 + B * m + (L + 1 / 1000) * (B * (n * (1 + 1 / 1000))) ≤ N)
    (hLB : (L + 1 / 1000) * (B * (1 + 1 / 1000)) ≤ 69) : RelF N (Flt.powf a b) (X ^ B) := by
  obtain ⟨sm0, sm1⟩ := RelF.small hf hm0 (by linarith)
  obtain ⟨sn0, sn1⟩ := RelF.small hf hn0 (by linarith)
  have xa := abs_le.1 (ha.err.to_abs sm0 (le_trans sm1 (by norm_num)))
  have xb := abs_le.1 (hb.err.to_abs sn0 (le_trans sn1 (by norm_num)))
  have hXp := ha.err.pos
  have hBp := hb.err.pos
  have ta : m * kap f * (1 + m * kap f) ≤ 1 / 2 ^ 12 := by
    norm_num at sm1 ⊢; nlinarith
  have tb : n * kap f * (1 + n * kap f) ≤ 1 / 2 ^ 12 := by
    norm_num at sn1 ⊢; nlinarith
  have a1 : (1:ℝ) / 2 ^ 60 ≤ a.val := by norm_num at hX1 ta ⊢; nlinarith
  have a2 : (a.val : ℝ) ≤ 2 ^ 10 := by norm_num at ta hX2 ⊢; nlinarith
  have b1 : (1:ℝ) / 4 ≤ b.val := by norm_num at tb; nlinarith
  have b2 : (b.val : ℝ) ≤ 4 := by norm_num at tb; nlinarith
  have hap := ha.err.xpos
  have hlog : |Real.log (a.val : ℝ)| ≤ L + 1 / 1000 := by
    have e1 : Real.log (a.val : ℝ) ≤ Real.log X + m * kap f := by
      have := Real.log_le_log hap ha.err.hi
      rwa [Real.log_mul hXp.ne' (Real.exp_pos _).ne', Real.log_exp] at this
    have e2 : Real.log X - m * kap f ≤ Real.log (a.val : ℝ) := by
      have := Real.log_le_log (mul_pos hXp (Real.exp_pos _)) ha.err.lo
      rw [Real.log_mul hXp.ne' (Real.exp_pos _).ne', Real.log_exp] at this
      linarith
    obtain ⟨l1, l2⟩ := abs_le.1 hL
    norm_num at sm1
    rw [abs_le]; constructor <;> linarith
  have hL0 : 0 ≤ L + 1 / 1000 := le_trans (abs_nonneg _) hlog
  have hrange := rpow_range hap (y := (b.val : ℝ)) (by
    refine le_trans (mul_le_mul hlog ?_ (abs_nonneg _) hL0) hLB
    rw [abs_of_pos (by linarith)]
    norm_num at tb
    nlinarith)
  obtain ⟨p1, p2⟩ := hp.near a b ha.fin hb.fin (by qcast a1) (by qcast a2)
    (by rw [abs_of_pos (by
          have : (0:ℝ) < b.val := by linarith
          exact_mod_cast this)]; qcast b2) hrange.1 hrange.2
  refine ⟨p1, ?_⟩
  have hrp : 0 < (a.val : ℝ) ^ (b.val : ℝ) := Real.rpow_pos_of_pos hap _
  have s1 : RelE (4 * kap f) ((Flt.powf a b).val : ℝ) ((a.val : ℝ) ^ (b.val : ℝ)) := by
    refine relE_kap hf hrp (by norm_num) (by norm_num) (le_trans p2 ?_)
    rw [mul_comm]
    refine mul_le_mul_of_nonneg_left ?_ hrp.le
    have : (0:ℝ) < (f.u : ℝ) := by exact_mod_cast f.u_pos
    nlinarith
  have s2 : RelE ((L + 1 / 1000) * (B * (n * (1 + 1 / 1000))) * kap f) ((a.val : ℝ) ^ (b.val : ℝ))
      ((a.val : ℝ) ^ B) := by
    refine RelE.rpow_exp hap hlog hb.err sn0 (le_trans sn1 (by norm_num)) ?_
    have e : n * kap f * (1 + n * kap f) ≤ n * kap f * (1 + 1 / 1000) :=
      mul_le_mul_of_nonneg_left (by norm_num at sn1 ⊢; linarith) sn0
    calc (L + 1 / 1000) * (B * (n * kap f * (1 + n * kap f)))
        ≤ (L + 1 / 1000) * (B * (n * kap f * (1 + 1 / 1000))) :=
          mul_le_mul_of_nonneg_left (mul_le_mul_of_nonneg_left e hBp.le) hL0
      _ = _ := by ring
  have s3 := ha.err.rpow hBp.le
  refine ((s1.trans s2).trans s3).mono ?_
  have e : 4 * kap f + (L + 1 / 1000) * (B * (n * (1 + 1 / 1000))) * kap f + B * (m * kap f) =
    (4 + B * m + (L + 1 / 1000) * (B * (n * (1 + 1 / 1000)))) * kap f := by ring
  rw [e]
  exact mul_le_mul_of_nonneg_right hN (kap_pos f).le

theorem RelF.powf {f : Fmt} [Libm f] (hf : Std f) (hp : PowAccurate f) {m n N L : ℝ} {a b : FP f}
    {X B : ℝ} (ha : RelF m a X) (hb : RelF n b B) (hm0 : 0 ≤ m) (hm : m ≤ 100) (hn0 : 0 ≤ n)
    (hn : n ≤ 100) (hX1 : 1 / 2 ^ 59 ≤ X) (hX2 : X ≤ 3 / 2) (hB1 : 3 / 10 ≤ B) (hB2 : B ≤ 3)
    (hL : |Real.log X| ≤ L) (hN : 4 + B * m + (L + 1 / 1000) * (B * (n * (1 + 1 / 1000))) ≤ N)
    (hLB : (L + 1 / 1000) * (B * (1 + 1 / 1000)) ≤ 69) : RelF N (Flt.powf a b) (X ^ B) :=
  RelF.powf_wide hf hp ha hb hm0 hm hn0 hn hX1 (hX2.trans (by norm_num)) hB1 hB2 hL hN hLB

end CS

import Verif.Props.Space
import Verif.Lemmas.FPDot
import Verif.Lemmas.FPNear
import Verif.Lemmas.FPCast
import Verif.Lemmas.FPScale

/-!
# XYZ to RGB, one by one and in planes, and back, in floating point (C108)
-/

namespace CS
variable {f : Fmt}

/-- A multiply-add that rounds once (an FMA unit) or twice (a multiplication and an addition): no overflow
below 2^90, and the error is at most three roundings. -/
def Spec.MulAdd (f : Fmt) (fma : FP f → FP f → FP f → FP f) : Prop :=
  ∀ a b c, a.isFinite = true → b.isFinite = true → c.isFinite = true → |a.val * b.val| + |c.val| ≤ 2 ^ 90 →
    (fma a b c).isFinite = true ∧
    |(fma a b c).val - (a.val * b.val + c.val)| ≤ 3 * f.u * (|a.val * b.val| + |c.val|) + 2 * f.eta

/-- The row `m` of a matrix applied to `v / 100`, exactly. -/
def Spec.rowOf (m v : Fin 3 → FP f) : ℚ := ∑ j, (m j).val * ((v j).val / 100)

/-- The same with absolute values: the size of the terms. -/
def Spec.rowSize (m v : Fin 3 → FP f) : ℚ := ∑ j, |(m j).val * ((v j).val / 100)|

/-- `r` is the row `m` applied to `v / 100`, up to ten roundings of the terms; `μ` bounds the matrix entries and
only multiplies half the smallest subnormal number `eta`. -/
def Spec.RowNear (μ : ℚ) (r : FP f) (m v : Fin 3 → FP f) : Prop :=
  r.isFinite = true ∧ |r.val - Spec.rowOf m v| ≤ 10 * f.u * Spec.rowSize m v + (4 * μ + 6) * f.eta

/-- the three channels of a converted colour, in order -/
def Spec.channels {T : Type} (c : T × T × T) : Fin 3 → T := ![c.1, c.2.1, c.2.2]

/-- finite numbers up to `B` in size -/
def Spec.UpToSize (B : ℚ) (v : Fin 3 → FP f) : Prop := ∀ j, (v j).isFinite = true ∧ |(v j).val| ≤ B

/-- `x` is `X` up to two roundings -/
structure Scaled (x : FP f) (X : ℚ) : Prop where
  fin : x.isFinite = true
  err : |x.val - X| ≤ 2.1 * f.u * |X| + f.eta

theorem q_facts (hf : Std f) : 0 < f.u ∧ f.u ≤ 1 / 2 ^ 24 ∧ f.eta ≤ 1 / 2 ^ 124 ∧ 0 < f.eta ∧
    (2:ℚ) ^ 100 ≤ 2 ^ f.emax := by
  have h1 := f.u_pos
  have h2 := hf.hu
  have h3 := hf.wide.heta
  have h4 := hf.wide.hmax
  refine ⟨h1, h2, ?_, f.eta_pos, ?_⟩
  · norm_num at h2 h3 ⊢; linarith
  · norm_num at h4 ⊢; linarith

theorem Scaled.term (hf : Std f) {m x : FP f} {X μ : ℚ} (h : Scaled x X) (hm : |m.val| ≤ μ) :
    |m.val * x.val - m.val * X| ≤ 2.1 * (f.u * |m.val * X|) + μ * f.eta ∧
    |m.val * x.val| ≤ 1.01 * |m.val * X| + μ * f.eta := by
  obtain ⟨u0, u1, -, e0, -⟩ := q_facts hf
  have A := abs_nonneg (m.val * X)
  have h1 : |m.val * x.val - m.val * X| ≤ 2.1 * (f.u * |m.val * X|) + μ * f.eta := by
    rw [← mul_sub, abs_mul]
    have := mul_le_mul_of_nonneg_left h.err (abs_nonneg m.val)
    have := mul_le_mul_of_nonneg_right hm e0.le
    have e : f.u * |m.val * X| = |m.val| * (f.u * |X|) := by rw [abs_mul]; ring
    rw [e]
    linarith
  refine ⟨h1, ?_⟩
  have h2 := abs_add_le (m.val * x.val - m.val * X) (m.val * X)
  rw [sub_add_cancel] at h2
  have := mul_le_mul_of_nonneg_right u1 A
  linarith

theorem kernel_near (hf : Std f) {fma : FP f → FP f → FP f → FP f} (hfma : Spec.MulAdd f fma)
    {m0 m1 m2 x y z : FP f} {X Y Z μ : ℚ}
    (g0 : m0.isFinite = true) (g1 : m1.isFinite = true) (g2 : m2.isFinite = true)
    (h0 : |m0.val| ≤ μ) (h1 : |m1.val| ≤ μ) (h2 : |m2.val| ≤ μ) (hμ : μ ≤ 2 ^ 40)
    (hx : Scaled x X) (hy : Scaled y Y) (hz : Scaled z Z)
    (hS : |m0.val * X| + |m1.val * Y| + |m2.val * Z| ≤ 2 ^ 85) :
    (fma m2 z (fma m1 y (m0 * x))).isFinite = true ∧
    |(fma m2 z (fma m1 y (m0 * x))).val - (m0.val * X + m1.val * Y + m2.val * Z)| ≤
      10 * f.u * (|m0.val * X| + |m1.val * Y| + |m2.val * Z|) + (4 * μ + 6) * f.eta := by
  obtain ⟨u0, u1, e1, e0, hmax⟩ := q_facts hf
  have μ0 : 0 ≤ μ := (abs_nonneg _).trans h0
  have hμe : 0 ≤ μ * f.eta := by positivity
  have hμe1 : μ * f.eta ≤ 1 := by
    calc μ * f.eta ≤ 2 ^ 40 * (1 / 2 ^ 124) := mul_le_mul hμ e1 e0.le (by norm_num)
      _ ≤ 1 := by norm_num
  have he1 : f.eta ≤ 1 := e1.trans (by norm_num)
  obtain ⟨tx, sx⟩ := hx.term hf h0
  obtain ⟨ty, sy⟩ := hy.term hf h1
  obtain ⟨tz, sz⟩ := hz.term hf h2
  have A := abs_nonneg (m0.val * X)
  have B := abs_nonneg (m1.val * Y)
  have C := abs_nonneg (m2.val * Z)
  set a := |m0.val * X|
  set b := |m1.val * Y|
  set c := |m2.val * Z|
  have ua := mul_nonneg u0.le A
  have ub := mul_nonneg u0.le B
  have uc := mul_nonneg u0.le C
  have ua' := mul_le_mul_of_nonneg_right u1 A
  have ub' := mul_le_mul_of_nonneg_right u1 B
  have uc' := mul_le_mul_of_nonneg_right u1 C
  have ue' := mul_le_mul_of_nonneg_right u1 e0.le
  have uμ' := mul_le_mul_of_nonneg_right u1 hμe
  obtain ⟨f0, r0⟩ := FP.mul_err g0 hx.fin (le_trans (by linarith) hmax)
  have r0u := mul_le_mul_of_nonneg_right sx u0.le
  have p0 : |(m0 * x).val - m0.val * X| ≤ 3.2 * (f.u * a) + 1.1 * (μ * f.eta) + f.eta := by
    have := abs_sub_le (m0 * x).val (m0.val * x.val) (m0.val * X)
    linarith
  have q0 : |(m0 * x).val| ≤ 1.01 * a + 1.1 * (μ * f.eta) + f.eta := by
    have := abs_add_le ((m0 * x).val - m0.val * X) (m0.val * X)
    rw [sub_add_cancel] at this
    linarith
  obtain ⟨f1, r1⟩ := hfma m1 y (m0 * x) g1 hy.fin f0 (by linarith)
  have r1u := mul_le_mul_of_nonneg_left (add_le_add sy q0) u0.le
  have p1 : |(fma m1 y (m0 * x)).val - (m0.val * X + m1.val * Y)| ≤
      6.3 * (f.u * a) + 6.3 * (f.u * b) + 2.2 * (μ * f.eta) + 3.1 * f.eta := by
    have h3 := abs_sub_le (fma m1 y (m0 * x)).val (m1.val * y.val + (m0 * x).val) (m0.val * X + m1.val * Y)
    have h4 : |m1.val * y.val + (m0 * x).val - (m0.val * X + m1.val * Y)| ≤
        |m1.val * y.val - m1.val * Y| + |(m0 * x).val - m0.val * X| := by
      rw [show m1.val * y.val + (m0 * x).val - (m0.val * X + m1.val * Y) =
        (m1.val * y.val - m1.val * Y) + ((m0 * x).val - m0.val * X) by ring]
      exact abs_add_le _ _
    linarith
  have q1 : |(fma m1 y (m0 * x)).val| ≤ 1.01 * a + 1.01 * b + 2.2 * (μ * f.eta) + 3.1 * f.eta := by
    have h3 := abs_add_le ((fma m1 y (m0 * x)).val - (m0.val * X + m1.val * Y)) (m0.val * X + m1.val * Y)
    rw [sub_add_cancel] at h3
    have h4 : |m0.val * X + m1.val * Y| ≤ a + b := abs_add_le _ _
    linarith
  obtain ⟨f2, r2⟩ := hfma m2 z (fma m1 y (m0 * x)) g2 hz.fin f1 (by linarith)
  have r2u := mul_le_mul_of_nonneg_left (add_le_add sz q1) u0.le
  refine ⟨f2, ?_⟩
  have h3 := abs_sub_le (fma m2 z (fma m1 y (m0 * x))).val (m2.val * z.val + (fma m1 y (m0 * x)).val)
    (m0.val * X + m1.val * Y + m2.val * Z)
  have h4 : |m2.val * z.val + (fma m1 y (m0 * x)).val - (m0.val * X + m1.val * Y + m2.val * Z)| ≤
      |m2.val * z.val - m2.val * Z| + |(fma m1 y (m0 * x)).val - (m0.val * X + m1.val * Y)| := by
    rw [show m2.val * z.val + (fma m1 y (m0 * x)).val - (m0.val * X + m1.val * Y + m2.val * Z) =
      (m2.val * z.val - m2.val * Z) + ((fma m1 y (m0 * x)).val - (m0.val * X + m1.val * Y)) by ring]
    exact abs_add_le _ _
  linarith

theorem tail_near (hf : Std f) {m0 m1 m2 x y z : FP f} {X Y Z μ : ℚ}
    (g0 : m0.isFinite = true) (g1 : m1.isFinite = true) (g2 : m2.isFinite = true)
    (h0 : |m0.val| ≤ μ) (h1 : |m1.val| ≤ μ) (h2 : |m2.val| ≤ μ) (hμ : μ ≤ 2 ^ 40)
    (hx : Scaled x X) (hy : Scaled y Y) (hz : Scaled z Z)
    (hS : |m0.val * X| + |m1.val * Y| + |m2.val * Z| ≤ 2 ^ 85) :
    (m0 * x + m1 * y + m2 * z).isFinite = true ∧
    |(m0 * x + m1 * y + m2 * z).val - (m0.val * X + m1.val * Y + m2.val * Z)| ≤
      10 * f.u * (|m0.val * X| + |m1.val * Y| + |m2.val * Z|) + (4 * μ + 6) * f.eta := by
  obtain ⟨u0, u1, e1, e0, hmax⟩ := q_facts hf
  have μ0 : 0 ≤ μ := (abs_nonneg _).trans h0
  have hμe : 0 ≤ μ * f.eta := by positivity
  have hμe1 : μ * f.eta ≤ 1 := by
    calc μ * f.eta ≤ 2 ^ 40 * (1 / 2 ^ 124) := mul_le_mul hμ e1 e0.le (by norm_num)
      _ ≤ 1 := by norm_num
  obtain ⟨tx, sx⟩ := hx.term hf h0
  obtain ⟨ty, sy⟩ := hy.term hf h1
  obtain ⟨tz, sz⟩ := hz.term hf h2
  have A := abs_nonneg (m0.val * X)
  have B := abs_nonneg (m1.val * Y)
  have C := abs_nonneg (m2.val * Z)
  set a := |m0.val * X|
  set b := |m1.val * Y|
  set c := |m2.val * Z|
  have ua := mul_nonneg u0.le A
  have ub := mul_nonneg u0.le B
  have uc := mul_nonneg u0.le C
  have uμ' := mul_le_mul_of_nonneg_right u1 hμe
  obtain ⟨f0, r0⟩ := dot3_err g0 g1 g2 hx.fin hy.fin hz.fin (by linarith)
  refine ⟨f0, ?_⟩
  have r0u := mul_le_mul_of_nonneg_left (add_le_add (add_le_add sx sy) sz) u0.le
  have h3 := abs_sub_le (m0 * x + m1 * y + m2 * z).val (m0.val * x.val + m1.val * y.val + m2.val * z.val)
    (m0.val * X + m1.val * Y + m2.val * Z)
  have h4 : |m0.val * x.val + m1.val * y.val + m2.val * z.val - (m0.val * X + m1.val * Y + m2.val * Z)| ≤
      |m0.val * x.val - m0.val * X| + |m1.val * y.val - m1.val * Y| + |m2.val * z.val - m2.val * Z| := by
    rw [show m0.val * x.val + m1.val * y.val + m2.val * z.val - (m0.val * X + m1.val * Y + m2.val * Z) =
      (m0.val * x.val - m0.val * X) + (m1.val * y.val - m1.val * Y) + (m2.val * z.val - m2.val * Z) by ring]
    exact (abs_add_le _ _).trans (add_le_add_left (abs_add_le _ _) _)
  linarith

/-- multiplying by the rounded 0.01 -/
theorem scaled_mul (hf : Std f) {x : FP f} (hx : x.isFinite = true) (hb : |x.val| ≤ 2 ^ 50) :
    Scaled (x * FP.lit 0.01) (x.val / 100) := by
  obtain ⟨u0, u1, e1, e0, hmax⟩ := q_facts hf
  obtain ⟨l1, l2⟩ := hf.lit 0.01 (by norm_num) (by norm_num)
  set s := (FP.lit 0.01 : FP f)
  have X := abs_nonneg x.val
  have uX := mul_nonneg u0.le X
  have uX' := mul_le_mul_of_nonneg_right u1 X
  have d : |x.val * s.val - x.val / 100| ≤ 0.0101 * (f.u * |x.val|) := by
    rw [show x.val * s.val - x.val / 100 = x.val * (s.val - 0.01) by norm_num; ring, abs_mul]
    have := mul_le_mul_of_nonneg_left l2 X
    norm_num at this ⊢
    linarith
  have q : |x.val * s.val| ≤ 0.0101 * |x.val| := by
    have := abs_add_le (x.val * s.val - x.val / 100) (x.val / 100)
    rw [sub_add_cancel, abs_div, abs_of_pos (show (0:ℚ) < 100 by norm_num)] at this
    linarith
  obtain ⟨f0, r0⟩ := FP.mul_err hx l1 (le_trans (by linarith) hmax)
  refine ⟨f0, ?_⟩
  have h3 := abs_sub_le (x * s).val (x.val * s.val) (x.val / 100)
  have h4 := mul_le_mul_of_nonneg_right q u0.le
  rw [abs_div, abs_of_pos (show (0:ℚ) < 100 by norm_num)]
  linarith

/-- dividing by 100 -/
theorem scaled_div [Libm f] (hf : Std f) {x : FP f} (hx : x.isFinite = true) (hb : |x.val| ≤ 2 ^ 50) :
    Scaled (x / FP.lit 100.0) (x.val / 100) := by
  obtain ⟨u0, u1, e1, e0, hmax⟩ := q_facts hf
  have hl := FP.lit_nat (f := f) 100 (by
    have := hf.hu
    unfold Fmt.u at this
    have h2 : (2:ℚ) ^ 24 ≤ 2 ^ f.p := by
      rw [div_le_div_iff₀ (by positivity) (by positivity)] at this
      linarith
    have : (2:ℕ) ^ 24 ≤ 2 ^ f.p := by exact_mod_cast h2
    omega) (by norm_num)
  have e : (FP.lit 100.0 : FP f) = FP.lit ((100 : ℕ) : ℚ) := by norm_num
  rw [e]
  have hl1 : (FP.lit ((100 : ℕ) : ℚ) : FP f).isFinite = true := by rw [hl]; rfl
  have hl2 : (FP.lit ((100 : ℕ) : ℚ) : FP f).val = 100 := by rw [hl]; rfl
  have X := abs_nonneg x.val
  have hd : |x.val / 100| = |x.val| / 100 := by rw [abs_div, abs_of_pos (show (0:ℚ) < 100 by norm_num)]
  obtain ⟨f0, r0⟩ := FP.div_err hx hl1 (by rw [hl2]; norm_num) (le_trans (by
    rw [hl2, hd]; linarith) hmax)
  rw [hl2] at r0
  refine ⟨f0, r0.trans ?_⟩
  have := mul_nonneg u0.le (abs_nonneg (x.val / 100))
  linarith


/-! ## The property theorems -/

/-- C108 [F]: a fused multiply-add (one rounding of the exact `a b + c`) is an admissible multiply-add. -/
theorem C108_fused (hf : Std f) (neg0 : Bool) :
    Spec.MulAdd f (fun a b c => FP.ofQ f neg0 (a.val * b.val + c.val)) := by
  intro a b c _ _ _ h
  obtain ⟨u0, u1, e1, e0, hmax⟩ := q_facts hf
  have A := abs_nonneg (a.val * b.val)
  have C := abs_nonneg c.val
  have ht := abs_add_le (a.val * b.val) c.val
  have hr := roundQ_lt (f := f) (q := a.val * b.val + c.val) (le_trans (by linarith) hmax)
  obtain ⟨h1, h2⟩ := FP.ofQ_finite (f := f) neg0 hr
  refine ⟨h1, ?_⟩
  show |(FP.ofQ f neg0 (a.val * b.val + c.val)).val - _| ≤ _
  rw [h2]
  have h3 := roundQ_err_mixed f (a.val * b.val + c.val)
  have h4 := mul_le_mul_of_nonneg_right ht u0.le
  have h5 := mul_nonneg A u0.le
  have h6 := mul_nonneg C u0.le
  linarith

/-- C108 [F]: a multiplication followed by an addition (what the library falls back to without FMA hardware) is
an admissible multiply-add. -/
theorem C108_unfused (hf : Std f) : Spec.MulAdd f (fun a b c => a * b + c) := by
  intro a b c ha hb hc h
  obtain ⟨u0, u1, e1, e0, hmax⟩ := q_facts hf
  have A := abs_nonneg (a.val * b.val)
  have C := abs_nonneg c.val
  have Au := mul_le_mul_of_nonneg_right u1 A
  have Cu := mul_nonneg C u0.le
  obtain ⟨f0, r0⟩ := FP.mul_err ha hb (le_trans (by linarith) hmax)
  have q0 : |(a * b).val| ≤ 1.01 * |a.val * b.val| + f.eta := by
    have := abs_add_le ((a * b).val - a.val * b.val) (a.val * b.val)
    rw [sub_add_cancel] at this
    linarith
  have ht := abs_add_le (a * b).val c.val
  have he1 : f.eta ≤ 1 := e1.trans (by norm_num)
  obtain ⟨f1, r1⟩ := FP.add_err f0 hc (le_trans (by linarith) hmax)
  refine ⟨f1, ?_⟩
  show |(a * b + c).val - _| ≤ _
  have h3 := abs_sub_le (a * b + c).val ((a * b).val + c.val) (a.val * b.val + c.val)
  rw [add_sub_add_right_eq_sub] at h3
  have h4 := mul_le_mul_of_nonneg_right (ht.trans (add_le_add_left q0 _)) u0.le
  have h5 := mul_nonneg A u0.le
  have h6 := mul_le_mul_of_nonneg_left u1 e0.le
  linarith

theorem row_size {m v : Fin 3 → FP f} {μ : ℚ} (hm : Spec.UpToSize μ m) (hμ : μ ≤ 2 ^ 40) (hv : Spec.UpToSize (2 ^ 40) v) :
    Spec.rowSize m v ≤ 2 ^ 85 := by
  have h : ∀ j, |(m j).val * ((v j).val / 100)| ≤ 2 ^ 80 := fun j => by
    rw [abs_mul, abs_div, abs_of_pos (show (0:ℚ) < 100 by norm_num)]
    have h1 := (hm j).2.trans hμ
    have h2 := (hv j).2
    have h3 := abs_nonneg (v j).val
    calc _ ≤ (2:ℚ) ^ 40 * (2 ^ 40) := mul_le_mul h1 (by linarith) (by positivity) (by positivity)
      _ = 2 ^ 80 := by norm_num
  unfold Spec.rowSize
  rw [Fin.sum_univ_three]
  have h0 := h 0
  have h1 := h 1
  have h2 := h 2
  linarith

/-- C108 [F]: `xyz_to_rgb`: every channel is the matrix row applied to XYZ/100, up to ten roundings of the terms. -/
theorem C108_scalar [Libm f] (hf : Std f) {μ : ℚ} (m : Matrix33 (FP f)) (v : Fin 3 → FP f)
    (hm : ∀ i, Spec.UpToSize μ (m.get i)) (hμ : μ ≤ 2 ^ 40) (hv : Spec.UpToSize (2 ^ 40) v) (i : Fin 3) :
    let c := xyzToRgb m ⟨v 0, v 1, v 2⟩
    Spec.RowNear μ (Spec.channels (c.r, c.g, c.b) i) (m.get i) v := by
  have hs : ∀ j, Scaled (v j / FP.lit 100.0) ((v j).val / 100) := fun j =>
    scaled_div hf (hv j).1 ((hv j).2.trans (by norm_num))
  have hS := row_size (hm i) hμ hv
  unfold Spec.rowSize at hS
  rw [Fin.sum_univ_three] at hS
  have h := tail_near hf (hm i 0).1 (hm i 1).1 (hm i 2).1 (hm i 0).2 (hm i 1).2 (hm i 2).2 hμ (hs 0) (hs 1) (hs 2) hS
  unfold Spec.RowNear Spec.rowOf Spec.rowSize
  rw [Fin.sum_univ_three, Fin.sum_univ_three]
  fin_cases i <;> exact h

theorem tail_row (hf : Std f) [Libm f] {μ : ℚ} (m : Matrix33 (FP f)) (v : Fin 3 → FP f)
    (hm : ∀ i, Spec.UpToSize μ (m.get i)) (hμ : μ ≤ 2 ^ 40) (hv : Spec.UpToSize (2 ^ 40) v) (i : Fin 3) :
    Spec.RowNear μ (Spec.channels (planeTail m (v 0) (v 1) (v 2)) i) (m.get i) v := by
  have hs : ∀ j, Scaled (v j * FP.lit 0.01) ((v j).val / 100) := fun j =>
    scaled_mul hf (hv j).1 ((hv j).2.trans (by norm_num))
  have hS := row_size (hm i) hμ hv
  unfold Spec.rowSize at hS
  rw [Fin.sum_univ_three] at hS
  have h := tail_near hf (hm i 0).1 (hm i 1).1 (hm i 2).1 (hm i 0).2 (hm i 1).2 (hm i 2).2 hμ (hs 0) (hs 1) (hs 2) hS
  unfold Spec.RowNear Spec.rowOf Spec.rowSize
  rw [Fin.sum_univ_three, Fin.sum_univ_three]
  fin_cases i <;> exact h

theorem kernel_row (hf : Std f) [Libm f] {fma : FP f → FP f → FP f → FP f} (hfma : Spec.MulAdd f fma) {μ : ℚ}
    (m : Matrix33 (FP f)) (v : Fin 3 → FP f)
    (hm : ∀ i, Spec.UpToSize μ (m.get i)) (hμ : μ ≤ 2 ^ 40) (hv : Spec.UpToSize (2 ^ 40) v) (i : Fin 3) :
    Spec.RowNear μ (Spec.channels (planeKernel fma m (v 0) (v 1) (v 2)) i) (m.get i) v := by
  have hs : ∀ j, Scaled (v j * FP.lit 0.01) ((v j).val / 100) := fun j =>
    scaled_mul hf (hv j).1 ((hv j).2.trans (by norm_num))
  have hS := row_size (hm i) hμ hv
  unfold Spec.rowSize at hS
  rw [Fin.sum_univ_three] at hS
  have h := kernel_near hf hfma (hm i 0).1 (hm i 1).1 (hm i 2).1 (hm i 0).2 (hm i 1).2 (hm i 2).2 hμ
    (hs 0) (hs 1) (hs 2) hS
  unfold Spec.RowNear Spec.rowOf Spec.rowSize
  rw [Fin.sum_univ_three, Fin.sum_univ_three]
  fin_cases i <;> exact h

/-- C108 [F]: the planar conversion of planes of equal length returns one colour per element. Every element in a
full block of `W` or among the last `len / W` is the matrix applied to XYZ/100, up to ten roundings of the terms,
and so within twenty of the one-by-one conversion; the other elements are zero (see C25). -/
theorem C108_planes [Libm f] (hf : Std f) (W : ℕ) {fma : FP f → FP f → FP f → FP f} (hfma : Spec.MulAdd f fma) {μ : ℚ}
    (m : Matrix33 (FP f)) (hm : ∀ i, Spec.UpToSize μ (m.get i)) (hμ : μ ≤ 2 ^ 40) (xs ys zs : List (FP f))
    (hy : ys.length = xs.length) (hz : zs.length = xs.length) :
    ∃ res, xyzPlanesToRgb W fma m xs ys zs = .ok res ∧ res.length = xs.length ∧
      ∀ (k : ℕ) (v : Fin 3 → FP f), xs[k]? = some (v 0) → ys[k]? = some (v 1) → zs[k]? = some (v 2) →
        Spec.UpToSize (2 ^ 40) v →
        ∃ c, res[k]? = some c ∧
          ((k < xs.length / W * W ∨ xs.length - xs.length / W ≤ k) → ∀ i,
            Spec.RowNear μ (Spec.channels c i) (m.get i) v ∧
            let s := xyzToRgb m ⟨v 0, v 1, v 2⟩
            |(Spec.channels c i).val - (Spec.channels (s.r, s.g, s.b) i).val| ≤
              20 * f.u * Spec.rowSize (m.get i) v + (8 * μ + 12) * f.eta) ∧
          (¬ (k < xs.length / W * W ∨ xs.length - xs.length / W ≤ k) → ∀ i, (Spec.channels c i).val = 0) := by
  obtain ⟨res, h1, h2, h3⟩ := C25_planes_exact W fma m xs ys zs hy hz
  refine ⟨res, h1, h2, fun k v vx vy vz hv => ⟨_, h3 k _ _ _ vx vy vz, fun hk i => ?_, fun hk i => ?_⟩⟩
  · have key : Spec.RowNear μ (Spec.channels (
          if xs.length - xs.length / W ≤ k then planeTail m (v 0) (v 1) (v 2)
          else if k < xs.length / W * W then planeKernel fma m (v 0) (v 1) (v 2)
          else (Flt.zero, Flt.zero, Flt.zero)) i) (m.get i) v := by
      split_ifs with a b
      · exact tail_row hf m v hm hμ hv i
      · exact kernel_row hf hfma m v hm hμ hv i
      · omega
    refine ⟨key, ?_⟩
    have hs := (C108_scalar hf m v hm hμ hv i).2
    have hk := key.2
    rw [abs_sub_comm] at hs
    exact (abs_sub_le _ _ _).trans (by linarith)
  · push Not at hk
    rw [if_neg (by omega), if_neg (by omega)]
    have h0 : (Flt.zero : FP f).val = 0 := by
      show (FP.lit 0 : FP f).val = 0
      simp [FP.lit_zero]
    fin_cases i <;> exact h0

/-- C108 [F]: when the width divides the length, every element is converted, in order. -/
theorem C108_whole_blocks [Libm f] (hf : Std f) (W : ℕ) {fma : FP f → FP f → FP f → FP f}
    (hfma : Spec.MulAdd f fma) {μ : ℚ} (m : Matrix33 (FP f)) (hm : ∀ i, Spec.UpToSize μ (m.get i)) (hμ : μ ≤ 2 ^ 40)
    (xs ys zs : List (FP f)) (hy : ys.length = xs.length) (hz : zs.length = xs.length) (hd : W ∣ xs.length) :
    ∃ res, xyzPlanesToRgb W fma m xs ys zs = .ok res ∧ res.length = xs.length ∧
      ∀ (k : ℕ) (v : Fin 3 → FP f), xs[k]? = some (v 0) → ys[k]? = some (v 1) → zs[k]? = some (v 2) →
        Spec.UpToSize (2 ^ 40) v →
        ∃ c, res[k]? = some c ∧ ∀ i, Spec.RowNear μ (Spec.channels c i) (m.get i) v := by
  obtain ⟨res, h1, h2, h3⟩ := C108_planes hf W hfma m hm hμ xs ys zs hy hz
  refine ⟨res, h1, h2, fun k v vx vy vz hv => ?_⟩
  obtain ⟨c, hc, h, -⟩ := h3 k v vx vy vz hv
  refine ⟨c, hc, fun i => (h (Or.inl ?_) i).1⟩
  rw [Nat.div_mul_cancel hd]
  exact (List.getElem?_eq_some_iff.1 vx).1

/-- C108 [F]: the way back, `rgb_to_xyz`: every coordinate is a hundred times the matrix row applied to the colour,
up to six roundings of the terms. -/
theorem C108_back [Libm f] (hf : Std f) (m : Matrix33 (FP f)) (v : Fin 3 → FP f)
    (hm : ∀ i, Spec.UpToSize (2 ^ 40) (m.get i)) (hv : Spec.UpToSize (2 ^ 40) v) (i : Fin 3) :
    let c := rgbToXyz m ⟨v 0, v 1, v 2⟩
    let r := Spec.channels (c.x, c.y, c.z) i
    r.isFinite = true ∧ |r.val - 100 * ∑ j, (m.get i j).val * (v j).val| ≤
      6 * f.u * (100 * ∑ j, |(m.get i j).val * (v j).val|) + 510 * f.eta := by
  obtain ⟨u0, u1, e1, e0, hmax⟩ := q_facts hf
  obtain ⟨l1, l2⟩ := lit_natural hf 100 (by norm_num) (by norm_num) 100.0 (by norm_num)
  have h : ∀ j, |(m.get i j).val * (v j).val| ≤ 2 ^ 80 := fun j => by
    rw [abs_mul]
    calc _ ≤ (2:ℚ) ^ 40 * (2 ^ 40) := mul_le_mul (hm i j).2 (hv j).2 (by positivity) (by positivity)
      _ = 2 ^ 80 := by norm_num
  have h0 := h 0
  have h1 := h 1
  have h2 := h 2
  obtain ⟨f0, r0⟩ := dot3_err (hm i 0).1 (hm i 1).1 (hm i 2).1 (hv 0).1 (hv 1).1 (hv 2).1 (by linarith)
  have t1 := abs_add_le ((m.get i 0).val * (v 0).val + (m.get i 1).val * (v 1).val) ((m.get i 2).val * (v 2).val)
  have t2 := abs_add_le ((m.get i 0).val * (v 0).val) ((m.get i 1).val * (v 1).val)
  have A0 := abs_nonneg ((m.get i 0).val * (v 0).val)
  have A1 := abs_nonneg ((m.get i 1).val * (v 1).val)
  have A2 := abs_nonneg ((m.get i 2).val * (v 2).val)
  rw [Fin.sum_univ_three, Fin.sum_univ_three]
  set S := |(m.get i 0).val * (v 0).val| + |(m.get i 1).val * (v 1).val| + |(m.get i 2).val * (v 2).val| with hS
  set E := (m.get i 0).val * (v 0).val + (m.get i 1).val * (v 1).val + (m.get i 2).val * (v 2).val with hE
  set p := m.get i 0 * v 0 + m.get i 1 * v 1 + m.get i 2 * v 2 with hp
  have S0 : 0 ≤ S := by linarith
  have S1 : S ≤ 2 ^ 82 := by linarith
  have ES : |E| ≤ S := by linarith
  clear_value S E
  have uS := mul_nonneg u0.le S0
  have uS' := mul_le_mul_of_nonneg_right u1 S0
  have he1 : f.eta ≤ 1 := e1.trans (by norm_num)
  have hpS : |p.val| ≤ 1.01 * S + 5 * f.eta := by
    have := abs_add_le (p.val - E) E
    rw [sub_add_cancel] at this
    linarith
  have hpl : |p.val * (FP.lit 100.0 : FP f).val| = 100 * |p.val| := by
    rw [l2, abs_mul, mul_comm]; norm_num
  obtain ⟨f1, r1⟩ := FP.mul_err f0 l1 (by rw [hpl]; exact le_trans (by linarith) hmax)
  rw [hpl] at r1
  have key : (p * FP.lit 100.0).isFinite = true ∧
      |(p * FP.lit 100.0).val - 100 * E| ≤ 6 * f.u * (100 * S) + 510 * f.eta := by
    refine ⟨f1, ?_⟩
    have h3 := abs_sub_le (p * FP.lit 100.0).val (p.val * (FP.lit 100.0 : FP f).val) (100 * E)
    have h4 : |p.val * (FP.lit 100.0 : FP f).val - 100 * E| = 100 * |p.val - E| := by
      rw [l2, show p.val * ((100 : ℕ) : ℚ) - 100 * E = 100 * (p.val - E) by push_cast; ring, abs_mul]; norm_num
    have h5 := mul_le_mul_of_nonneg_left hpS u0.le
    have h6 := mul_le_mul_of_nonneg_right u1 e0.le
    linarith
  fin_cases i <;> exact key

/-- the hypotheses are met: eight `f32` elements, width eight, unfused -/
example [Libm Fmt.b32] : ∃ res, xyzPlanesToRgb 8 (fun a b c => a * b + c) (Matrix33.identity : Matrix33 (FP Fmt.b32))
    (List.replicate 8 (FP.lit 95.0)) (List.replicate 8 (FP.lit 100.0)) (List.replicate 8 (FP.lit 108.0)) = .ok res ∧
    ∃ c, res[5]? = some c ∧ ∀ i, Spec.RowNear 1 (Spec.channels c i)
      ((Matrix33.identity : Matrix33 (FP Fmt.b32)).get i) ![FP.lit 95.0, FP.lit 100.0, FP.lit 108.0] := by
  have hI : ∀ i, Spec.UpToSize 1 ((Matrix33.identity : Matrix33 (FP Fmt.b32)).get i) := by
    have a : (Flt.zero : FP Fmt.b32).isFinite = true ∧ |(Flt.zero : FP Fmt.b32).val| ≤ 1 := by
      show (FP.lit 0 : FP Fmt.b32).isFinite = true ∧ |(FP.lit 0 : FP Fmt.b32).val| ≤ 1
      decide +kernel
    have b : (Flt.one : FP Fmt.b32).isFinite = true ∧ |(Flt.one : FP Fmt.b32).val| ≤ 1 := by
      show (FP.lit 1 : FP Fmt.b32).isFinite = true ∧ |(FP.lit 1 : FP Fmt.b32).val| ≤ 1
      decide +kernel
    intro i j
    fin_cases i <;> fin_cases j <;> first | exact a | exact b
  have hV : Spec.UpToSize (2 ^ 40) ![(FP.lit 95.0 : FP Fmt.b32), FP.lit 100.0, FP.lit 108.0] := by
    unfold Spec.UpToSize
    decide +kernel
  obtain ⟨res, h1, -, h3⟩ := C108_whole_blocks std_b32 8 (C108_unfused std_b32)
    (Matrix33.identity : Matrix33 (FP Fmt.b32)) hI (by norm_num) (List.replicate 8 (FP.lit 95.0))
    (List.replicate 8 (FP.lit 100.0)) (List.replicate 8 (FP.lit 108.0)) rfl rfl (by simp)
  exact ⟨res, h1, h3 5 _ rfl rfl rfl hV⟩

end CS

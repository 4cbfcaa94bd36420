import Verif.Props.DeltaEBound
import Verif.Lemmas.IdealMath

/-!
# `delta_E_1976` in floating point (C93), and a library that meets the assumptions
-/

namespace CS
section
variable {f : Fmt} [Libm f]

theorem sqrt_near {R E a h : ℝ} (hR : 0 ≤ R) (hE : 0 ≤ E) (ha : 0 ≤ a) (hh : 0 ≤ h)
    (H : |R - E ^ 2| ≤ a * E ^ 2 + 4 * h ^ 2) : |Real.sqrt R - E| ≤ a * E + 2 * h := by
  by_contra hc
  push Not at hc
  have s0 := Real.sqrt_nonneg R
  have e : R - E ^ 2 = (Real.sqrt R - E) * (Real.sqrt R + E) := by
    nlinarith [Real.mul_self_sqrt hR]
  rw [e, abs_mul, abs_of_nonneg (by linarith : (0:ℝ) ≤ Real.sqrt R + E)] at H
  have h1 : |Real.sqrt R - E| ≤ Real.sqrt R + E := by rw [abs_le]; constructor <;> linarith
  have h2 : E ≤ Real.sqrt R + E := by linarith
  generalize Real.sqrt R + E = B at *
  generalize |Real.sqrt R - E| = A at *
  have aE := mul_nonneg ha hE
  have B0 : 0 < B := by linarith
  have k1 := mul_lt_mul_of_pos_right hc B0
  have k2 := mul_le_mul_of_nonneg_left h2 aE
  have k3 : 2 * h * (2 * h) ≤ 2 * h * B := mul_le_mul_of_nonneg_left (by linarith) (by linarith)
  nlinarith

/-- the error of the sum under the root -/
theorem sum_core {a c X W PQ R u η : ℝ} (u0 : 0 < u) (u1 : u ≤ 1 / 2 ^ 24) (e0 : 0 < η) (a0 : 0 ≤ a) (c0 : 0 ≤ c)
    (hX : |X - a| ≤ 7 * (u * a) + 2 * η) (hW : |W - c| ≤ 7 * (u * c) + η) (hP : |PQ - X| ≤ X * u)
    (hR : |R - (PQ + W)| ≤ (PQ + W) * u) : |R - (a + c)| ≤ 9.3 * u * (a + c) + 4 * η := by
  have small : ∀ {z : ℝ}, 0 ≤ z → z * u ≤ z * 0.01 := fun {z} hz => mul_le_mul_of_nonneg_left (by norm_num at u1 ⊢; linarith) hz
  have ua := mul_nonneg u0.le a0
  have uc := mul_nonneg u0.le c0
  have sa := small ua
  have sc := small uc
  have se := small e0.le
  obtain ⟨x1, x2⟩ := abs_le.1 hX
  obtain ⟨w1, w2⟩ := abs_le.1 hW
  obtain ⟨p1, p2⟩ := abs_le.1 hP
  obtain ⟨r1, r2⟩ := abs_le.1 hR
  have hXu : X * u ≤ 1.07 * (u * a) + 0.02 * η := by
    have : X * u ≤ (a + (7 * (u * a) + 2 * η)) * u := mul_le_mul_of_nonneg_right (by linarith) u0.le
    linarith
  have hT : PQ + W ≤ (a + c) + 8.07 * (u * a) + 7 * (u * c) + 3.02 * η := by linarith
  have hTu : (PQ + W) * u ≤ 1.1 * (u * a) + 1.1 * (u * c) + 0.04 * η := by
    have : (PQ + W) * u ≤ ((a + c) + 8.07 * (u * a) + 7 * (u * c) + 3.02 * η) * u := mul_le_mul_of_nonneg_right hT u0.le
    linarith
  rw [abs_le]
  constructor <;> linarith

/-- the square of a rounded difference -/
theorem square_diff (hf : Std f) (hm : Spec.MathAccurate f) {x y : FP f} (hx : In x (-1024) 1024)
    (hy : In y (-1024) 1024) :
    In (Flt.powi (x - y) 2) 0 4200000 ∧
    |((Flt.powi (x - y) 2 : FP f).val : ℝ) - ((x.val : ℝ) - y.val) ^ 2| ≤
      7 * f.u * ((x.val : ℝ) - y.val) ^ 2 + f.eta := by
  obtain ⟨u0, u1, e0, e1⟩ := hf.real_u
  obtain ⟨vd, d⟩ := hx.sub' hf hy (L := -2048) (H := 2048) (by short) (by short) (by norm_num) (by norm_num)
  refine ⟨in_square hf hm d (by norm_num) (by norm_num), ?_⟩
  obtain ⟨-, -, h⟩ := hm.square (x - y) d.1 (d.abs_val.trans (by norm_num))
  have e := roundQ_err_add (FP.round_val x) (by rw [roundQ_neg, FP.round_val] : roundQ f (-y.val) = -y.val)
  rw [← sub_eq_add_neg, ← vd] at e
  have e' : |((x - y).val : ℝ) - ((x.val : ℝ) - y.val)| ≤ |(x.val : ℝ) - y.val| * f.u := by exact_mod_cast e
  generalize ((x - y).val : ℝ) = z at *
  generalize (x.val : ℝ) - y.val = Z at *
  have hz : |z| ≤ |Z| * (1 + f.u) := by
    have := abs_add_le (z - Z) Z
    rw [sub_add_cancel] at this
    linarith
  have hz2 : |z ^ 2 - Z ^ 2| ≤ Z ^ 2 * (2.1 * f.u) := by
    have : z ^ 2 - Z ^ 2 = (z - Z) * (z + Z) := by ring
    rw [this, abs_mul]
    have h1 : |z + Z| ≤ |Z| * 2.1 := by
      have h2 := abs_add_le z Z
      have h3 : |Z| * (f.u : ℝ) ≤ |Z| * 0.1 := mul_le_mul_of_nonneg_left (by norm_num at u1 ⊢; linarith) (abs_nonneg _)
      linarith
    calc |z - Z| * |z + Z| ≤ |Z| * f.u * (|Z| * 2.1) := mul_le_mul e' h1 (abs_nonneg _) (mul_nonneg (abs_nonneg _) u0.le)
      _ = |Z| ^ 2 * (2.1 * f.u) := by ring
      _ = Z ^ 2 * (2.1 * f.u) := by rw [sq_abs]
  have hz3 : z ^ 2 ≤ Z ^ 2 * 1.2 := by
    have := (abs_le.1 hz2).2
    have h3 : Z ^ 2 * (2.1 * (f.u : ℝ)) ≤ Z ^ 2 * 0.2 := mul_le_mul_of_nonneg_left (by norm_num at u1 ⊢; linarith) (sq_nonneg _)
    linarith
  have h4 : 4 * (f.u : ℝ) * z ^ 2 ≤ 4 * f.u * (Z ^ 2 * 1.2) := mul_le_mul_of_nonneg_left hz3 (by linarith)
  generalize ((Flt.powi (x - y) 2 : FP f).val : ℝ) = P at *
  have t := abs_add_le (P - z ^ 2) (z ^ 2 - Z ^ 2)
  rw [sub_add_sub_cancel] at t
  nlinarith [mul_nonneg u0.le (sq_nonneg Z)]

/-- C93 [F]: for finite coordinates of size up to 1024 the result of `delta_E_1976` is finite, not negative, and
within 14 units of rounding (plus a tiny absolute term) of the exact distance. -/
theorem C93_near_1976 (hf : Std f) (hm : Spec.MathAccurate f) (he : f.eta ≤ f.u ^ 2 / 2 ^ 30) (c d : Lab (FP f))
    (hc : Spec.Moderate c) (hd : Spec.Moderate d) :
    (deltaE1976 c d).isFinite = true ∧ 0 ≤ (deltaE1976 c d).val ∧
    |((deltaE1976 c d).val : ℝ) - Real.sqrt (((c.L.val : ℝ) - d.L.val) ^ 2 + ((c.a.val : ℝ) - d.a.val) ^ 2
      + ((c.b.val : ℝ) - d.b.val) ^ 2)| ≤
      14 * f.u * Real.sqrt (((c.L.val : ℝ) - d.L.val) ^ 2 + ((c.a.val : ℝ) - d.a.val) ^ 2
      + ((c.b.val : ℝ) - d.b.val) ^ 2) + f.u / 2 ^ 13 := by
  obtain ⟨u0, u1, e0, e1⟩ := hf.real_u
  obtain ⟨cL, ca, cb⟩ := hc.ins
  obtain ⟨dL, da, db⟩ := hd.ins
  obtain ⟨i1, n1⟩ := square_diff hf hm cL dL
  obtain ⟨i2, n2⟩ := square_diff hf hm ca da
  obtain ⟨i3, n3⟩ := square_diff hf hm cb db
  unfold deltaE1976
  generalize (Flt.powi (c.L - d.L) 2 : FP f) = p at *
  generalize (Flt.powi (c.a - d.a) 2 : FP f) = q at *
  generalize (Flt.powi (c.b - d.b) 2 : FP f) = r at *
  generalize (c.L.val : ℝ) - d.L.val = A at *
  generalize (c.a.val : ℝ) - d.a.val = B at *
  generalize (c.b.val : ℝ) - d.b.val = C at *
  obtain ⟨v1, j1⟩ := i1.add' hf i2 (L := 0) (H := 8400000) (by short) (by short) (by norm_num) (by norm_num)
  obtain ⟨v2, j2⟩ := j1.add' hf i3 (L := 0) (H := 12600000) (by short) (by short) (by norm_num) (by norm_num)
  have w1 := roundQ_err_add (FP.round_val p) (FP.round_val q)
  have w2 := roundQ_err_add (FP.round_val (p + q)) (FP.round_val r)
  rw [← v1] at w1
  rw [← v2] at w2
  rw [abs_of_nonneg (add_nonneg i1.2.1 i2.2.1)] at w1
  rw [abs_of_nonneg (add_nonneg j1.2.1 i3.2.1)] at w2
  have w1' : |((p + q).val : ℝ) - (p.val + q.val)| ≤ (p.val + q.val) * f.u := by exact_mod_cast w1
  have w2' : |((p + q + r).val : ℝ) - ((p + q).val + r.val)| ≤ ((p + q).val + r.val) * f.u := by exact_mod_cast w2
  obtain ⟨s0, s1, s2⟩ := hm.sqrt (p + q + r) j2.1 j2.2.1 (j2.2.2.trans (by norm_num))
  have R0 : (0:ℝ) ≤ (p + q + r).val := by exact_mod_cast j2.2.1
  have he' : (f.eta : ℝ) ≤ (f.u : ℝ) ^ 2 / 2 ^ 30 := by qcast he
  refine ⟨s1, s0, ?_⟩
  have S2 : Real.sqrt (A ^ 2 + B ^ 2 + C ^ 2) ^ 2 = A ^ 2 + B ^ 2 + C ^ 2 := Real.sq_sqrt (by positivity)
  have S0 := Real.sqrt_nonneg (A ^ 2 + B ^ 2 + C ^ 2)
  generalize ((Flt.sqrt (p + q + r) : FP f).val : ℝ) = Y at *
  generalize Real.sqrt (A ^ 2 + B ^ 2 + C ^ 2) = E at *
  generalize ((p + q + r).val : ℝ) = R at *
  generalize ((p + q).val : ℝ) = PQ at *
  generalize (p.val : ℝ) = P at *
  generalize (q.val : ℝ) = Q at *
  generalize (r.val : ℝ) = W at *
  generalize (f.u : ℝ) = u at *
  generalize (f.eta : ℝ) = η at *
  have hX : |P + Q - (A ^ 2 + B ^ 2)| ≤ 7 * (u * (A ^ 2 + B ^ 2)) + 2 * η := by
    have t := abs_add_le (P - A ^ 2) (Q - B ^ 2)
    have e : P - A ^ 2 + (Q - B ^ 2) = P + Q - (A ^ 2 + B ^ 2) := by ring
    rw [e] at t
    linarith
  have key : |R - E ^ 2| ≤ 9.3 * u * E ^ 2 + 4 * η := by
    rw [S2]
    exact sum_core u0 u1 e0 (by positivity) (sq_nonneg C) hX (by linarith) w1' w2'
  have small : ∀ {z : ℝ}, 0 ≤ z → z * u ≤ z * 0.01 := fun {z} hz => mul_le_mul_of_nonneg_left (by norm_num at u1 ⊢; linarith) hz
  have hsη := Real.sq_sqrt e0.le
  have sη0 := Real.sqrt_nonneg η
  have sη : Real.sqrt η ≤ u / 2 ^ 15 := by
    rw [Real.sqrt_le_left (by positivity)]
    calc η ≤ u ^ 2 / 2 ^ 30 := he'
      _ = (u / 2 ^ 15) ^ 2 := by ring
  have near := sqrt_near (a := 9.3 * u) (h := Real.sqrt η) R0 S0 (by linarith) sη0 (by rw [hsη]; exact key)
  have sR : Real.sqrt R ≤ 1.1 * E + 2 * Real.sqrt η := by
    have h1 := (abs_le.1 near).2
    have h2 := small S0
    linarith
  have t := abs_add_le (Y - Real.sqrt R) (Real.sqrt R - E)
  rw [sub_add_sub_cancel] at t
  have h4 : 4 * u * Real.sqrt R ≤ 4 * u * (1.1 * E + 2 * Real.sqrt η) := mul_le_mul_of_nonneg_left sR (by linarith)
  have h5 : Real.sqrt η * u ≤ Real.sqrt η * 0.01 := small sη0
  have h6 := mul_nonneg u0.le S0
  clear key hX n1 n2 n3 w1' w2' sR he'
  generalize Real.sqrt η = h at *
  generalize Real.sqrt R = r at *
  norm_num at sη ⊢
  linarith

/-- C93 [F]: the `delta_E_1976` of a colour with itself is zero, for finite coordinates of size up to 1024. -/
theorem C93_equal_1976 (hf : Std f) (hm : Spec.MathAccurate f) (c : Lab (FP f)) (hc : Spec.Moderate c) :
    (deltaE1976 c c).isFinite = true ∧ (deltaE1976 c c).val = 0 := by
  obtain ⟨cL, ca, cb⟩ := hc.ins
  have z : ∀ {x : FP f}, In x (-1024) 1024 → FP.IsZero (Flt.powi (x - x) 2) := by
    intro x hx
    obtain ⟨i, n⟩ := square_diff hf hm hx hx
    refine ⟨i.1, rep_zero (f := f) (FP.round_val _) ?_⟩
    rw [sub_self] at n
    norm_num at n
    exact_mod_cast n
  exact sqrt_zero hm (zero_add' (zero_add' (z cL) (z ca)) (z cb))

end

section
theorem eta_b32 : Fmt.b32.eta ≤ Fmt.b32.u ^ 2 / 2 ^ 30 := by norm_num [Fmt.u, Fmt.eta, Fmt.b32, Fmt.emin]
set_option exponentiation.threshold 4000 in
theorem eta_b64 : Fmt.b64.eta ≤ Fmt.b64.u ^ 2 / 2 ^ 30 := by norm_num [Fmt.u, Fmt.eta, Fmt.b64, Fmt.emin]

/-- the assumptions of the theorems above hold together: f64 with a library of correctly rounded functions -/
example : ∃ L : Libm Fmt.b64, @Spec.MathAccurate Fmt.b64 L ∧ @Spec.OddTrig Fmt.b64 L ∧ Std Fmt.b64 ∧
    Fmt.b64.eta ≤ Fmt.b64.u ^ 2 / 2 ^ 30 :=
  ⟨idealLibm _, ideal_math std_b64 eta_b64, ideal_odd _, std_b64, eta_b64⟩

example : ∃ L : Libm Fmt.b32, @Spec.MathAccurate Fmt.b32 L ∧ @Spec.OddTrig Fmt.b32 L ∧ Std Fmt.b32 ∧
    Fmt.b32.eta ≤ Fmt.b32.u ^ 2 / 2 ^ 30 :=
  ⟨idealLibm _, ideal_math std_b32 eta_b32, ideal_odd _, std_b32, eta_b32⟩

/-- a saturated blue, for which the rotation term matters, is in range -/
example [Libm Fmt.b64] : Spec.Moderate (⟨FP.lit 32, FP.lit 79, FP.lit (-108)⟩ : Lab (FP Fmt.b64)) := by
  have a := in_lit (q := 32) (L := 32) (H := 32) std_b64 (by short) (by short) (by norm_num) (by norm_num)
  have b := in_lit (q := 79) (L := 79) (H := 79) std_b64 (by short) (by short) (by norm_num) (by norm_num)
  have c := in_lit (q := -108) (L := -108) (H := -108) std_b64 (by short) (by short) (by norm_num) (by norm_num)
  refine ⟨⟨a.1, b.1, c.1⟩, ?_, ?_, ?_⟩ <;> rw [abs_le] <;> constructor
  · exact le_trans (by norm_num) a.2.1
  · exact a.2.2.trans (by norm_num)
  · exact le_trans (by norm_num) b.2.1
  · exact b.2.2.trans (by norm_num)
  · exact le_trans (by norm_num) c.2.1
  · exact c.2.2.trans (by norm_num)
end
end CS

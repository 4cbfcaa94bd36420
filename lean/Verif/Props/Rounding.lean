import Verif.Lemmas.ViaEval64
import Verif.Lemmas.ViaEval32

/-!
# Rounding error bounds (C76, C77)

`f.u = 2^-p` is the unit roundoff, `f.eta = 2^(emin - p)` half of the smallest positive number.
`a.val` is the rational value of a finite float.
-/

namespace CS

/-! ## C76: matrix products -/

/-- C76 [F]: in any format, every component of `matrix * XYZ` and of `matrix * RGB` is finite and
within `4u` times the sum of the absolute values of its three terms (plus `5η`) of the exact
value. -/
theorem C76_matrix_colour {f : Fmt} (m : Matrix33 (FP f)) (v : Fin 3 → FP f)
    (hm : ∀ i j, (m.get i j).isFinite = true) (hv : ∀ j, (v j).isFinite = true) (i : Fin 3)
    (hS : ∑ j, |(m.get i j).val * (v j).val| ≤ 2 ^ f.emax / 2) :
    (let r := xyzVec (m * (⟨v 0, v 1, v 2⟩ : XYZ (FP f))) i
     r.isFinite = true ∧ |r.val - ∑ j, (m.get i j).val * (v j).val| ≤
      4 * f.u * ∑ j, |(m.get i j).val * (v j).val| + 5 * f.eta) ∧
    (let r := rgbVec (m * (⟨v 0, v 1, v 2⟩ : RGBf (FP f))) i
     r.isFinite = true ∧ |r.val - ∑ j, (m.get i j).val * (v j).val| ≤
      4 * f.u * ∑ j, |(m.get i j).val * (v j).val| + 5 * f.eta) := by
  rw [Fin.sum_univ_three] at hS
  have h := dot3_err (hm i 0) (hm i 1) (hm i 2) (hv 0) (hv 1) (hv 2) hS
  rw [Fin.sum_univ_three, Fin.sum_univ_three]
  have e1 : xyzVec (m * (⟨v 0, v 1, v 2⟩ : XYZ (FP f))) i
    = m.get i 0 * v 0 + m.get i 1 * v 1 + m.get i 2 * v 2 := by fin_cases i <;> rfl
  have e2 : rgbVec (m * (⟨v 0, v 1, v 2⟩ : RGBf (FP f))) i
    = m.get i 0 * v 0 + m.get i 1 * v 1 + m.get i 2 * v 2 := by fin_cases i <;> rfl
  rw [e1, e2]
  exact ⟨h, h⟩

/-- Not vacuous: a matrix of quarters and a colour in f32. -/
example :
    let d (n : ℤ) : FP Fmt.b32 := dyadic Fmt.b32 n 2
    let m : Matrix33 (FP Fmt.b32) := ⟨d 1, d 2, d (-3), d 4, d 5, d 6, d 7, d 8, d 9⟩
    let v : Fin 3 → FP Fmt.b32 := fun j => d (j.val + 1)
    (∀ i j, (m.get i j).isFinite = true) ∧ (∀ j, (v j).isFinite = true) ∧
    ∀ i, ∑ j, |(m.get i j).val * (v j).val| ≤ 2 ^ Fmt.b32.emax / 2 := by
  intro d m v
  simp only [Fin.forall_fin_succ, Fin.sum_univ_three, IsEmpty.forall_iff, and_true]
  exact of_decide_eq_true (by krefl)

/-- adding a finite number to zero -/
theorem zero_add_fin {f : Fmt} {z a : FP f} (hz : z.isFinite = true) (hz0 : z.val = 0)
    (ha : a.isFinite = true) : (z + a).isFinite = true ∧ (z + a).val = a.val := by
  have h := FP.add_finite hz ha (by rw [hz0, zero_add, a.round_val]; exact (FP.val_rep a).2)
  rw [hz0, zero_add, a.round_val] at h
  exact h

/-- C76 [F]: the same bound for every entry of a matrix product. -/
theorem C76_matrix_matrix {f : Fmt} [Libm f] (a b : Matrix33 (FP f))
    (ha : ∀ i j, (a.get i j).isFinite = true) (hb : ∀ i j, (b.get i j).isFinite = true) (i j : Fin 3)
    (hS : ∑ k, |(a.get i k).val * (b.get k j).val| ≤ 2 ^ f.emax / 2) :
    ((a * b).get i j).isFinite = true ∧
    |((a * b).get i j).val - ∑ k, (a.get i k).val * (b.get k j).val| ≤
      4 * f.u * ∑ k, |(a.get i k).val * (b.get k j).val| + 5 * f.eta := by
  rw [Fin.sum_univ_three] at hS
  rw [Fin.sum_univ_three, Fin.sum_univ_three]
  have e : (a * b).get i j = (Flt.zero + a.get i 0 * b.get 0 j) + a.get i 1 * b.get 1 j
      + a.get i 2 * b.get 2 j := by fin_cases i <;> fin_cases j <;> rfl
  have hz : (Flt.zero : FP f).isFinite = true ∧ (Flt.zero : FP f).val = 0 := by
    have : (Flt.zero : FP f) = FP.lit ((0 : ℕ) : ℚ) := by show FP.lit _ = _; norm_num
    rw [this, FP.lit_nat 0 (by positivity) (by norm_num)]
    exact ⟨rfl, by norm_num [FP.val]⟩
  have A1 := abs_nonneg ((a.get i 1).val * (b.get 1 j).val)
  have A2 := abs_nonneg ((a.get i 2).val * (b.get 2 j).val)
  have A0 := abs_nonneg ((a.get i 0).val * (b.get 0 j).val)
  have hB := f.pow_emax_ge
  obtain ⟨p0, -⟩ := FP.mul_err (ha i 0) (hb 0 j) (by linarith)
  obtain ⟨q0, q1⟩ := zero_add_fin hz.1 hz.2 p0
  obtain ⟨p1, -⟩ := FP.mul_err (ha i 1) (hb 1 j) (by linarith)
  -- the leading zero changes nothing but possibly the sign of a zero
  have hsame : ∀ x y : FP f, x.isFinite = true → y.isFinite = true → x.val = y.val → ∀ z : FP f,
      z.isFinite = true → |x.val + z.val| ≤ 2 ^ f.emax →
      (x + z).isFinite = true ∧ (y + z).isFinite = true ∧ (x + z).val = (y + z).val := by
    intro x y hx hy hxy z hz hb
    obtain ⟨g1, g2⟩ := FP.add_finite hx hz (roundQ_lt hb)
    obtain ⟨k1, k2⟩ := FP.add_finite hy hz (roundQ_lt (by rw [← hxy]; exact hb))
    exact ⟨g1, k1, by rw [g2, k2, hxy]⟩
  obtain ⟨r1, r2⟩ := dot3_err (ha i 0) (ha i 1) (ha i 2) (hb 0 j) (hb 1 j) (hb 2 j) hS
  have hb1 : |(a.get i 0 * b.get 0 j).val + (a.get i 1 * b.get 1 j).val| ≤ 2 ^ f.emax ∧
      |(a.get i 0 * b.get 0 j + a.get i 1 * b.get 1 j).val + (a.get i 2 * b.get 2 j).val|
        ≤ 2 ^ f.emax := by
    have hη := f.eta_le
    have hu := f.u_le
    have hu0 := f.u_pos
    have tp : ∀ {p a : ℚ}, |p - a| ≤ |a| * f.u + f.eta → |p| ≤ |a| * (5/4) + 1/8 := by
      intro p a h
      have := abs_add_le (p - a) a
      rw [sub_add_cancel] at this
      nlinarith [abs_nonneg a]
    have P0 := tp (FP.mul_err (ha i 0) (hb 0 j) (by linarith)).2
    have P1 := tp (FP.mul_err (ha i 1) (hb 1 j) (by linarith)).2
    have P2 := tp (FP.mul_err (ha i 2) (hb 2 j) (by linarith)).2
    have t := abs_add_le (a.get i 0 * b.get 0 j).val (a.get i 1 * b.get 1 j).val
    have h1 : |(a.get i 0 * b.get 0 j).val + (a.get i 1 * b.get 1 j).val| ≤ 2 ^ f.emax := by linarith
    refine ⟨h1, ?_⟩
    obtain ⟨_, e2⟩ := FP.add_err p0 p1 h1
    have t2 := abs_add_le ((a.get i 0 * b.get 0 j + a.get i 1 * b.get 1 j).val
      - ((a.get i 0 * b.get 0 j).val + (a.get i 1 * b.get 1 j).val))
      ((a.get i 0 * b.get 0 j).val + (a.get i 1 * b.get 1 j).val)
    rw [sub_add_cancel] at t2
    have t3 := abs_add_le (a.get i 0 * b.get 0 j + a.get i 1 * b.get 1 j).val
      (a.get i 2 * b.get 2 j).val
    nlinarith [abs_nonneg ((a.get i 0 * b.get 0 j).val + (a.get i 1 * b.get 1 j).val)]
  obtain ⟨s1, s2, s3⟩ := hsame _ _ p0 q0 q1.symm _ p1 hb1.1
  obtain ⟨p2, -⟩ := FP.mul_err (ha i 2) (hb 2 j) (by linarith)
  obtain ⟨t1, t2, t3⟩ := hsame _ _ s1 s2 s3 _ p2 hb1.2
  rw [e]
  exact ⟨t2, by rw [← t3]; exact r2⟩

/-! ## C77: conversion round trips in floating point -/

/-- C77 [F]: in f64, XYZ to RGB to XYZ and RGB to XYZ to RGB through any shipped space and any of the
six white points, with every operation rounded (also in the construction of the matrices), returns
each component to within this fraction of the largest one: 8e-5 for sRGB, 2e-5 for Adobe RGB, 3e-6
for Alexa Wide Gamut, 2e-10 for ACES, 1e-14 for the spaces derived from primaries. -/
theorem C77_round_trip_f64 [L : Libm Fmt.b64] :
    ∀ r ∈ Spec.xyzTolerance Fmt.b64 8e-5 2e-5 3e-6 2e-10 1e-14, Spec.SpaceTrips r.1 r.2 :=
  spaces_of_check L wide_b64 (by norm_num [Fmt.b64]) Tripb64.linkX Tripb64.trips

/-- C77 [F]: the same in f32: 8e-5 for sRGB, 2e-5 for Adobe RGB, 5e-6 for all others. -/
theorem C77_round_trip_f32 [L : Libm Fmt.b32] :
    ∀ r ∈ Spec.xyzTolerance Fmt.b32 8e-5 2e-5 5e-6 5e-6 5e-6, Spec.SpaceTrips r.1 r.2 :=
  spaces_of_check L wide_b32 (by norm_num [Fmt.b32]) Tripb32.linkX Tripb32.trips

/-- C77 [F]: in f64, converting linear RGB between any two shipped spaces and back returns each
component to within the sum of the two spaces' tolerances times the largest component. -/
theorem C77_rgb_to_rgb_f64 [L : Libm Fmt.b64] :
    ∀ r ∈ Spec.xyzTolerance Fmt.b64 8e-5 2.5e-5 3e-6 2e-10 1e-14,
    ∀ s ∈ Spec.xyzTolerance Fmt.b64 8e-5 2.5e-5 3e-6 2e-10 1e-14,
      Spec.PairReturns r.1 s.1 (r.2 + s.2) :=
  pairs_of_check L wide_b64 Tripb64.convTable Tripb64.backs Tripb64.linkR

/-- C77 [F]: the same in f32. -/
theorem C77_rgb_to_rgb_f32 [L : Libm Fmt.b32] :
    ∀ r ∈ Spec.xyzTolerance Fmt.b32 8e-5 2.5e-5 3e-6 2e-6 2e-6,
    ∀ s ∈ Spec.xyzTolerance Fmt.b32 8e-5 2.5e-5 3e-6 2e-6 2e-6,
      Spec.PairReturns r.1 s.1 (r.2 + s.2) :=
  pairs_of_check L wide_b32 Tripb32.convTable Tripb32.backs Tripb32.linkR

/-- Not vacuous: the colour (1/2, 1, 3/4) with `M = 1`. -/
example : (1:ℚ) / 2 ^ 90 ≤ 1 ∧ (1:ℚ) ≤ 2 ^ 100 ∧
    ∀ i, (xyzVec (⟨dyadic Fmt.b32 1 1, dyadic Fmt.b32 1 0, dyadic Fmt.b32 3 2⟩ : XYZ (FP Fmt.b32)) i).isFinite
        = true ∧
      |(xyzVec (⟨dyadic Fmt.b32 1 1, dyadic Fmt.b32 1 0, dyadic Fmt.b32 3 2⟩ : XYZ (FP Fmt.b32)) i).val| ≤ 1 := by
  refine ⟨by norm_num, by norm_num, ?_⟩
  simp only [Fin.forall_fin_succ, IsEmpty.forall_iff, and_true]
  exact of_decide_eq_true (by krefl)

end CS

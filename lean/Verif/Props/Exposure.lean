import Verif.Lemmas.FPStops
import Verif.Lemmas.FPTrip
import Verif.Model.Space
import Verif.Model.Uplift
import Verif.Model.Shipped
import Verif.Num.KRefl
import Verif.Lemmas.IdealLibm

/-!
# Exposure in whole stops is exact in floating point (C119)

`Spec.Stops k a b`: `b` is exactly `2^k` times `a`, and both are finite. `Spec.NotTiny j x`: `x` is zero or at least `2^-j`
in size.
-/

namespace CS

/-- single and double precision both have this much room below one -/
structure Spec.Roomy (f : Fmt) : Prop where
  low : f.emin + f.p ≤ -99
  bits : 24 ≤ f.p

theorem roomy_b32 : Spec.Roomy Fmt.b32 := ⟨by decide, by decide⟩
theorem roomy_b64 : Spec.Roomy Fmt.b64 := ⟨by decide, by decide⟩

/-- every component of the one colour is `2^k` times that of the other -/
def Spec.StopsRGB {f : Fmt} (k : ℕ) (c d : RGBf (FP f)) : Prop :=
  Spec.Stops k c.r d.r ∧ Spec.Stops k c.g d.g ∧ Spec.Stops k c.b d.b
/-- the same of tristimulus values -/
def Spec.StopsXYZ {f : Fmt} (k : ℕ) (c d : XYZ (FP f)) : Prop :=
  Spec.Stops k c.x d.x ∧ Spec.Stops k c.y d.y ∧ Spec.Stops k c.z d.z

def Spec.FiniteRGB {f : Fmt} (c : RGBf (FP f)) : Prop :=
  c.r.isFinite = true ∧ c.g.isFinite = true ∧ c.b.isFinite = true
def Spec.FiniteXYZ {f : Fmt} (c : XYZ (FP f)) : Prop :=
  c.x.isFinite = true ∧ c.y.isFinite = true ∧ c.z.isFinite = true

section
variable {f : Fmt} [Libm f] {k : ℕ}

omit [Libm f] in
theorem Spec.Roomy.lower (hf : Spec.Roomy f) : f.emin ≤ -123 := by
  have := hf.low; have := hf.bits; omega

omit [Libm f] in
theorem Spec.Stops.dot (hf : Spec.Roomy f) {m0 m1 m2 a b c a' b' c' : FP f}
    (h0 : m0.isFinite = true ∧ Spec.NotTiny 20 m0) (h1 : m1.isFinite = true ∧ Spec.NotTiny 20 m1)
    (h2 : m2.isFinite = true ∧ Spec.NotTiny 20 m2)
    (ha : Spec.Stops k a a') (hb : Spec.Stops k b b') (hc : Spec.Stops k c c')
    (ta : Spec.NotTiny 60 a) (tb : Spec.NotTiny 60 b) (tc : Spec.NotTiny 60 c)
    (h : (m0 * a' + m1 * b' + m2 * c').isFinite = true) :
    Spec.Stops k (m0 * a + m1 * b + m2 * c) (m0 * a' + m1 * b' + m2 * c') := by
  have hl := hf.lower
  obtain ⟨s1, s2⟩ := finite_of_add' h
  obtain ⟨s3, s4⟩ := finite_of_add' s1
  have u {m x : FP f} (hm : Spec.NotTiny 20 m) (hx : Spec.NotTiny 60 x) := hm.mul hx (by push_cast; omega)
  exact ((ha.mul_left m0 h0.1 (u h0.2 ta) s3).add (hb.mul_left m1 h1.1 (u h1.2 tb) s4) s1).add
    (hc.mul_left m2 h2.1 (u h2.2 tc) s2) h

omit [Libm f] in
/-- a product of numbers that are not tiny is on a grid that is not too fine -/
theorem prod_grid (hf : Spec.Roomy f) {m a : FP f} (hm : m.isFinite = true) (ha : a.isFinite = true)
    (tm : Spec.NotTiny 20 m) (ta : Spec.NotTiny 60 a) (h : (m * a).isFinite = true) :
    ∃ n : ℤ, (m * a).val = n * 2 ^ ((-80 : ℤ) - (f.p - 1)) := by
  rw [FP.mul_finite_eq hm ha] at h ⊢
  rw [(FP.ofQ_finite _ (ofQ_round_of_finite h)).2]
  by_cases hz : m.val * a.val = 0
  · exact ⟨0, by rw [hz, roundQ_zero]; simp⟩
  refine grid_float (roundQ_idem f _) ?_
  have tm' : 1 / 2 ^ 20 ≤ |m.val| := tm.resolve_left (left_ne_zero_of_mul hz)
  have ta' : 1 / 2 ^ 60 ≤ |a.val| := ta.resolve_left (right_ne_zero_of_mul hz)
  have hq : (2:ℚ) ^ (-80 : ℤ) ≤ |m.val * a.val| := by
    rw [abs_mul]
    calc (2:ℚ) ^ (-80 : ℤ) = 1 / 2 ^ 20 * (1 / 2 ^ 60) := by norm_num
      _ ≤ _ := mul_le_mul tm' ta' (by positivity) (abs_nonneg _)
  have hr : roundQ f ((2:ℚ) ^ (-80 : ℤ)) = 2 ^ (-80 : ℤ) := by
    have := roundQ_eq_self f 1 (-80) (by
      have : (1:ℤ) ≤ 2 ^ f.p := one_le_pow₀ (by norm_num)
      simpa using this) (by have := hf.low; have := hf.bits; omega)
    simpa using this
  rcases le_or_gt 0 (m.val * a.val) with h0 | h0
  · rw [abs_of_nonneg h0] at hq
    exact (hr.ge.trans (roundQ_mono f hq)).trans (le_abs_self _)
  · rw [abs_of_neg h0] at hq
    rw [← abs_neg, ← roundQ_neg]
    exact (hr.ge.trans (roundQ_mono f hq)).trans (le_abs_self _)

omit [Libm f] in
theorem add_grid {a b : FP f} {e : ℤ} (ha : ∃ n : ℤ, a.val = n * 2 ^ e) (hb : ∃ n : ℤ, b.val = n * 2 ^ e)
    (h : (a + b).isFinite = true) : ∃ n : ℤ, (a + b).val = n * 2 ^ e := by
  obtain ⟨fa, fb⟩ := finite_of_add' h
  obtain ⟨s, e1⟩ := add_finite_eq fa fb
  obtain ⟨m, hm⟩ := ha
  obtain ⟨n, hn⟩ := hb
  rw [e1] at h ⊢
  rw [(FP.ofQ_finite _ (ofQ_round_of_finite h)).2]
  exact grid_round (m := m + n) (by rw [hm, hn]; push_cast; ring)

theorem lit_hundred (hf : Spec.Roomy f) : (Flt.lit 100.0 : FP f).isFinite = true ∧ (Flt.lit 100.0 : FP f).val = 100 :=
  lit100 (le_trans (by norm_num) (Nat.pow_le_pow_right (by norm_num) hf.bits))

omit [Libm f] in
/-- a matrix of finite entries, each zero or at least a millionth in size -/
def Spec.PlainMatrix (m : Matrix33 (FP f)) : Prop := ∀ i j, (m.get i j).isFinite = true ∧ Spec.NotTiny 20 (m.get i j)

def Spec.NotTinyRGB (j : ℕ) (c : RGBf (FP f)) : Prop := Spec.NotTiny j c.r ∧ Spec.NotTiny j c.g ∧ Spec.NotTiny j c.b
def Spec.NotTinyXYZ (j : ℕ) (c : XYZ (FP f)) : Prop := Spec.NotTiny j c.x ∧ Spec.NotTiny j c.y ∧ Spec.NotTiny j c.z

omit [Libm f] in
/-- C119 [F]: a matrix times a colour `k` stops brighter is exactly `2^k` times the matrix times the colour. -/
theorem C119_matrix_rgb (hf : Spec.Roomy f) (m : Matrix33 (FP f)) (hm : Spec.PlainMatrix m) (c d : RGBf (FP f))
    (h : Spec.StopsRGB k c d) (hc : Spec.NotTinyRGB 60 c) (hd : Spec.FiniteRGB (m * d)) :
    Spec.StopsRGB k (m * c) (m * d) := by
  obtain ⟨h1, h2, h3⟩ := h
  obtain ⟨t1, t2, t3⟩ := hc
  obtain ⟨d1, d2, d3⟩ := hd
  exact ⟨.dot hf (hm 0 0) (hm 0 1) (hm 0 2) h1 h2 h3 t1 t2 t3 d1, .dot hf (hm 1 0) (hm 1 1) (hm 1 2) h1 h2 h3 t1 t2 t3 d2,
    .dot hf (hm 2 0) (hm 2 1) (hm 2 2) h1 h2 h3 t1 t2 t3 d3⟩

omit [Libm f] in
/-- C119 [F]: the same of tristimulus values. -/
theorem C119_matrix_xyz (hf : Spec.Roomy f) (m : Matrix33 (FP f)) (hm : Spec.PlainMatrix m) (c d : XYZ (FP f))
    (h : Spec.StopsXYZ k c d) (hc : Spec.NotTinyXYZ 60 c) (hd : Spec.FiniteXYZ (m * d)) :
    Spec.StopsXYZ k (m * c) (m * d) := by
  obtain ⟨h1, h2, h3⟩ := h
  obtain ⟨t1, t2, t3⟩ := hc
  obtain ⟨d1, d2, d3⟩ := hd
  exact ⟨.dot hf (hm 0 0) (hm 0 1) (hm 0 2) h1 h2 h3 t1 t2 t3 d1, .dot hf (hm 1 0) (hm 1 1) (hm 1 2) h1 h2 h3 t1 t2 t3 d2,
    .dot hf (hm 2 0) (hm 2 1) (hm 2 2) h1 h2 h3 t1 t2 t3 d3⟩

theorem Spec.Stops.dot100 (hf : Spec.Roomy f) {m0 m1 m2 a b c a' b' c' : FP f}
    (h0 : m0.isFinite = true ∧ Spec.NotTiny 20 m0) (h1 : m1.isFinite = true ∧ Spec.NotTiny 20 m1)
    (h2 : m2.isFinite = true ∧ Spec.NotTiny 20 m2)
    (ha : Spec.Stops k a a') (hb : Spec.Stops k b b') (hc : Spec.Stops k c c')
    (ta : Spec.NotTiny 60 a) (tb : Spec.NotTiny 60 b) (tc : Spec.NotTiny 60 c)
    (h : ((m0 * a' + m1 * b' + m2 * c') * Flt.lit 100.0).isFinite = true) :
    Spec.Stops k ((m0 * a + m1 * b + m2 * c) * Flt.lit 100.0) ((m0 * a' + m1 * b' + m2 * c') * Flt.lit 100.0) := by
  obtain ⟨g1, g2⟩ := lit_hundred hf
  have hd := Spec.Stops.dot hf h0 h1 h2 ha hb hc ta tb tc (finite_of_mul' h).1
  refine hd.mul_right _ g1 ?_ h
  obtain ⟨s1, s2⟩ := finite_of_add' hd.1
  obtain ⟨s3, s4⟩ := finite_of_add' s1
  obtain ⟨n, hn⟩ := add_grid (add_grid (prod_grid hf h0.1 ha.1 h0.2 ta s3) (prod_grid hf h1.1 hb.1 h1.2 tb s4) s1)
    (prod_grid hf h2.1 hc.1 h2.2 tc s2) hd.1
  rcases grid_big hn with e | e
  · left; rw [e, zero_mul]
  · right
    rw [abs_mul, g2, abs_of_pos (by norm_num : (0:ℚ) < 100)]
    have : (2:ℚ) ^ f.emin ≤ 2 ^ ((-80 : ℤ) - (f.p - 1)) :=
      zpow_le_zpow_right₀ (by norm_num) (by have := hf.low; omega)
    linarith [abs_nonneg (m0 * a + m1 * b + m2 * c).val]

/-- C119 [F]: `rgb_to_xyz` of a colour `k` stops brighter is exactly `2^k` times as much. -/
theorem C119_rgb_to_xyz (hf : Spec.Roomy f) (m : Matrix33 (FP f)) (hm : Spec.PlainMatrix m) (c d : RGBf (FP f))
    (h : Spec.StopsRGB k c d) (hc : Spec.NotTinyRGB 60 c) (hd : Spec.FiniteXYZ (rgbToXyz m d)) :
    Spec.StopsXYZ k (rgbToXyz m c) (rgbToXyz m d) := by
  obtain ⟨h1, h2, h3⟩ := h
  obtain ⟨t1, t2, t3⟩ := hc
  obtain ⟨d1, d2, d3⟩ := hd
  exact ⟨.dot100 hf (hm 0 0) (hm 0 1) (hm 0 2) h1 h2 h3 t1 t2 t3 d1,
    .dot100 hf (hm 1 0) (hm 1 1) (hm 1 2) h1 h2 h3 t1 t2 t3 d2,
    .dot100 hf (hm 2 0) (hm 2 1) (hm 2 2) h1 h2 h3 t1 t2 t3 d3⟩

/-- a percentage -/
theorem Spec.Stops.percent (hf : Spec.Roomy f) {a b : FP f} (h : Spec.Stops k a b) (ta : Spec.NotTiny 50 a)
    (hb : (b / Flt.lit 100.0).isFinite = true) :
    Spec.Stops k (a / Flt.lit 100.0) (b / Flt.lit 100.0) ∧ Spec.NotTiny 60 (a / (Flt.lit 100.0 : FP f)) := by
  obtain ⟨g1, g2⟩ := lit_hundred hf
  have hq : a.val = 0 ∨ (2:ℚ) ^ (-60 : ℤ) ≤ |a.val / (Flt.lit 100.0 : FP f).val| := by
    refine ta.imp_right fun t => ?_
    rw [g2, abs_div, abs_of_pos (by norm_num : (0:ℚ) < 100), le_div_iff₀ (by norm_num)]
    refine le_trans ?_ t
    norm_num
  have hs : Spec.Stops k (a / Flt.lit 100.0) (b / Flt.lit 100.0) := by
    refine h.div_right _ g1 (by rw [g2]; norm_num) ?_ hb
    rcases hq with e | e
    · left; rw [e, zero_div]
    · right
      exact le_trans (zpow_le_zpow_right₀ (by norm_num) (by have := hf.lower; omega)) e
  refine ⟨hs, ?_⟩
  have hfin := hs.1
  rw [Spec.NotTiny]
  rw [FP.div_finite_eq h.1 g1 (by rw [g2]; norm_num)] at hfin ⊢
  rw [(FP.ofQ_finite _ (ofQ_round_of_finite hfin)).2]
  rcases hq with e | e
  · left; rw [e, zero_div, roundQ_zero]
  · right
    have hr : roundQ f ((2:ℚ) ^ (-60 : ℤ)) = 2 ^ (-60 : ℤ) := by
      have := roundQ_eq_self f 1 (-60) (by
        have : (1:ℤ) ≤ 2 ^ f.p := one_le_pow₀ (by norm_num)
        simpa using this) (by have := hf.low; have := hf.bits; omega)
      simpa using this
    have e60 : (1:ℚ) / 2 ^ 60 = 2 ^ (-60 : ℤ) := by norm_num
    rw [e60]
    generalize a.val / (Flt.lit 100.0 : FP f).val = q at e ⊢
    rcases le_or_gt 0 q with h0 | h0
    · rw [abs_of_nonneg h0] at e
      exact (hr.ge.trans (roundQ_mono f e)).trans (le_abs_self _)
    · rw [abs_of_neg h0] at e
      rw [← abs_neg, ← roundQ_neg]
      exact (hr.ge.trans (roundQ_mono f e)).trans (le_abs_self _)

/-- C119 [F]: `xyz_to_rgb` of tristimulus values `k` stops brighter is exactly `2^k` times as much. -/
theorem C119_xyz_to_rgb (hf : Spec.Roomy f) (m : Matrix33 (FP f)) (hm : Spec.PlainMatrix m) (c d : XYZ (FP f))
    (h : Spec.StopsXYZ k c d) (hc : Spec.NotTinyXYZ 50 c) (hd : Spec.FiniteRGB (xyzToRgb m d)) :
    Spec.StopsRGB k (xyzToRgb m c) (xyzToRgb m d) := by
  obtain ⟨h1, h2, h3⟩ := h
  obtain ⟨t1, t2, t3⟩ := hc
  obtain ⟨d1, d2, d3⟩ := hd
  obtain ⟨s1, s2⟩ := finite_of_add' d1
  obtain ⟨s3, s4⟩ := finite_of_add' s1
  obtain ⟨a1, a2⟩ := h1.percent hf t1 (finite_of_mul' s3).2
  obtain ⟨b1, b2⟩ := h2.percent hf t2 (finite_of_mul' s4).2
  obtain ⟨c1, c2⟩ := h3.percent hf t3 (finite_of_mul' s2).2
  exact ⟨.dot hf (hm 0 0) (hm 0 1) (hm 0 2) a1 b1 c1 a2 b2 c2 d1, .dot hf (hm 1 0) (hm 1 1) (hm 1 2) a1 b1 c1 a2 b2 c2 d2,
    .dot hf (hm 2 0) (hm 2 1) (hm 2 2) a1 b1 c1 a2 b2 c2 d3⟩

/-! ### sums -/

omit [Libm f] in
theorem Spec.StopsXYZ.add {a b c d : XYZ (FP f)} (h1 : Spec.StopsXYZ k a b) (h2 : Spec.StopsXYZ k c d)
    (h : Spec.FiniteXYZ (b + d)) : Spec.StopsXYZ k (a + c) (b + d) :=
  ⟨h1.1.add h2.1 h.1, h1.2.1.add h2.2.1 h.2.1, h1.2.2.add h2.2.2 h.2.2⟩

omit [Libm f] in
theorem Spec.StopsXYZ.sub {a b c d : XYZ (FP f)} (h1 : Spec.StopsXYZ k a b) (h2 : Spec.StopsXYZ k c d)
    (h : Spec.FiniteXYZ (b - d)) : Spec.StopsXYZ k (a - c) (b - d) :=
  ⟨h1.1.sub h2.1 h.1, h1.2.1.sub h2.2.1 h.2.1, h1.2.2.sub h2.2.2 h.2.2⟩

omit [Libm f] in
theorem Spec.StopsRGB.add {a b c d : RGBf (FP f)} (h1 : Spec.StopsRGB k a b) (h2 : Spec.StopsRGB k c d)
    (h : Spec.FiniteRGB (b + d)) : Spec.StopsRGB k (a + c) (b + d) :=
  ⟨h1.1.add h2.1 h.1, h1.2.1.add h2.2.1 h.2.1, h1.2.2.add h2.2.2 h.2.2⟩

omit [Libm f] in
theorem Spec.FiniteXYZ.of_add {a b : XYZ (FP f)} (h : Spec.FiniteXYZ (a + b)) : Spec.FiniteXYZ a ∧ Spec.FiniteXYZ b :=
  ⟨⟨(finite_of_add' h.1).1, (finite_of_add' h.2.1).1, (finite_of_add' h.2.2).1⟩,
    (finite_of_add' h.1).2, (finite_of_add' h.2.1).2, (finite_of_add' h.2.2).2⟩

omit [Libm f] in
theorem Spec.FiniteXYZ.of_sub {a b : XYZ (FP f)} (h : Spec.FiniteXYZ (a - b)) : Spec.FiniteXYZ a ∧ Spec.FiniteXYZ b :=
  ⟨⟨(finite_of_sub' h.1).1, (finite_of_sub' h.2.1).1, (finite_of_sub' h.2.2).1⟩,
    (finite_of_sub' h.1).2, (finite_of_sub' h.2.1).2, (finite_of_sub' h.2.2).2⟩

omit [Libm f] in
theorem Spec.FiniteRGB.of_add {a b : RGBf (FP f)} (h : Spec.FiniteRGB (a + b)) : Spec.FiniteRGB a ∧ Spec.FiniteRGB b :=
  ⟨⟨(finite_of_add' h.1).1, (finite_of_add' h.2.1).1, (finite_of_add' h.2.2).1⟩,
    (finite_of_add' h.1).2, (finite_of_add' h.2.1).2, (finite_of_add' h.2.2).2⟩

omit [Libm f] in
theorem fold_rgb (l l' : List (RGBf (FP f))) (h : List.Forall₂ (Spec.StopsRGB k) l l') (a b : RGBf (FP f))
    (hab : Spec.FiniteRGB b → Spec.StopsRGB k a b) (hfin : Spec.FiniteRGB (l'.foldl (· + ·) b)) :
    Spec.StopsRGB k (l.foldl (· + ·) a) (l'.foldl (· + ·) b) := by
  induction h generalizing a b with
  | nil => exact hab hfin
  | cons h1 h2 ih => exact ih _ _ (fun hc => (hab hc.of_add.1).add h1 hc) hfin

omit [Libm f] in
theorem fold_xyz (l l' : List (XYZ (FP f))) (h : List.Forall₂ (Spec.StopsXYZ k) l l') (a b : XYZ (FP f))
    (hab : Spec.FiniteXYZ b → Spec.StopsXYZ k a b) (hfin : Spec.FiniteXYZ (l'.foldl (· + ·) b)) :
    Spec.StopsXYZ k (l.foldl (· + ·) a) (l'.foldl (· + ·) b) := by
  induction h generalizing a b with
  | nil => exact hab hfin
  | cons h1 h2 ih => exact ih _ _ (fun hc => (hab hc.of_add.1).add h1 hc) hfin

theorem stops_zero : Spec.Stops k (Flt.zero : FP f) Flt.zero := by
  have e : (Flt.zero : FP f) = FP.fin 0 (FP.isRep_zero f) := FP.lit_zero
  rw [e]; exact .of_zero rfl rfl

/-- C119 [F]: the sum of any number of colours, each `k` stops brighter, is exactly `2^k` times the sum. -/
theorem C119_sum_rgb (l l' : List (RGBf (FP f))) (h : List.Forall₂ (Spec.StopsRGB k) l l')
    (hfin : Spec.FiniteRGB (RGBf.sum l')) : Spec.StopsRGB k (RGBf.sum l) (RGBf.sum l') :=
  fold_rgb l l' h _ _ (fun _ => ⟨stops_zero, stops_zero, stops_zero⟩) hfin

/-- C119 [F]: the same of tristimulus values. -/
theorem C119_sum_xyz (l l' : List (XYZ (FP f))) (h : List.Forall₂ (Spec.StopsXYZ k) l l')
    (hfin : Spec.FiniteXYZ (XYZ.sum l')) : Spec.StopsXYZ k (XYZ.sum l) (XYZ.sum l') :=
  fold_xyz l l' h _ _ (fun _ => ⟨stops_zero, stops_zero, stops_zero⟩) hfin

/-! ### chromaticity and normalisation -/

/-- C119 [F]: stops do not move the chromaticity: `x` and `y` are the same numbers, and the luminance is exactly `2^k` times
as much. -/
theorem C119_chromaticity (hf : Spec.Roomy f) (c d : XYZ (FP f)) (h : Spec.StopsXYZ k c d) (hc : Spec.NotTinyXYZ 50 c)
    (hs : (d.x / Flt.lit 100.0 + d.y / Flt.lit 100.0 + d.z / Flt.lit 100.0).isFinite = true)
    (h0 : (d.x / Flt.lit 100.0 + d.y / Flt.lit 100.0 + d.z / Flt.lit 100.0).val ≠ 0) :
    Flt.eqb (XYY.fromXyz c).x (XYY.fromXyz d).x = true ∧ Flt.eqb (XYY.fromXyz c).y (XYY.fromXyz d).y = true ∧
      Spec.Stops k (XYY.fromXyz c).Y (XYY.fromXyz d).Y := by
  obtain ⟨h1, h2, h3⟩ := h
  obtain ⟨t1, t2, t3⟩ := hc
  obtain ⟨s1, s2⟩ := finite_of_add' hs
  obtain ⟨s3, s4⟩ := finite_of_add' s1
  have a1 := (h1.percent hf t1 s3).1
  have b1 := (h2.percent hf t2 s4).1
  have c1 := (h3.percent hf t3 s2).1
  have e := (a1.add b1 s1).add c1 hs
  have e0 : (c.x / Flt.lit 100.0 + c.y / Flt.lit 100.0 + c.z / Flt.lit 100.0).val ≠ 0 := by
    intro hz; rw [e.2.2, hz, mul_zero] at h0; exact h0 rfl
  have e100 : (Flt.lit 100 : FP f) = Flt.lit 100.0 := by congr 1; norm_num
  unfold XYY.fromXyz
  simp only [e100]
  exact ⟨a1.quot e e0, b1.quot e e0, b1⟩

/-- C119 [F]: nor do they change `XYZ::normalized`. -/
theorem C119_normalized (c d : XYZ (FP f)) (h : Spec.StopsXYZ k c d) (h0 : c.y.val ≠ 0) :
    XYZ.eqb c.normalized d.normalized = true := by
  obtain ⟨h1, h2, h3⟩ := h
  have q1 := h1.quot h2 h0
  have q2 := h2.quot h2 h0
  have q3 := h3.quot h2 h0
  show (FP.eqb (c.x / c.y) (d.x / d.y) && FP.eqb (c.y / c.y) (d.y / d.y) && FP.eqb (c.z / c.y) (d.z / d.y)) = true
  rw [q1, q2, q3]; rfl

/-- C119 [F]: nor `normalize` of a colour. -/
theorem C119_normalize (c d : RGBf (FP f)) (h : Spec.StopsRGB k c d) (h0 : (hmax c).val ≠ 0) :
    RGBf.eqb (normalize c) (normalize d) = true := by
  obtain ⟨h1, h2, h3⟩ := h
  have hm : Spec.Stops k (hmax c) (hmax d) := h1.max (h2.max h3)
  have q1 := h1.quot hm h0
  have q2 := h2.quot hm h0
  have q3 := h3.quot hm h0
  show (FP.eqb (c.r / hmax c) (d.r / hmax d) && FP.eqb (c.g / hmax c) (d.g / hmax d) &&
    FP.eqb (c.b / hmax c) (d.b / hmax d)) = true
  rw [q1, q2, q3]; rfl

/-! ### spectra -/

/-- every sample is `2^k` times the other's -/
def Spec.StopsSPD (k : ℕ) (s t : SPD (FP f)) : Prop := ∀ i, Spec.Stops k (s.values i) (t.values i)

omit [Libm f] in
theorem kahan_stops (wx wy wz s t : SPD (FP f)) (l : List (Fin 40))
    (hx : ∀ i, (wx.values i).isFinite = true ∧ Spec.NoUnderflow f ((s.values i).val * (wx.values i).val))
    (hy : ∀ i, (wy.values i).isFinite = true ∧ Spec.NoUnderflow f ((s.values i).val * (wy.values i).val))
    (hz : ∀ i, (wz.values i).isFinite = true ∧ Spec.NoUnderflow f ((s.values i).val * (wz.values i).val))
    (h : Spec.StopsSPD k s t) (u v : XYZ (FP f) × XYZ (FP f)) (h1 : Spec.FiniteXYZ v.1 → Spec.StopsXYZ k u.1 v.1)
    (h2 : Spec.FiniteXYZ v.1 → Spec.FiniteXYZ v.2 → Spec.StopsXYZ k u.2 v.2)
    (hfin : Spec.FiniteXYZ (l.foldl (kahanStep t wx wy wz) v).1) :
    Spec.StopsXYZ k (l.foldl (kahanStep s wx wy wz) u).1 (l.foldl (kahanStep t wx wy wz) v).1 := by
  induction l generalizing u v with
  | nil => exact h1 hfin
  | cons i l ih =>
    have key : ∀ (w : XYZ (FP f)), w = ⟨t.values i * wx.values i, t.values i * wy.values i, t.values i * wz.values i⟩ →
        Spec.FiniteXYZ (v.1 + (w - v.2)) →
        Spec.StopsXYZ k (⟨s.values i * wx.values i, s.values i * wy.values i, s.values i * wz.values i⟩ - u.2) (w - v.2) ∧
        Spec.StopsXYZ k u.1 v.1 := by
      rintro w rfl hw
      obtain ⟨w1, w2⟩ := hw.of_add
      obtain ⟨w3, w4⟩ := w2.of_sub
      exact ⟨Spec.StopsXYZ.sub ⟨(h i).mul_right _ (hx i).1 (hx i).2 w3.1, (h i).mul_right _ (hy i).1 (hy i).2 w3.2.1,
        (h i).mul_right _ (hz i).1 (hz i).2 w3.2.2⟩ (h2 w1 w4) w2, h1 w1⟩
    refine ih (kahanStep s wx wy wz u i) (kahanStep t wx wy wz v i) (fun hc => ?_) (fun hc hd => ?_) hfin
    · obtain ⟨k1, k2⟩ := key _ rfl hc
      exact k2.add k1 hc
    · obtain ⟨k1, k2⟩ := key _ rfl hc
      have hd' := hd.of_sub
      exact ((k2.add k1 hc).sub k2 hd'.1).sub k1 hd

/-- C119 [F]: the scalar spectrum-to-XYZ sum of a spectrum `k` stops brighter is exactly `2^k` times as much. -/
theorem C119_spd_scalar (hf : Spec.Roomy f) (wx wy wz s t : SPD (FP f))
    (hw : ∀ i, ((wx.values i).isFinite = true ∧ Spec.NotTiny 80 (wx.values i)) ∧
      ((wy.values i).isFinite = true ∧ Spec.NotTiny 80 (wy.values i)) ∧
      ((wz.values i).isFinite = true ∧ Spec.NotTiny 80 (wz.values i)))
    (h : Spec.StopsSPD k s t) (ht : ∀ i, Spec.NotTiny 40 (s.values i))
    (hfin : Spec.FiniteXYZ (spdToXyzScalar wx wy wz t)) :
    Spec.StopsXYZ k (spdToXyzScalar wx wy wz s) (spdToXyzScalar wx wy wz t) := by
  have hl := hf.lower
  have z : Spec.Stops k (Flt.lit 0.0 : FP f) (Flt.lit 0.0) := by
    have : (Flt.lit 0.0 : FP f) = Flt.zero := by
      show (FP.lit (0.0 : ℚ) : FP f) = _
      rw [show (0.0 : ℚ) = 0 by norm_num]; rfl
    rw [this]; exact stops_zero
  refine kahan_stops wx wy wz s t _ (fun i => ⟨(hw i).1.1, (ht i).mul (hw i).1.2 (by push_cast; omega)⟩)
    (fun i => ⟨(hw i).2.1.1, (ht i).mul (hw i).2.1.2 (by push_cast; omega)⟩)
    (fun i => ⟨(hw i).2.2.1, (ht i).mul (hw i).2.2.2 (by push_cast; omega)⟩) h _ _ (fun _ => ⟨z, z, z⟩)
    (fun _ _ => ⟨z, z, z⟩) hfin

omit [Libm f] in
/-- one channel of the vector code -/
theorem avx_stops (w s t : SPD (FP f))
    (hw : ∀ i, (w.values i).isFinite = true ∧ Spec.NoUnderflow f ((s.values i).val * (w.values i).val))
    (h : Spec.StopsSPD k s t) (hfin : (avxChannel t w).isFinite = true) :
    Spec.Stops k (avxChannel s w) (avxChannel t w) := by
  have lane (i : Fin 8) (hi : (ladd (ladd (ladd (lmul (loadLanes t 0) (loadLanes w 0)) (lmul (loadLanes t 1) (loadLanes w 1)))
      (ladd (lmul (loadLanes t 2) (loadLanes w 2)) (lmul (loadLanes t 3) (loadLanes w 3))))
      (lmul (loadLanes t 4) (loadLanes w 4)) i).isFinite = true) :
      Spec.Stops k (ladd (ladd (ladd (lmul (loadLanes s 0) (loadLanes w 0)) (lmul (loadLanes s 1) (loadLanes w 1)))
      (ladd (lmul (loadLanes s 2) (loadLanes w 2)) (lmul (loadLanes s 3) (loadLanes w 3))))
      (lmul (loadLanes s 4) (loadLanes w 4)) i)
      (ladd (ladd (ladd (lmul (loadLanes t 0) (loadLanes w 0)) (lmul (loadLanes t 1) (loadLanes w 1)))
      (ladd (lmul (loadLanes t 2) (loadLanes w 2)) (lmul (loadLanes t 3) (loadLanes w 3))))
      (lmul (loadLanes t 4) (loadLanes w 4)) i) := by
    obtain ⟨a1, a2⟩ := finite_of_add' hi
    obtain ⟨b1, b2⟩ := finite_of_add' a1
    obtain ⟨c1, c2⟩ := finite_of_add' b1
    obtain ⟨d1, d2⟩ := finite_of_add' b2
    have p (q : Fin 5) (hq : (lmul (loadLanes t q) (loadLanes w q) i).isFinite = true) :
        Spec.Stops k (lmul (loadLanes s q) (loadLanes w q) i) (lmul (loadLanes t q) (loadLanes w q) i) :=
      (h _).mul_right _ (hw _).1 (hw _).2 hq
    exact (((p 0 c1).add (p 1 c2) b1).add ((p 2 d1).add (p 3 d2) b2) a1).add (p 4 a2) hi
  unfold avxChannel at hfin ⊢
  dsimp only at hfin ⊢
  generalize (ladd (ladd (ladd (lmul (loadLanes s 0) (loadLanes w 0)) (lmul (loadLanes s 1) (loadLanes w 1)))
      (ladd (lmul (loadLanes s 2) (loadLanes w 2)) (lmul (loadLanes s 3) (loadLanes w 3))))
      (lmul (loadLanes s 4) (loadLanes w 4))) = a at lane ⊢
  generalize (ladd (ladd (ladd (lmul (loadLanes t 0) (loadLanes w 0)) (lmul (loadLanes t 1) (loadLanes w 1)))
      (ladd (lmul (loadLanes t 2) (loadLanes w 2)) (lmul (loadLanes t 3) (loadLanes w 3))))
      (lmul (loadLanes t 4) (loadLanes w 4))) = b at lane hfin ⊢
  have e (v : Lanes (FP f)) : haddAvx v = ((v 0 + v 4) + (v 1 + v 5)) + ((v 2 + v 6) + (v 3 + v 7)) := rfl
  rw [e] at hfin ⊢
  rw [e]
  obtain ⟨a1, a2⟩ := finite_of_add' hfin
  obtain ⟨b1, b2⟩ := finite_of_add' a1
  obtain ⟨b3, b4⟩ := finite_of_add' a2
  obtain ⟨c0, c4⟩ := finite_of_add' b1
  obtain ⟨c1, c5⟩ := finite_of_add' b2
  obtain ⟨c2, c6⟩ := finite_of_add' b3
  obtain ⟨c3, c7⟩ := finite_of_add' b4
  exact ((((lane 0 c0).add (lane 4 c4) b1).add ((lane 1 c1).add (lane 5 c5) b2) a1)).add
    (((lane 2 c2).add (lane 6 c6) b3).add ((lane 3 c3).add (lane 7 c7) b4) a2) hfin

omit [Libm f] in
/-- C119 [F]: and so is the vector code's. -/
theorem C119_spd_avx (hf : Spec.Roomy f) (wx wy wz s t : SPD (FP f))
    (hw : ∀ i, ((wx.values i).isFinite = true ∧ Spec.NotTiny 80 (wx.values i)) ∧
      ((wy.values i).isFinite = true ∧ Spec.NotTiny 80 (wy.values i)) ∧
      ((wz.values i).isFinite = true ∧ Spec.NotTiny 80 (wz.values i)))
    (h : Spec.StopsSPD k s t) (ht : ∀ i, Spec.NotTiny 40 (s.values i))
    (hfin : Spec.FiniteXYZ (spdToXyzAvx wx wy wz t)) :
    Spec.StopsXYZ k (spdToXyzAvx wx wy wz s) (spdToXyzAvx wx wy wz t) := by
  have hl := hf.lower
  exact ⟨avx_stops wx s t (fun i => ⟨(hw i).1.1, (ht i).mul (hw i).1.2 (by push_cast; omega)⟩) h hfin.1,
    avx_stops wy s t (fun i => ⟨(hw i).2.1.1, (ht i).mul (hw i).2.1.2 (by push_cast; omega)⟩) h hfin.2.1,
    avx_stops wz s t (fun i => ⟨(hw i).2.2.1, (ht i).mul (hw i).2.2.2 (by push_cast; omega)⟩) h hfin.2.2⟩

theorem two_fin (hf : Spec.Roomy f) : (Flt.lit 2 : FP f).isFinite = true ∧ (Flt.lit 2 : FP f).val = 2 := by
  have h : (2:ℕ) ≤ 2 ^ f.p := le_trans (by norm_num) (Nat.pow_le_pow_right (by norm_num) hf.bits)
  have e : (Flt.lit 2 : FP f) = FP.fin ((2 : ℕ) : ℚ) (FP.isRep_nat 2 h) := by
    rw [← FP.lit_nat 2 h (by norm_num)]; rfl
  rw [e]; exact ⟨rfl, by simp [FP.val]⟩

theorem stops_double (hf : Spec.Roomy f) (x : FP f) (h : (x * Flt.lit 2).isFinite = true) :
    Spec.Stops 1 x (x * Flt.lit 2) := by
  obtain ⟨t1, t2⟩ := two_fin hf
  have hx := (finite_of_mul' h).1
  refine ⟨hx, h, ?_⟩
  rw [FP.mul_finite_eq hx t1] at h ⊢
  obtain ⟨r1, -⟩ := FP.val_rep x
  rw [(FP.ofQ_finite _ (ofQ_round_of_finite h)).2, t2, mul_comm, show (2:ℚ) * x.val = 2 ^ 1 * x.val by ring,
    roundQ_scale 1 (Or.inr r1), r1]

/-- C119 [F]: multiplying a colour by 2 makes it exactly one stop brighter, unless it overflows. -/
theorem C119_double (hf : Spec.Roomy f) (c : RGBf (FP f)) (h : Spec.FiniteRGB (c * (Flt.lit 2 : FP f))) :
    Spec.StopsRGB 1 c (c * (Flt.lit 2 : FP f)) :=
  ⟨stops_double hf _ h.1, stops_double hf _ h.2.1, stops_double hf _ h.2.2⟩

end

/-! ### the shipped tables -/

instance (j : ℕ) {f : Fmt} (x : FP f) : Decidable (Spec.NotTiny j x) :=
  inferInstanceAs (Decidable (x.val = 0 ∨ 1 / 2 ^ j ≤ |x.val|))

instance {f : Fmt} (m : Matrix33 (FP f)) : Decidable (Spec.PlainMatrix m) :=
  inferInstanceAs (Decidable (∀ i j, (m.get i j).isFinite = true ∧ Spec.NotTiny 20 (m.get i j)))

/-- the shipped colour spaces whose matrices are printed in the source: sRGB, Adobe RGB, Alexa Wide Gamut and ACES -/
def printedSpaces (f : Fmt) [Libm f] : List (ColorSpaceRGB (FP f)) :=
  [Shipped.srgb (FP.ofQ f false), Shipped.adobeRgb1998 (FP.ofQ f false), Shipped.alexaWideGamut (FP.ofQ f false),
    Shipped.aces (FP.ofQ f false)]

theorem printed_plain32 [Libm Fmt.b32] : ∀ s ∈ printedSpaces Fmt.b32, Spec.PlainMatrix s.xf_rgb_to_xyz ∧
    Spec.PlainMatrix s.xf_xyz_to_rgb := by
  unfold printedSpaces
  simp only [List.forall_mem_cons, List.not_mem_nil, IsEmpty.forall_iff, implies_true, and_true]
  exact of_decide_eq_true (by krefl)
theorem printed_plain64 [Libm Fmt.b64] : ∀ s ∈ printedSpaces Fmt.b64, Spec.PlainMatrix s.xf_rgb_to_xyz ∧
    Spec.PlainMatrix s.xf_xyz_to_rgb := by
  unfold printedSpaces
  simp only [List.forall_mem_cons, List.not_mem_nil, IsEmpty.forall_iff, implies_true, and_true]
  exact of_decide_eq_true (by krefl)

def plainW (w : SPD (FP Fmt.b32)) : Bool :=
  (List.finRange 40).all fun i => (w.values i).isFinite && decide (Spec.NotTiny 80 (w.values i))

theorem plainW_iff {w : SPD (FP Fmt.b32)} (h : plainW w = true) (i : Fin 40) :
    (w.values i).isFinite = true ∧ Spec.NotTiny 80 (w.values i) := by
  have := List.all_eq_true.1 h i (List.mem_finRange i)
  simpa using this

theorem plain_wX [Libm Fmt.b32] : plainW (wX : SPD (FP Fmt.b32)) = true := by krefl
theorem plain_wY [Libm Fmt.b32] : plainW (wY : SPD (FP Fmt.b32)) = true := by krefl
theorem plain_wZ [Libm Fmt.b32] : plainW (wZ : SPD (FP Fmt.b32)) = true := by krefl

theorem w_plain32 [Libm Fmt.b32] (i : Fin 40) : (((wX : SPD (FP Fmt.b32)).values i).isFinite = true ∧
      Spec.NotTiny 80 ((wX : SPD (FP Fmt.b32)).values i)) ∧
    (((wY : SPD (FP Fmt.b32)).values i).isFinite = true ∧ Spec.NotTiny 80 ((wY : SPD (FP Fmt.b32)).values i)) ∧
    (((wZ : SPD (FP Fmt.b32)).values i).isFinite = true ∧ Spec.NotTiny 80 ((wZ : SPD (FP Fmt.b32)).values i)) :=
  ⟨plainW_iff plain_wX i, plainW_iff plain_wY i, plainW_iff plain_wZ i⟩

/-- C119 [F]: in f32 and f64, with the matrices of sRGB, Adobe RGB, Alexa Wide Gamut or ACES, linear light one stop brighter
has exactly twice the X, Y and Z, whatever the colour. -/
theorem C119_printed {f : Fmt} [Libm f] (hf : f = Fmt.b32 ∨ f = Fmt.b64) (s : ColorSpaceRGB (FP f)) (hs : s ∈ printedSpaces f)
    (c : RGBf (FP f)) (h2 : Spec.FiniteRGB (c * (Flt.lit 2 : FP f))) (hc : Spec.NotTinyRGB 60 c)
    (hd : Spec.FiniteXYZ (rgbToXyz s.xf_rgb_to_xyz (c * (Flt.lit 2 : FP f)))) :
    Spec.StopsXYZ 1 (rgbToXyz s.xf_rgb_to_xyz c) (rgbToXyz s.xf_rgb_to_xyz (c * (Flt.lit 2 : FP f))) := by
  rcases hf with rfl | rfl
  · exact C119_rgb_to_xyz roomy_b32 _ (printed_plain32 s hs).1 _ _ (C119_double roomy_b32 c h2) hc hd
  · exact C119_rgb_to_xyz roomy_b64 _ (printed_plain64 s hs).1 _ _ (C119_double roomy_b64 c h2) hc hd

/-- C119 [F]: a spectrum `k` stops brighter has, by either code path and with the shipped weights, exactly `2^k` times the X, Y
and Z. -/
theorem C119_spd [Libm Fmt.b32] (avx : Bool) (k : ℕ) (s t : SPD (FP Fmt.b32)) (h : Spec.StopsSPD k s t)
    (ht : ∀ i, Spec.NotTiny 40 (s.values i)) (hfin : Spec.FiniteXYZ (SPD.toXyz avx t)) :
    Spec.StopsXYZ k (SPD.toXyz avx s) (SPD.toXyz avx t) := by
  cases avx
  · exact C119_spd_scalar roomy_b32 _ _ _ s t w_plain32 h ht hfin
  · exact C119_spd_avx roomy_b32 _ _ _ s t w_plain32 h ht hfin

/-- Not vacuous: the colour (0.25, -0.1, 3) and its double. -/
example [Libm Fmt.b32] : ∃ c : RGBf (FP Fmt.b32), c.r.val = 1 / 4 ∧ Spec.NotTinyRGB 60 c ∧
    Spec.FiniteRGB (c * (Flt.lit 2 : FP Fmt.b32)) ∧ ∃ s ∈ printedSpaces Fmt.b32,
    Spec.FiniteXYZ (rgbToXyz s.xf_rgb_to_xyz (c * (Flt.lit 2 : FP Fmt.b32))) := by
  refine ⟨⟨FP.lit (1 / 4), FP.lit (-1 / 10), FP.lit 3⟩, of_decide_eq_true (by krefl), ?_, ?_, _, List.mem_cons_self .., ?_⟩
  · unfold Spec.NotTinyRGB; exact of_decide_eq_true (by krefl)
  · unfold Spec.FiniteRGB; exact of_decide_eq_true (by krefl)
  · unfold Spec.FiniteXYZ; exact of_decide_eq_true (by krefl)

/-- Not vacuous: the constant spectra 1/8 and 1/2 are two stops apart. -/
example [Libm Fmt.b32] : ∃ s t : SPD (FP Fmt.b32), Spec.StopsSPD 2 s t ∧ (∀ i, Spec.NotTiny 40 (s.values i)) ∧
    Spec.FiniteXYZ (SPD.toXyz true t) ∧ Spec.FiniteXYZ (SPD.toXyz false t) := by
  refine ⟨SPD.constant (FP.lit (1 / 8)), SPD.constant (FP.lit (1 / 2)), fun _ => ?_, fun _ => ?_, ?_, ?_⟩
  · unfold Spec.Stops; exact of_decide_eq_true (by krefl)
  · show Spec.NotTiny 40 (FP.lit (1 / 8) : FP Fmt.b32); exact of_decide_eq_true (by krefl)
  · unfold Spec.FiniteXYZ; exact of_decide_eq_true (by krefl)
  · unfold Spec.FiniteXYZ; exact of_decide_eq_true (by krefl)

/-- Not vacuous: (25, 50, 12.5) and (100, 200, 50) have the same chromaticity. -/
example [Libm Fmt.b32] : Flt.eqb (XYY.fromXyz (⟨FP.lit 25, FP.lit 50, FP.lit 12.5⟩ : XYZ (FP Fmt.b32))).x
    (XYY.fromXyz ⟨FP.lit 100, FP.lit 200, FP.lit 50⟩).x = true :=
  (C119_chromaticity (k := 2) roomy_b32 _ _ (by unfold Spec.StopsXYZ Spec.Stops; exact of_decide_eq_true (by krefl))
    (by unfold Spec.NotTinyXYZ; exact of_decide_eq_true (by krefl)) (of_decide_eq_true (by krefl))
    (of_decide_eq_true (by krefl))).1

end CS

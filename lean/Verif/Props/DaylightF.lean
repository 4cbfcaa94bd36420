import Verif.Lemmas.FPNear
import Verif.Props.Ciede

/-!
# Daylight chromaticities in floating point (C95)
-/

namespace CS
section
variable {f : Fmt} [Libm f]

/-- a literal outside the range of `Std.lit`, checked by evaluation -/
def litCheck (f : Fmt) (q : ℚ) : Bool :=
  (FP.lit q : FP f).isFinite &&
    decide (|(FP.lit q : FP f).val - q| ≤ q * (f.u * (1 + 1 / 2 ^ 20))) && decide (0 < q)

theorem litCheck_sound (hf : Std f) {q : ℚ} (h : litCheck f q = true) : RelF 1 (FP.lit q : FP f) (q : ℝ) := by
  unfold litCheck at h
  simp only [Bool.and_eq_true, decide_eq_true_eq] at h
  obtain ⟨⟨h1, h2⟩, h3⟩ := h
  exact ⟨h1, relE_kap hf (by exact_mod_cast h3) le_rfl (by norm_num) (by rw [one_mul]; qcast h2)⟩

/-- the sum of four terms in both branches -/
theorem daylight_x (hf : Std f) {A B C D t : FP f} {a b c d : ℝ} (hA : RelF 1 A a) (hB : RelF 1 B b)
    (hC : RelF 1 C c) (hD : Nr D d 0.2453) (ht : t.isFinite = true) (h0 : (4000:ℝ) ≤ t.val)
    (h1 : (t.val : ℝ) ≤ 25000) (a1 : 10 ^ 9 ≤ a) (b1 : 10 ^ 6 ≤ b) (c1 : 90 ≤ c)
    (d0 : 0.23 ≤ d) (d1 : d ≤ 0.245) (a2 : a / ((t.val : ℝ) * t.val * t.val) ≤ 0.072)
    (b2 : b / ((t.val : ℝ) * t.val) ≤ 0.186) (c2 : c / (t.val : ℝ) ≤ 0.036) :
    Nr (-A / (t * t * t) + B / (t * t) + C / t + D)
      (-a / ((t.val : ℝ) * t.val * t.val) + b / ((t.val : ℝ) * t.val) + c / (t.val : ℝ) + d) 2.1 := by
  have tp : 0 < t.val := by
    have : (0:ℝ) < t.val := by linarith
    exact_mod_cast this
  have T : RelF 0 t (t.val : ℝ) := RelF.exact ht tp
  generalize hx : (t.val : ℝ) = x at *
  have x0 : 0 < x := by linarith
  have x2 : 16000000 ≤ x * x := by nlinarith
  have x2' : x * x ≤ 625000000 := by nlinarith
  have x3 : 64000000000 ≤ x * x * x := by nlinarith
  have x3' : x * x * x ≤ 15625000000000 := by nlinarith
  have T2 := T.mul hf T le_rfl le_rfl (by norm_num) (by norm_num; linarith) (by norm_num; linarith)
  have T3 := T2.mul hf T (by norm_num) le_rfl (by norm_num) (by norm_num; linarith) (by norm_num; linarith)
  have lowA : 1 / 2 ^ 59 ≤ a / (x * x * x) := by
    rw [le_div_iff₀ (by positivity)]; norm_num at a1 ⊢; linarith
  have lowB : 1 / 2 ^ 59 ≤ b / (x * x) := by
    rw [le_div_iff₀ (by positivity)]; norm_num at b1 ⊢; linarith
  have lowC : 1 / 2 ^ 59 ≤ c / x := by
    rw [le_div_iff₀ (by positivity)]; norm_num at c1 ⊢; linarith
  have qa := hA.div hf T3 (by norm_num) (by norm_num) (by norm_num) lowA (le_trans a2 (by norm_num))
  have qb := hB.div hf T2 (by norm_num) (by norm_num) (by norm_num) lowB (le_trans b2 (by norm_num))
  have qc := hC.div hf T (by norm_num) (by norm_num) (by norm_num) lowC (le_trans c2 (by norm_num))
  have na := Nr.of_rel hf qa (by norm_num) (by norm_num) a2
  have nb := Nr.of_rel hf qb (by norm_num) (by norm_num) b2
  have nc := Nr.of_rel hf qc (by norm_num) (by norm_num) c2
  -- the sign
  have t3v : (t * t * t).val ≠ 0 := by
    have := T3.err.bounds (RelF.small hf (by norm_num) (by norm_num)).1
      (le_trans (RelF.small hf (by norm_num) (by norm_num)).2 (by norm_num))
    intro h
    rw [h] at this
    norm_num at this
    linarith [this.1]
  have hq : |A.val / (t * t * t).val| ≤ 2 ^ f.emax := by
    refine Nr.small_abs hf ?_
    have hA' := hA.err.bounds (RelF.small hf (by norm_num) (by norm_num)).1
      (le_trans (RelF.small hf (by norm_num) (by norm_num)).2 (by norm_num))
    have hT' := T3.err.bounds (RelF.small hf (by norm_num) (by norm_num)).1
      (le_trans (RelF.small hf (by norm_num) (by norm_num)).2 (by norm_num))
    push_cast
    have p1 : (0:ℝ) < (t * t * t).val := by linarith [hT'.1]
    have p2 : (0:ℝ) < A.val := by linarith [hA'.1]
    rw [abs_of_pos (by positivity), div_le_iff₀ p1]
    have h3 : a ≤ 0.072 * (x * x * x) := by rwa [div_le_iff₀ (by positivity)] at a2
    norm_num
    linarith [hA'.2, hT'.1]
  obtain ⟨s1, s2⟩ := neg_div_val hf hA.fin T3.fin t3v hq
  have na' : Nr (-A / (t * t * t)) (-a / (x * x * x)) (1.001 * (1 + (0 + 0 + 1 + 0 + 1) + 1) * 0.072) := by
    have := na.neg
    refine ⟨s1, ?_⟩
    rw [s2, neg_div]
    have h := this.err
    rwa [(FP.neg_finite na.fin).2] at h
  have ga : 0 ≤ a / (x * x * x) := by positivity
  have gb : 0 ≤ b / (x * x) := by positivity
  have gc : 0 ≤ c / x := by positivity
  have r1 := na'.add hf nb (B := 0.186) (K := 1.035)
    (by rw [neg_div, _root_.abs_le]; constructor <;> linarith) (by norm_num) (by norm_num) (by norm_num)
  have r2 := r1.add hf nc (B := 0.222) (K := 1.331)
    (by rw [neg_div, _root_.abs_le]; constructor <;> linarith) (by norm_num) (by norm_num) (by norm_num)
  exact r2.add hf hD (B := 0.467)
    (by rw [neg_div, _root_.abs_le]; constructor <;> linarith) (by norm_num) (by norm_num) (by norm_num)

/-- the locus -/
theorem daylight_y (hf : Std f) {x : FP f} {X : ℝ} (h : Nr x X 2.1) (h0 : 0.15 ≤ X) (h1 : X ≤ 0.467) :
    Nr (-FP.lit 3.0 * x * x + FP.lit 2.870 * x - FP.lit 0.275) (-3 * X * X + 2.87 * X - 0.275) 18.1 := by
  have l3 := ((Nr.lit (f := f) hf (q := 3.0) (by norm_num) (by norm_num)).congr
    (show ((3.0 : ℚ) : ℝ) = 3 by norm_num)).neg
  have l28 := (Nr.lit (f := f) hf (q := 2.870) (by norm_num) (by norm_num)).congr
    (show ((2.870 : ℚ) : ℝ) = 2.87 by norm_num)
  have l2 := (Nr.lit (f := f) hf (q := 0.275) (by norm_num) (by norm_num)).congr
    (show ((0.275 : ℚ) : ℝ) = 0.275 by norm_num)
  have ax : |X| ≤ 0.467 := by rw [abs_of_nonneg (by linarith)]; exact h1
  have m1 := l3.mul hf h (A := 3) (B := 0.467) (P := 1.401) (K := 9.14) (by norm_num) ax
    (by rw [_root_.abs_le]; constructor <;> linarith) (by norm_num) (by norm_num) (by norm_num)
  have m2 := m1.mul hf h (A := 1.401) (B := 0.467) (P := 0.655) (K := 7.9)
    (by rw [_root_.abs_le]; constructor <;> linarith) ax
    (by rw [_root_.abs_le]; constructor <;> nlinarith) (by norm_num) (by norm_num) (by norm_num)
  have m3 := l28.mul hf h (A := 2.87) (B := 0.467) (P := 1.341) (K := 8.74) (by norm_num [abs_of_pos]) ax
    (by rw [_root_.abs_le]; constructor <;> linarith) (by norm_num) (by norm_num) (by norm_num)
  have s := m2.add hf m3 (B := 0.69) (K := 17.34)
    (by rw [_root_.abs_le]; constructor <;> nlinarith [sq_nonneg (X - 0.478)]) (by norm_num)
    (by norm_num) (by norm_num)
  exact s.sub hf l2 (B := 0.42)
    (by rw [_root_.abs_le]; constructor <;> nlinarith [sq_nonneg (X - 0.478)]) (by norm_num)
    (by norm_num) (by norm_num)

/-- the range of the exact formula -/
theorem daylight_range (t : ℝ) (h0 : 4000 ≤ t) (h1 : t ≤ 25000) :
    0.15 ≤ Spec.daylightX t ∧ Spec.daylightX t ≤ 0.467 := by
  have t0 : 0 < t := by linarith
  have i0 : 0 < 1 / t := by positivity
  have i1 : 1 / t ≤ 1 / 4000 := one_div_le_one_div_of_le (by norm_num) h0
  have e : Spec.daylightX t = if t ≤ 7000 then
      0.244063 + 99.11 * (1 / t) + 2967800 * (1 / t) ^ 2 - 4607000000 * (1 / t) ^ 3
      else 0.237040 + 247.48 * (1 / t) + 1901800 * (1 / t) ^ 2 - 2006400000 * (1 / t) ^ 3 := by
    unfold Spec.daylightX
    split_ifs
    · field_simp; ring
    · field_simp; ring
  rw [e]
  generalize 1 / t = i at *
  have i2 : i * i ≤ i / 4000 := by nlinarith
  have i20 : 0 ≤ i * i := by positivity
  have i3 : i ^ 3 ≤ i * i / 4000 := by nlinarith
  have i30 : 0 ≤ i ^ 3 := by positivity
  have e2 : i ^ 2 = i * i := by ring
  rw [e2]
  split_ifs <;> constructor <;> linarith

/-- C95 [F]: in single and double precision, for every temperature from 4000 K to 25000 K, `cct`
returns a chromaticity whose `x` is within 2.1 units of rounding of the CIE daylight formula and whose
`y` is within 18.1 units of rounding of the daylight locus there. -/
theorem C95_daylight (hf : f = Fmt.b32 ∨ f = Fmt.b64) (t : FP f) (ht : t.isFinite = true)
    (h0 : 4000 ≤ t.val) (h1 : t.val ≤ 25000) :
    ∃ p, cct t = some p ∧
      (p.x.isFinite = true ∧ |(p.x.val : ℝ) - Spec.daylightX t.val| ≤ (2.1:ℝ) * f.u) ∧
      (p.y.isFinite = true ∧ |(p.y.val : ℝ) - (-3 * Spec.daylightX t.val ^ 2
        + 2.870 * Spec.daylightX t.val - 0.275)| ≤ (18.1:ℝ) * f.u) ∧
      (p.Y.isFinite = true ∧ p.Y.val = 1) := by
  have hs : Std f := by
    rcases hf with rfl | rfl
    · exact std_b32
    · exact std_b64
  have g0 : (4000:ℝ) ≤ t.val := by exact_mod_cast h0
  have g1 : (t.val:ℝ) ≤ 25000 := by exact_mod_cast h1
  have x0 : (0:ℝ) < t.val := by linarith
  obtain ⟨e4, v4⟩ := lit_natural (f := f) hs 4000 (by norm_num) (by norm_num) 4000.0 (by norm_num)
  obtain ⟨e7, v7⟩ := lit_natural (f := f) hs 7000 (by norm_num) (by norm_num) 7000.0 (by norm_num)
  obtain ⟨e25, v25⟩ := lit_natural (f := f) hs 25000 (by norm_num) (by norm_num) 25000.0 (by norm_num)
  obtain ⟨eo, vo⟩ := lit_natural (f := f) hs 1 (by norm_num) (by norm_num) 1.0 (by norm_num)
  have c1 : Flt.lt t (Flt.lit 4000.0 : FP f) = false := by
    show FP.lt t (FP.lit 4000.0) = false
    rw [FP.lt_finite ht e4, v4]; simpa using h0
  have c2 : Flt.gt t (Flt.lit 25000.0 : FP f) = false := by
    show FP.lt (FP.lit 25000.0) t = false
    rw [FP.lt_finite e25 ht, v25]; simpa using h1
  have c3 : Flt.le t (Flt.lit 7000.0 : FP f) = decide (t.val ≤ 7000) := by
    show FP.le t (FP.lit 7000.0) = _
    rw [FP.le_finite ht e7, v7]; norm_cast
  have big : ∀ q : ℚ, q ∈ [4.607e9, 2.9678e6, 2.0064e9, 1.9018e6] → RelF 1 (FP.lit q : FP f) (q : ℝ) := by
    intro q hq
    apply litCheck_sound hs
    rcases hf with rfl | rfl <;>
    · simp only [List.mem_cons, List.not_mem_nil, or_false] at hq
      rcases hq with rfl | rfl | rfl | rfl <;> krefl
  have cube : 0 < (t.val:ℝ) * t.val * t.val := by positivity
  unfold cct
  simp only [c1, c2, c3, Bool.or_self, Bool.false_eq_true, if_false]
  by_cases h7 : t.val ≤ 7000
  · simp only [h7, decide_true, if_true]
    have g7 : (t.val:ℝ) ≤ 7000 := by exact_mod_cast h7
    have lc := RelF.litE (f := f) hs (q := 0.09911e3) (by norm_num) (by norm_num)
    have ld := (Nr.lit (f := f) hs (q := 0.244063) (by norm_num) (by norm_num)).mono
      (l := 0.2453) (by norm_num)
    have hx := daylight_x hs (big 4.607e9 (by simp)) (big 2.9678e6 (by simp)) lc ld ht g0 g1
      (by norm_num) (by norm_num) (by norm_num) (by norm_num) (by norm_num)
      (by rw [div_le_iff₀ cube]; norm_num; nlinarith [mul_self_nonneg ((t.val:ℝ))])
      (by rw [div_le_iff₀ (by positivity)]; norm_num; nlinarith)
      (by rw [div_le_iff₀ x0]; norm_num; linarith)
    have e : -((4.607e9 : ℚ) : ℝ) / ((t.val : ℝ) * t.val * t.val) + ((2.9678e6 : ℚ) : ℝ) / ((t.val : ℝ) * t.val)
        + ((0.09911e3 : ℚ) : ℝ) / (t.val : ℝ) + ((0.244063 : ℚ) : ℝ) = Spec.daylightX t.val := by
      unfold Spec.daylightX
      rw [if_pos g7]
      field_simp
      norm_num
      ring
    rw [e] at hx
    have rng := daylight_range t.val g0 g1
    have hy := daylight_y hs hx rng.1 rng.2
    refine ⟨_, rfl, ⟨hx.fin, hx.err⟩, ⟨hy.fin, ?_⟩, eo, by rw [show (Flt.lit 1.0 : FP f) = FP.lit 1.0 from rfl, vo]; norm_num⟩
    have := hy.err
    rw [show ∀ X : ℝ, -3 * X ^ 2 + 2.870 * X - 0.275 = -3 * X * X + 2.87 * X - 0.275 by intro X; ring]
    exact this
  · simp only [h7, decide_false, Bool.false_eq_true, if_false]
    have g7 : (7000:ℝ) < t.val := by push Not at h7; exact_mod_cast h7
    have lc := RelF.litE (f := f) hs (q := 0.24748e3) (by norm_num) (by norm_num)
    have ld := (Nr.lit (f := f) hs (q := 0.237040) (by norm_num) (by norm_num)).mono
      (l := 0.2453) (by norm_num)
    have hx := daylight_x hs (big 2.0064e9 (by simp)) (big 1.9018e6 (by simp)) lc ld ht g0 g1
      (by norm_num) (by norm_num) (by norm_num) (by norm_num) (by norm_num)
      (by rw [div_le_iff₀ cube]; norm_num; nlinarith [mul_self_nonneg ((t.val:ℝ))])
      (by rw [div_le_iff₀ (by positivity)]; norm_num; nlinarith)
      (by rw [div_le_iff₀ x0]; norm_num; linarith)
    have e : -((2.0064e9 : ℚ) : ℝ) / ((t.val : ℝ) * t.val * t.val) + ((1.9018e6 : ℚ) : ℝ) / ((t.val : ℝ) * t.val)
        + ((0.24748e3 : ℚ) : ℝ) / (t.val : ℝ) + ((0.237040 : ℚ) : ℝ) = Spec.daylightX t.val := by
      unfold Spec.daylightX
      rw [if_neg (not_le.2 g7)]
      field_simp
      norm_num
      ring
    rw [e] at hx
    have rng := daylight_range t.val g0 g1
    have hy := daylight_y hs hx rng.1 rng.2
    refine ⟨_, rfl, ⟨hx.fin, hx.err⟩, ⟨hy.fin, ?_⟩, eo, by rw [show (Flt.lit 1.0 : FP f) = FP.lit 1.0 from rfl, vo]; norm_num⟩
    have := hy.err
    rw [show ∀ X : ℝ, -3 * X ^ 2 + 2.870 * X - 0.275 = -3 * X * X + 2.87 * X - 0.275 by intro X; ring]
    exact this

/-- C95 [F]: so the result is a chromaticity inside the triangle of all chromaticities. -/
theorem C95_daylight_valid (hf : f = Fmt.b32 ∨ f = Fmt.b64) (t : FP f) (ht : t.isFinite = true)
    (h0 : 4000 ≤ t.val) (h1 : t.val ≤ 25000) :
    ∃ p, cct t = some p ∧ p.x.isFinite = true ∧ p.y.isFinite = true ∧
      0 < p.x.val ∧ 0 < p.y.val ∧ p.x.val + p.y.val < 1 := by
  have hs : Std f := by
    rcases hf with rfl | rfl
    · exact std_b32
    · exact std_b64
  obtain ⟨p, hp, ⟨x1, x2⟩, ⟨y1, y2⟩, _⟩ := C95_daylight hf t ht h0 h1
  obtain ⟨r1, r2⟩ := daylight_range t.val (by exact_mod_cast h0) (by exact_mod_cast h1)
  obtain ⟨u0, u1, _, _⟩ := u_facts hs
  generalize Spec.daylightX t.val = X at *
  have m1 : 0.08 ≤ -3 * X ^ 2 + 2.870 * X - 0.275 := by nlinarith
  have m2 : X + (-3 * X ^ 2 + 2.870 * X - 0.275) ≤ 0.9 := by nlinarith
  generalize -3 * X ^ 2 + 2.870 * X - 0.275 = Y at *
  obtain ⟨a1, a2⟩ := _root_.abs_le.1 x2
  obtain ⟨b1, b2⟩ := _root_.abs_le.1 y2
  norm_num at u1
  refine ⟨p, hp, x1, y1, ?_, ?_, ?_⟩
  · have : (0:ℝ) < p.x.val := by linarith
    exact_mod_cast this
  · have : (0:ℝ) < p.y.val := by linarith
    exact_mod_cast this
  · have : (p.x.val : ℝ) + p.y.val < 1 := by linarith
    exact_mod_cast this

/-- Not vacuous: 6504 K, the temperature of D65. -/
example : ∃ t : FP Fmt.b32, t.isFinite = true ∧ 4000 ≤ t.val ∧ t.val ≤ 25000 :=
  ⟨FP.fin 6504 (by decide +kernel), rfl, by norm_num [FP.val], by norm_num [FP.val]⟩

end
end CS

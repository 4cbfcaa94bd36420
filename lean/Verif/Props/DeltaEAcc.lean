import Verif.Lemmas.FPDeltaE5
import Verif.Lemmas.IdealMath
import Verif.Props.Ciede
import Verif.Props.DeltaEBound
import Verif.Props.DeltaE76F

/-!
# CIEDE2000 in floating point agrees with the published formula (C106)
-/
set_option linter.unusedSimpArgs false

namespace CS
variable {f : Fmt}

/-- A colour with ordinary coordinates: finite, at most 128 in size, and `a` and `b` either zero or not smaller
than 2^-60. -/
def Spec.Ordinary (c : Lab (FP f)) : Prop :=
  Spec.FinLab c ∧ |c.L.val| ≤ 128 ∧ |c.a.val| ≤ 128 ∧ |c.b.val| ≤ 128 ∧
  (c.a.val = 0 ∨ 1 / 2 ^ 60 ≤ |c.a.val|) ∧ (c.b.val = 0 ∨ 1 / 2 ^ 60 ≤ |c.b.val|)

/-- A colour that is not grey. -/
def Spec.Coloured (c : Lab (FP f)) : Prop := ¬(c.a.val = 0 ∧ c.b.val = 0)

/-- Two hues in degrees are clear of the seams of CIEDE2000: they are not within 1/1000 degree of being opposite,
and if the shorter arc between them passes through hue 0 then their mean is not within 1/2000 degree of it. -/
def Spec.HuesApart (h₁ h₂ : ℝ) : Prop :=
  1 / 1000 ≤ |(|Spec.wrap h₁ - Spec.wrap h₂|) - 180| ∧
  (180 < |Spec.wrap h₁ - Spec.wrap h₂| → 1 / 1000 ≤ |Spec.wrap h₁ + Spec.wrap h₂ - 360|)

section
variable [Libm f]

theorem ciede_real (c d : Lab ℝ) {G P Q H K : ℝ}
    (hG : G = 1 + ciedeG ((Real.sqrt (c.a ^ 2 + c.b ^ 2) + Real.sqrt (d.a ^ 2 + d.b ^ 2)) / 2))
    (hP : P = Real.sqrt ((G * c.a) ^ 2 + c.b ^ 2)) (hQ : Q = Real.sqrt ((G * d.a) ^ 2 + d.b ^ 2))
    (hH : H = hueDeg c.b (G * c.a)) (hK : K = hueDeg d.b (G * d.a)) :
    deltaE2000 c d = Real.sqrt (qform (ciedeRT ((P + Q) / 2) (meanHue P Q H K)) ((d.L - c.L) / ciedeSL ((c.L + d.L) / 2))
      ((Q - P) / ciedeSC ((P + Q) / 2))
      (2 * Real.sqrt (P * Q) * Real.sin (Flt.toRad (deltaHue P Q H K / 2)) / ciedeSH ((P + Q) / 2) (meanHue P Q H K))) := by
  have e : ciede c d = ⟨d.L - c.L, Q - P, 2 * Real.sqrt (P * Q) * Real.sin (Flt.toRad (deltaHue P Q H K / 2)), (c.L + d.L) / 2,
      (P + Q) / 2, meanHue P Q H K⟩ := by
    subst hH hK hP hQ hG
    simp only [ciede, flt_lit, flt_hypot, flt_sqrt, flt_sin]
    norm_num only [Rat.cast_ofNat, Rat.cast_one]
  show Real.sqrt (ciedeRadicand (ciede c d)) = _
  rw [radicand_form, e, qform]

theorem finite_ext {a b : FP f} (ha : a.isFinite = true) (hb : b.isFinite = true) (h : a.val = b.val) (h0 : b.val ≠ 0) : a = b := by
  cases a with
  | fin x hx =>
    cases b with
    | fin y hy => simp only [FP.val] at h; subst h; rfl
    | nzero => simp [FP.val] at h0
    | nan => simp [FP.isFinite] at hb
    | pinf => simp [FP.isFinite] at hb
    | ninf => simp [FP.isFinite] at hb
  | nzero => simp only [FP.val] at h; exact absurd h.symm h0
  | nan => simp [FP.isFinite] at ha
  | pinf => simp [FP.isFinite] at ha
  | ninf => simp [FP.isFinite] at ha

/-- multiplying by one changes nothing -/
theorem unit_mul (hf : Std f) {b : FP f} (hb : In b 1 8192) : Flt.lit 1.0 * b = b := by
  have l : In (Flt.lit 1.0 : FP f) 1 1 := in_lit hf (by short) (by short) (by norm_num) (by norm_num)
  have v : (Flt.lit 1.0 : FP f).val = 1 := le_antisymm l.2.2 l.2.1
  have h1 : (b.val : ℝ) ≤ 8192 := by exact_mod_cast hb.2.2
  have h0 : (1:ℝ) ≤ b.val := by exact_mod_cast hb.2.1
  obtain ⟨a, e⟩ := FP.mul_finite' l.1 hb.1 (roundQ_lt (Nr.small_abs hf (q := (Flt.lit 1.0 : FP f).val * b.val) (by
    rw [v, one_mul, abs_of_nonneg (by linarith)]; norm_num; linarith)))
  refine finite_ext a hb.1 ?_ (by linarith [hb.2.1])
  rw [e, v, one_mul, FP.round_val]

theorem root_le {x y X Y B : ℝ} (hx : |x| ≤ X) (hy : |y| ≤ Y) (hB : X ^ 2 + Y ^ 2 ≤ B ^ 2) (B0 : 0 ≤ B) :
    Real.sqrt (x ^ 2 + y ^ 2) ≤ B := by
  rw [Real.sqrt_le_left B0, ← sq_abs x, ← sq_abs y]
  have h1 := pow_le_pow_left₀ (abs_nonneg _) hx 2
  have h2 := pow_le_pow_left₀ (abs_nonneg _) hy 2
  linarith

/-- a chroma is zero exactly when both coordinates are -/
theorem root_zero {x y : ℝ} : Real.sqrt (x ^ 2 + y ^ 2) = 0 ↔ x = 0 ∧ y = 0 := by
  rw [Real.sqrt_eq_zero (by positivity)]
  constructor
  · intro h
    constructor
    · nlinarith [sq_nonneg x, sq_nonneg y]
    · nlinarith [sq_nonneg x, sq_nonneg y]
  · rintro ⟨rfl, rfl⟩; norm_num

set_option maxHeartbeats 2000000 in
/-- from chromas and hues to the difference -/
theorem acc_stage (hf : Std f) (hm : Spec.MathAccurate f) (he : f.eta ≤ f.u ^ 2 / 2 ^ 30) {l1 l2 p q h1 h2 : FP f} {P Q H K : ℝ}
    (l1f : l1.isFinite = true) (l2f : l2.isFinite = true) (b1 : |(l1.val : ℝ)| ≤ 128) (b2 : |(l2.val : ℝ)| ≤ 128)
    (hp : Rz 84.2 p P) (hq : Rz 84.2 q Q) (hk : Rz 86.3 ((p + q) / Flt.lit 2.0) ((P + Q) / 2)) (P1 : P ≤ 232) (Q1 : Q ≤ 232)
    (ih1 : In h1 0 360) (ih2 : In h2 0 360) (H0 : 0 ≤ H ∧ H < 360) (K0 : 0 ≤ K ∧ K < 360)
    (hues : P ≠ 0 → Q ≠ 0 → Nr h1 H 4300 ∧ Nr h2 K 4300 ∧ 1 / 1000 ≤ |(|H - K|) - 180| ∧ (180 < |H - K| → 1 / 1000 ≤ |H + K - 360|))
    (hv : In (ciedeRadicand ⟨l2 - l1, q - p, Flt.lit 2.0 * Flt.sqrt (p * q) * Flt.sin (Flt.toRad (deltaHue p q h1 h2 / Flt.lit 2.0)),
      (l1 + l2) / Flt.lit 2.0, (p + q) / Flt.lit 2.0, meanHue p q h1 h2⟩) 0 (2 ^ 27)) :
    let v : FP f := Flt.sqrt (ciedeRadicand ⟨l2 - l1, q - p, Flt.lit 2.0 * Flt.sqrt (p * q) *
      Flt.sin (Flt.toRad (deltaHue p q h1 h2 / Flt.lit 2.0)), (l1 + l2) / Flt.lit 2.0, (p + q) / Flt.lit 2.0, meanHue p q h1 h2⟩)
    let D : ℝ := Real.sqrt (qform (ciedeRT ((P + Q) / 2) (meanHue P Q H K)) (((l2.val : ℝ) - l1.val) / ciedeSL (((l1.val : ℝ) + l2.val) / 2))
      ((Q - P) / ciedeSC ((P + Q) / 2))
      (2 * Real.sqrt (P * Q) * Real.sin (Flt.toRad (deltaHue P Q H K / 2)) / ciedeSH ((P + Q) / 2) (meanHue P Q H K)))
    v.isFinite = true ∧ |(v.val : ℝ) - D| ≤ 80000 * (1 + D) * f.u := by
  intro v D
  obtain ⟨u0, u1, e1, η0⟩ := u_facts hf
  have P0 := hp.pos
  have Q0 := hq.pos
  have C1 : (P + Q) / 2 ≤ 232 := by linarith
  have C0 : 0 ≤ (P + Q) / 2 := by linarith
  have l2l : Nr (Flt.lit 2.0 : FP f) 2 0 := (Nr.whole hf 2.0 (by short)).congr (by norm_num)
  obtain ⟨b1a, b1b⟩ := abs_le.1 b1
  obtain ⟨b2a, b2b⟩ := abs_le.1 b2
  -- lightness
  have dL : |(l2.val : ℝ) - l1.val| ≤ 256 := abs_le.2 ⟨by linarith, by linarith⟩
  obtain ⟨dLf, dLe⟩ := FP.sub_err l2f l1f (Nr.small_abs hf (q := l2.val - l1.val) (by push_cast; exact dL.trans (by norm_num)))
  have dLe' : |((l2 - l1).val : ℝ) - ((l2.val : ℝ) - l1.val)| ≤ |(l2.val : ℝ) - l1.val| * f.u := by qcast dLe
  have n1 : Nr l1 l1.val 0 := ⟨l1f, by rw [sub_self, abs_zero, zero_mul]⟩
  have n2 : Nr l2 l2.val 0 := ⟨l2f, by rw [sub_self, abs_zero, zero_mul]⟩
  have s12 := Nr.add₂ hf n1 n2 (B := 256) (K := 256) (abs_le.2 ⟨by linarith, by linarith⟩) (by norm_num) (by norm_num) (by norm_num)
  have half := Nr.div₂ hf s12 l2l (b0 := 2) (Q := 128) (K := 257.4) (by norm_num) le_rfl (abs_le.2 ⟨by linarith, by linarith⟩) (by norm_num)
    (by norm_num) (by norm_num) (by norm_num)
  obtain ⟨SL, SL1⟩ := SL_near hf hm half (abs_le.2 ⟨by linarith, by linarith⟩)
  -- chroma
  obtain ⟨xf, xe⟩ := x_near hf hp hq hk P1 Q1
  obtain ⟨-, -, SC1, -⟩ := SC_near hf hk C1
  -- intervals
  have kin : In ((p + q) / Flt.lit 2.0) 0 1860 := by
    refine ⟨hk.fin, hk.nn, ?_⟩
    have h1 := (abs_le.1 hk.err).2
    have h2 : 86.3 * f.u * ((P + Q) / 2) ≤ 86.3 * (1 / 2 ^ 24) * 232 :=
      mul_le_mul (mul_le_mul_of_nonneg_left u1 (by norm_num)) C1 C0 (by norm_num)
    have : (((p + q) / Flt.lit 2.0).val : ℝ) ≤ ((1860 : ℚ) : ℝ) := by push_cast; norm_num at h2 ⊢; linarith
    exact_mod_cast this
  have mh := in_meanHue hf hm (p := p) (q := q) ih1 ih2
  have dh := in_deltaHue hf hm (p := p) (q := q) ih1 ih2
  have iSL : In (ciedeSL ((l1 + l2) / Flt.lit 2.0)) 1 8192 := by
    refine in_SL hf hm ⟨half.fin, ?_, ?_⟩
    · have h1 := (abs_le.1 half.err).1
      have : ((-1024 : ℚ) : ℝ) ≤ ((l1 + l2) / Flt.lit 2.0).val := by push_cast; norm_num at u1 ⊢; linarith
      exact_mod_cast this
    · have h1 := (abs_le.1 half.err).2
      have : (((l1 + l2) / Flt.lit 2.0).val : ℝ) ≤ ((1024 : ℚ) : ℝ) := by push_cast; norm_num at u1 ⊢; linarith
      exact_mod_cast this
  have iSC := in_SC hf hm kin
  have iSH := in_SH hf hm kin mh
  obtain ⟨iRT, -⟩ := in_RT hf hm kin mh
  obtain ⟨wf, we⟩ := quot_near hf (r := 65) dLf SL.fin dLe' (SL.err.trans (by
      have := mul_le_mul_of_nonneg_left SL1 (by positivity : (0:ℝ) ≤ 65 * f.u)
      linarith)) SL1 (abs_nonneg _) (dL.trans (by norm_num)) (by norm_num) (by norm_num) (dL.trans (by norm_num))
  have small : ∀ {n s B : ℝ}, |n| ≤ B → 1 ≤ s → |n / s| ≤ B := by
    intro n s B h hs
    rw [abs_div, abs_of_pos (by linarith : 0 < s)]
    exact (div_le_self (abs_nonneg _) hs).trans h
  have hue : ∃ y : FP f, y = Flt.lit 2.0 * Flt.sqrt (p * q) * Flt.sin (Flt.toRad (deltaHue p q h1 h2 / Flt.lit 2.0)) /
        ciedeSH ((p + q) / Flt.lit 2.0) (meanHue p q h1 h2) ∧ y.isFinite = true ∧
      |(y.val : ℝ) - 2 * Real.sqrt (P * Q) * Real.sin (Flt.toRad (deltaHue P Q H K / 2)) / ciedeSH ((P + Q) / 2) (meanHue P Q H K)| ≤
        (44700 + 2025 * |2 * Real.sqrt (P * Q) * Real.sin (Flt.toRad (deltaHue P Q H K / 2)) / ciedeSH ((P + Q) / 2) (meanHue P Q H K)|) * f.u ∧
      |2 * Real.sqrt (P * Q) * Real.sin (Flt.toRad (deltaHue P Q H K / 2)) / ciedeSH ((P + Q) / 2) (meanHue P Q H K)| ≤ 464 ∧
      (|((ciedeRT ((p + q) / Flt.lit 2.0) (meanHue p q h1 h2) : FP f).val : ℝ) - ciedeRT ((P + Q) / 2) (meanHue P Q H K)| ≤ 14600 * f.u ∨
        y.val = 0) := by
    refine ⟨_, rfl, ?_⟩
    by_cases hz : P = 0 ∨ Q = 0
    · -- a grey colour
      have PQ : P * Q = 0 := mul_eq_zero.2 hz
      have pq0 : p.val * q.val = 0 := by
        have van : ∀ {a : FP f} {A : ℝ}, Rz 84.2 a A → A = 0 → a.val = 0 := by
          intro a A h hA
          have := h.err
          rw [hA, mul_zero, sub_zero] at this
          exact_mod_cast abs_nonpos_iff.1 this
        rcases hz with h | h
        · rw [van hp h, zero_mul]
        · rw [van hq h, mul_zero]
      obtain ⟨pf, pe⟩ := FP.mul_finite' hp.fin hq.fin (roundQ_lt (by rw [pq0, abs_zero]; positivity))
      rw [pq0, roundQ_zero] at pe
      obtain ⟨-, sf, se⟩ := hm.sqrt (p * q) pf pe.ge (by rw [pe]; norm_num)
      rw [pe, Rat.cast_zero, Real.sqrt_zero, mul_zero, sub_zero] at se
      have s0 : (Flt.sqrt (p * q) : FP f).val = 0 := by exact_mod_cast abs_nonpos_iff.1 se
      have zmul : ∀ {a b : FP f}, a.isFinite = true → b.isFinite = true → a.val * b.val = 0 → (a * b).isFinite = true ∧ (a * b).val = 0 := by
        intro a b ha hb h
        obtain ⟨x, e⟩ := FP.mul_finite' ha hb (roundQ_lt (by rw [h, abs_zero]; positivity))
        exact ⟨x, by rw [e, h, roundQ_zero]⟩
      obtain ⟨t1, t2⟩ := zmul l2l.fin sf (by rw [s0, mul_zero])
      have sn := in_sin hf hm (X := 7) (in_toRad hf hm (in_half hf hm dh (by norm_num) (by norm_num) (by short) (by short) |>.mono
        (l' := -360) (h' := 360) (by norm_num) (by norm_num)) (by norm_num) (by norm_num)) (by norm_num)
      obtain ⟨t3, t4⟩ := zmul t1 sn.1 (by rw [t2, zero_mul])
      have nz : (ciedeSH ((p + q) / Flt.lit 2.0) (meanHue p q h1 h2) : FP f).val ≠ 0 := by linarith [iSH.2.1]
      obtain ⟨t5, t6⟩ := FP.div_finite' t3 iSH.1 nz (roundQ_lt (by rw [t4, _root_.zero_div, abs_zero]; positivity))
      rw [t4, _root_.zero_div, roundQ_zero] at t6
      have Y0 : 2 * Real.sqrt (P * Q) * Real.sin (Flt.toRad (deltaHue P Q H K / 2)) / (ciedeSH ((P + Q) / 2) (meanHue P Q H K) : ℝ) = 0 := by
        rw [PQ, Real.sqrt_zero]; simp
      refine ⟨t5, ?_, ?_, Or.inr t6⟩
      · rw [Y0, t6]; simp only [Rat.cast_zero, sub_zero, abs_zero]; positivity
      · rw [Y0, abs_zero]; norm_num
    · -- two colours
      obtain ⟨hP, hQ⟩ := not_or.1 hz
      obtain ⟨k1, k2, gap, gap2⟩ := hues hP hQ
      have PQ : P * Q ≠ 0 := mul_ne_zero hP hQ
      obtain ⟨pp, pf, -⟩ := dH_near hf hm hp hq hP hQ P1 Q1 (d := Flt.lit 2.0) (D := 2) (l2l.mono (by norm_num)) (by norm_num)
      have l0 : In (Flt.lit 0.0 : FP f) 0 0 := in_lit hf (by short) (by short) (by norm_num) (by norm_num)
      have v0 : (Flt.lit 0.0 : FP f).val = 0 := le_antisymm l0.2.2 l0.2.1
      have ne : Flt.eqb (p * q) (Flt.lit 0.0) = false := by
        have : Flt.eqb (p * q) (Flt.lit 0.0 : FP f) = decide ((p * q).val = (Flt.lit 0.0 : FP f).val) := FP.eqb_finite pf l0.1
        rw [this, v0, decide_eq_false_iff_not]
        exact pp.ne'
      obtain ⟨dn, mn, D1, m0, m1⟩ := hues_near hf ne PQ k1 k2 H0 K0 gap gap2
      obtain ⟨-, -, y1, y2, y3⟩ := dH_near hf hm hp hq hP hQ P1 Q1 dn D1
      obtain ⟨SH, SH1⟩ := SH_near hf hm hk C1 mn m0 m1
      have RT := RT_near hf hm he hk C1 mn m0 m1
      obtain ⟨z1, z2⟩ := quot_near hf (r := 1800) y1 SH.fin y2 (SH.err.trans (by
        have := mul_le_mul_of_nonneg_left SH1 (by positivity : (0:ℝ) ≤ 1800 * f.u)
        linarith)) SH1 (by positivity) ((add_le_add le_rfl (mul_le_mul_of_nonneg_left y3 (by norm_num))).trans (by norm_num)) (by norm_num)
        (by norm_num) (y3.trans (by norm_num))
      refine ⟨z1, z2.trans (mul_le_mul_of_nonneg_right ?_ u0.le), small y3 SH1, Or.inl RT.err⟩
      generalize 2 * Real.sqrt (P * Q) * Real.sin (Flt.toRad (deltaHue P Q H K / 2)) = N at *
      generalize (ciedeSH ((P + Q) / 2) (meanHue P Q H K) : ℝ) = S at *
      have S0 : 0 < S := by linarith
      have : (44600 + 213 * |N|) / S ≤ 44600 + 213 * |N / S| := by
        rw [add_div, mul_div_assoc, abs_div, abs_of_pos S0]
        have := div_le_self (by norm_num : (0:ℝ) ≤ 44600) SH1
        linarith
      have := abs_nonneg (N / S)
      linarith
  obtain ⟨y, ey, yf, ye, yb, yr⟩ := hue
  have dCb : |Q - P| ≤ 464 := abs_le.2 ⟨by linarith, by linarith⟩
  have rb : |((ciedeRT ((p + q) / Flt.lit 2.0) (meanHue p q h1 h2) : FP f).val : ℝ)| ≤ 2 := by
    have : |(ciedeRT ((p + q) / Flt.lit 2.0) (meanHue p q h1 h2) : FP f).val| ≤ 2 := abs_le.2 ⟨by linarith [iRT.2.1], by linarith [iRT.2.2]⟩
    exact_mod_cast this
  have key := root_acc hf hm he wf xf yf iRT.1 (we.trans (mul_le_mul_of_nonneg_right ?_ u0.le)) xe ye rb yr (RT_abs C0 _)
    (small dL SL1) (small dCb SC1) yb ?_
  · rw [ey] at key
    have ev : v = Flt.sqrt (ciedeRadicand ⟨l2 - l1, q - p, Flt.lit 2.0 * Flt.sqrt (p * q) *
      Flt.sin (Flt.toRad (deltaHue p q h1 h2 / Flt.lit 2.0)), (l1 + l2) / Flt.lit 2.0, (p + q) / Flt.lit 2.0, meanHue p q h1 h2⟩) := rfl
    rw [ev]
    unfold ciedeRadicand sqr
    dsimp only
    rw [unit_mul hf iSL, unit_mul hf (iSC.mono le_rfl (by norm_num)), unit_mul hf (iSH.mono le_rfl (by norm_num))]
    exact key
  · have S0 : (0:ℝ) < ciedeSL (((l1.val : ℝ) + l2.val) / 2) := by linarith
    rw [abs_div, abs_of_pos S0]
    have := div_nonneg (abs_nonneg ((l2.val : ℝ) - l1.val)) S0.le
    linarith
  · rw [ey]
    unfold ciedeRadicand sqr at hv
    dsimp only at hv
    rw [unit_mul hf iSL, unit_mul hf (iSC.mono le_rfl (by norm_num)), unit_mul hf (iSH.mono le_rfl (by norm_num))] at hv
    exact hv

set_option maxHeartbeats 2000000 in
/-- the whole computation -/
theorem acc_core (hf : Std f) (hm : Spec.MathAccurate f) (he : f.eta ≤ f.u ^ 2 / 2 ^ 30) {c d : Lab (FP f)}
    (hc : Spec.Ordinary c) (hd : Spec.Ordinary d) {G H K : ℝ}
    (hG : G = 1 + ciedeG ((Real.sqrt ((c.a.val : ℝ) ^ 2 + (c.b.val : ℝ) ^ 2) + Real.sqrt ((d.a.val : ℝ) ^ 2 + (d.b.val : ℝ) ^ 2)) / 2))
    (hH : H = hueDeg (c.b.val : ℝ) (G * c.a.val)) (hK : K = hueDeg (d.b.val : ℝ) (G * d.a.val))
    (apart : Spec.Coloured c → Spec.Coloured d →
      1 / 1000 ≤ |(|H - K|) - 180| ∧ (180 < |H - K| → 1 / 1000 ≤ |H + K - 360|)) :
    (deltaE2000 c d).isFinite = true ∧
    |((deltaE2000 c d).val : ℝ) - deltaE2000 (Spec.realLab c) (Spec.realLab d)| ≤
      80000 * (1 + deltaE2000 (Spec.realLab c) (Spec.realLab d)) * f.u := by
  obtain ⟨u0, u1, e1, η0⟩ := u_facts hf
  have hv : In (ciedeRadicand (ciede c d)) 0 (2 ^ 27) := radicand_ok hf hm he c d
    ⟨hc.1, hc.2.1.trans (by norm_num), hc.2.2.1.trans (by norm_num), hc.2.2.2.1.trans (by norm_num)⟩
    ⟨hd.1, hd.2.1.trans (by norm_num), hd.2.2.1.trans (by norm_num), hd.2.2.2.1.trans (by norm_num)⟩
  obtain ⟨⟨cLf, caf, cbf⟩, cL, ca, cb, pca, pcb⟩ := hc
  obtain ⟨⟨dLf, daf, dbf⟩, dL, da, db, pda, pdb⟩ := hd
  have abs128 : ∀ {q : ℚ}, |q| ≤ 128 → |(q : ℝ)| ≤ 128 := fun h => by
    have : ((|_| : ℚ) : ℝ) ≤ ((128 : ℚ) : ℝ) := Rat.cast_le.2 h
    push_cast at this; exact this
  have plain : ∀ {q : ℚ}, (q = 0 ∨ 1 / 2 ^ 60 ≤ |q|) → Plain (q : ℝ) := by
    rintro q (h | h)
    · left; rw [h]; norm_num
    · right
      have := (Rat.cast_le (K := ℝ)).2 h
      push_cast at this; exact this
  have cL' := abs128 cL
  have ca' := abs128 ca
  have cb' := abs128 cb
  have dL' := abs128 dL
  have da' := abs128 da
  have db' := abs128 db
  have pca' := plain pca
  have pcb' := plain pcb
  have pda' := plain pda
  have pdb' := plain pdb
  -- chroma of the colours and their mean
  have hyp0 : ∀ {x y : FP f}, x.isFinite = true → y.isFinite = true → |(x.val : ℝ)| ≤ 128 → |(y.val : ℝ)| ≤ 128 → Plain x.val → Plain y.val →
      Rz 4.1 (Flt.hypot x y) (Real.sqrt ((x.val : ℝ) ^ 2 + (y.val : ℝ) ^ 2)) ∧
      (Real.sqrt ((x.val : ℝ) ^ 2 + (y.val : ℝ) ^ 2) = 0 ∨ 1 / 2 ^ 60 ≤ Real.sqrt ((x.val : ℝ) ^ 2 + (y.val : ℝ) ^ 2)) := by
    intro x y hx hy bx by' px py
    have := hypot_rz hf hm hx hy (X := x.val) (k := 0) le_rfl (by norm_num) (by rw [sub_self, abs_zero]; positivity)
      (bx.trans (by norm_num)) (by'.trans (by norm_num)) px py
    rwa [zero_add] at this
  obtain ⟨z1, y1⟩ := hyp0 caf cbf ca' cb' pca' pcb'
  obtain ⟨z2, y2⟩ := hyp0 daf dbf da' db' pda' pdb'
  have zm := mean_rz hf (by norm_num) (by norm_num) z1 z2 y1 y2
  rw [show (4.1:ℝ) + 2.1 = 6.2 by norm_num] at zm
  have M1 : (Real.sqrt ((c.a.val : ℝ) ^ 2 + (c.b.val : ℝ) ^ 2) + Real.sqrt ((d.a.val : ℝ) ^ 2 + (d.b.val : ℝ) ^ 2)) / 2 ≤ 256 := by
    have h1 := root_le (B := 200) ca' cb' (by norm_num) (by norm_num)
    have h2 := root_le (B := 200) da' db' (by norm_num) (by norm_num)
    linarith
  obtain ⟨sg, sg1, sg2⟩ := stretch_near hf hm he zm M1
  rw [← hG] at sg sg1 sg2
  have real := ciede_real (Spec.realLab c) (Spec.realLab d) hG rfl rfl hH hK
  clear hG
  rw [real]
  clear real
  unfold deltaE2000
  unfold ciede at hv ⊢
  dsimp only at hv ⊢
  generalize (Flt.lit 1.0 + ciedeG ((Flt.hypot c.a c.b + Flt.hypot d.a d.b) / Flt.lit 2.0) : FP f) = g at *
  -- stretched coordinates
  obtain ⟨a1f, a1e, a1b, a1p⟩ := stretched hf sg sg1 sg2 caf ca' pca'
  obtain ⟨a2f, a2e, a2b, a2p⟩ := stretched hf sg sg1 sg2 daf da' pda'
  have col1 : Spec.Coloured c ↔ ¬(G * (c.a.val : ℝ) = 0 ∧ (c.b.val : ℝ) = 0) := by
    unfold Spec.Coloured
    rw [mul_eq_zero, or_iff_right (by linarith : G ≠ 0)]
    norm_cast
  have col2 : Spec.Coloured d ↔ ¬(G * (d.a.val : ℝ) = 0 ∧ (d.b.val : ℝ) = 0) := by
    unfold Spec.Coloured
    rw [mul_eq_zero, or_iff_right (by linarith : G ≠ 0)]
    norm_cast
  have hyp1 : ∀ {x y : FP f} {X : ℝ}, x.isFinite = true → y.isFinite = true → |(x.val : ℝ) - X| ≤ 80.1 * f.u * |X| → |X| ≤ 192 →
      |(y.val : ℝ)| ≤ 128 → Plain X → Plain y.val →
      Rz 84.2 (Flt.hypot x y) (Real.sqrt (X ^ 2 + (y.val : ℝ) ^ 2)) ∧
      (Real.sqrt (X ^ 2 + (y.val : ℝ) ^ 2) = 0 ∨ 1 / 2 ^ 60 ≤ Real.sqrt (X ^ 2 + (y.val : ℝ) ^ 2)) := by
    intro x y X hx hy h bx by' px py
    have := hypot_rz hf hm hx hy (by norm_num) (by norm_num) h (bx.trans (by norm_num)) (by'.trans (by norm_num)) px py
    rwa [show (80.1:ℝ) + 4.1 = 84.2 by norm_num] at this
  obtain ⟨p1, p2⟩ := hyp1 a1f cbf a1e a1b cb' a1p pcb'
  obtain ⟨q1, q2⟩ := hyp1 a2f dbf a2e a2b db' a2p pdb'
  have P1 := root_le (B := 232) a1b cb' (by norm_num) (by norm_num)
  have Q1 := root_le (B := 232) a2b db' (by norm_num) (by norm_num)
  have km := mean_rz hf (by norm_num) (by norm_num) p1 q1 p2 q2
  rw [show (84.2:ℝ) + 2.1 = 86.3 by norm_num] at km
  have hu1 : Spec.Coloured c → Nr (hueDeg c.b (g * c.a)) H 4300 := fun h => by
    rw [hH]; exact hue_near hf hm cbf a1f a1e a1b cb' pcb' (col1.1 h)
  have hu2 : Spec.Coloured d → Nr (hueDeg d.b (g * d.a)) K 4300 := fun h => by
    rw [hK]; exact hue_near hf hm dbf a2f a2e a2b db' pdb' (col2.1 h)
  have H0 : 0 ≤ H ∧ H < 360 := hH ▸ hueDeg_range _ _
  have K0 : 0 ≤ K ∧ K < 360 := hK ▸ hueDeg_range _ _
  have ih1 := in_hue hf hm cbf a1f
  have ih2 := in_hue hf hm dbf a2f
  have zero1 : Real.sqrt ((G * (c.a.val : ℝ)) ^ 2 + (c.b.val : ℝ) ^ 2) = 0 ↔ ¬ Spec.Coloured c := by rw [col1, not_not]; exact root_zero
  have zero2 : Real.sqrt ((G * (d.a.val : ℝ)) ^ 2 + (d.b.val : ℝ) ^ 2) = 0 ↔ ¬ Spec.Coloured d := by rw [col2, not_not]; exact root_zero
  exact acc_stage hf hm he cLf dLf cL' dL' p1 q1 km P1 Q1 ih1 ih2 H0 K0
    (fun hP hQ => by
      have w1 : Spec.Coloured c := by by_contra h; exact hP (zero1.2 h)
      have w2 : Spec.Coloured d := by by_contra h; exact hQ (zero2.2 h)
      exact ⟨hu1 w1, hu2 w2, apart w1 w2⟩) hv

/-- the stretching factor of the code is the published one -/
theorem stretch_eq (x : ℝ) : 1 + ciedeG x = Spec.stretch x := by
  simp only [ciedeG, Spec.stretch, flt_lit, flt_powi, flt_sqrt]
  norm_num only [Rat.cast_ofNat, Rat.cast_div, Rat.cast_one]
  ring

/-- C106 [F]: `delta_E_2000` in floating point is within `80000 (1 + ΔE) u` of the published CIEDE2000 difference ΔE
of the same two colours: about 0.005 (1 + ΔE) in `f32` and 9e-12 (1 + ΔE) in `f64`. The coordinates are at most 128 in
size, `h₁` and `h₂` are hues of the stretched colours taken on the shorter arc, as in `C78_ciede2000`, and if neither
colour is grey the hues are clear of the two places where the published formula itself jumps. -/
theorem C106_ciede2000 (hf : Std f) (hm : Spec.MathAccurate f) (he : f.eta ≤ f.u ^ 2 / 2 ^ 30) (c d : Lab (FP f))
    (hc : Spec.Ordinary c) (hd : Spec.Ordinary d) (s h₁ h₂ : ℝ)
    (hs : s = Spec.stretch ((Spec.chroma c.a.val c.b.val + Spec.chroma d.a.val d.b.val) / 2))
    (hue₁ : Spec.IsHue (s * c.a.val) c.b.val h₁) (hue₂ : Spec.IsHue (s * d.a.val) d.b.val h₂)
    (near : |h₂ - h₁| < 180 ∨ |h₂ - h₁| = 180 ∧ (0 ≤ h₁ ∧ h₁ < 360) ∧ 0 ≤ h₂ ∧ h₂ < 360)
    (neutral : ¬Spec.Coloured c ∨ ¬Spec.Coloured d → h₁ = h₂)
    (apart : Spec.Coloured c → Spec.Coloured d → Spec.HuesApart h₁ h₂) :
    let ΔE := Spec.ciede2000 c.L.val (Spec.chroma (s * c.a.val) c.b.val) h₁ d.L.val (Spec.chroma (s * d.a.val) d.b.val) h₂
    (deltaE2000 c d).isFinite = true ∧ |((deltaE2000 c d).val : ℝ) - ΔE| ≤ 80000 * (1 + ΔE) * f.u := by
  have eq := C78_ciede2000 (Spec.realLab c) (Spec.realLab d) s h₁ h₂ hs hue₁ hue₂ near (by
    intro h
    refine neutral ?_
    unfold Spec.Coloured
    simp only [not_not]
    rcases h with ⟨a, b⟩ | ⟨a, b⟩
    · exact Or.inl ⟨by simpa [Spec.realLab] using a, by simpa [Spec.realLab] using b⟩
    · exact Or.inr ⟨by simpa [Spec.realLab] using a, by simpa [Spec.realLab] using b⟩)
  intro ΔE
  have eΔ : ΔE = deltaE2000 (Spec.realLab c) (Spec.realLab d) := eq.symm
  rw [eΔ]
  have s0 : s ≠ 0 := by
    rw [hs, Spec.stretch]
    set C := (Spec.chroma c.a.val c.b.val + Spec.chroma d.a.val d.b.val) / 2
    have C0 : 0 ≤ C := div_nonneg (add_nonneg (Real.sqrt_nonneg _) (Real.sqrt_nonneg _)) (by norm_num)
    have : Real.sqrt (C ^ 7 / (C ^ 7 + 25 ^ 7)) ≤ 1 := by
      rw [Real.sqrt_le_one, div_le_one (by positivity)]
      linarith [pow_nonneg C0 7]
    linarith
  refine acc_core hf hm he hc hd (G := s) (by rw [stretch_eq]; exact hs) rfl rfl ?_
  intro w1 w2
  obtain ⟨g1, g2⟩ := apart w1 w2
  have nz : ∀ {e : Lab (FP f)}, Spec.Coloured e → Spec.chroma (s * e.a.val) e.b.val ≠ 0 := by
    intro e h h0
    have := root_zero.1 h0
    refine h ⟨?_, by exact_mod_cast this.2⟩
    have := (mul_eq_zero.1 this.1).resolve_left s0
    exact_mod_cast this
  have turn : ∀ {e : Lab (FP f)} {h : ℝ}, Spec.Coloured e → Spec.IsHue (s * e.a.val) e.b.val h →
      Spec.wrap h = hueDeg (e.b.val : ℝ) (s * e.a.val) := by
    intro e h w hh
    obtain ⟨m, hm'⟩ := isHue_unique (nz w) hh (isHue_hueDeg _ _)
    rw [hm']
    exact wrap_shift (hueDeg_range _ _).1 (hueDeg_range _ _).2 m
  rw [turn w1 hue₁, turn w2 hue₂] at g1 g2
  exact ⟨g1, g2⟩

/-- Not vacuous: a red and a yellow colour, a quarter turn apart, in `f32` with the ideal mathematical library. -/
example : letI := idealLibm Fmt.b32
    ∃ (c d : Lab (FP Fmt.b32)) (s h₁ h₂ : ℝ), Spec.MathAccurate Fmt.b32 ∧ Std Fmt.b32 ∧ Fmt.b32.eta ≤ Fmt.b32.u ^ 2 / 2 ^ 30 ∧
      Spec.Ordinary c ∧ Spec.Ordinary d ∧ Spec.Coloured c ∧ Spec.Coloured d ∧
      s = Spec.stretch ((Spec.chroma c.a.val c.b.val + Spec.chroma d.a.val d.b.val) / 2) ∧
      Spec.IsHue (s * c.a.val) c.b.val h₁ ∧ Spec.IsHue (s * d.a.val) d.b.val h₂ ∧ |h₂ - h₁| < 180 ∧ Spec.HuesApart h₁ h₂ := by
  letI := idealLibm Fmt.b32
  have val : ∀ {q : ℚ}, Short q → (FP.lit q : FP Fmt.b32).isFinite = true ∧ (FP.lit q : FP Fmt.b32).val = q := by
    intro q hq
    have l : In (Flt.lit q : FP Fmt.b32) q q := in_lit std_b32 hq hq le_rfl le_rfl
    exact ⟨l.1, le_antisymm l.2.2 l.2.1⟩
  obtain ⟨f50, v50⟩ := val (q := 50) (by short)
  obtain ⟨f60, v60⟩ := val (q := 60) (by short)
  obtain ⟨f3, v3⟩ := val (q := 3) (by short)
  obtain ⟨f4, v4⟩ := val (q := 4) (by short)
  obtain ⟨f0, v0⟩ := val (q := 0) (by short)
  refine ⟨⟨FP.lit 50, FP.lit 3, FP.lit 0⟩, ⟨FP.lit 60, FP.lit 0, FP.lit 4⟩, _, 0, 90, ideal_math std_b32 eta_b32, std_b32, eta_b32,
    ?_, ?_, ?_, ?_, rfl, ?_, ?_, by norm_num, ?_⟩
  · unfold Spec.Ordinary Spec.FinLab
    simp only [v50, v3, v0]
    exact ⟨⟨f50, f3, f0⟩, by norm_num, by norm_num, by norm_num, Or.inr (by norm_num), Or.inl trivial⟩
  · unfold Spec.Ordinary Spec.FinLab
    simp only [v60, v4, v0]
    exact ⟨⟨f60, f0, f4⟩, by norm_num, by norm_num, by norm_num, Or.inl trivial, Or.inr (by norm_num)⟩
  · unfold Spec.Coloured; simp only [v3]; norm_num
  · unfold Spec.Coloured; simp only [v4]; norm_num
  · simp only [v3, v0, v4, Rat.cast_zero]
    set s := Spec.stretch ((Spec.chroma ((3 : ℚ) : ℝ) 0 + Spec.chroma 0 ((4 : ℚ) : ℝ)) / 2)
    have s0 : 0 ≤ s * ((3 : ℚ) : ℝ) := by
      have : 0 ≤ s := by
        show 0 ≤ Spec.stretch _
        rw [← stretch_eq]
        have := Real.sqrt_le_one.2 (div_le_one_of_le₀ (a := ((Spec.chroma ((3 : ℚ) : ℝ) 0 + Spec.chroma 0 ((4 : ℚ) : ℝ)) / 2) ^ 7)
          (b := ((Spec.chroma ((3 : ℚ) : ℝ) 0 + Spec.chroma 0 ((4 : ℚ) : ℝ)) / 2) ^ 7 + 25 ^ 7) (by linarith) (by
            have : 0 ≤ (Spec.chroma ((3 : ℚ) : ℝ) 0 + Spec.chroma 0 ((4 : ℚ) : ℝ)) / 2 := div_nonneg (add_nonneg (Real.sqrt_nonneg _) (Real.sqrt_nonneg _)) (by norm_num)
            positivity))
        rw [stretch_eq, Spec.stretch]
        linarith
      positivity
    have : Spec.chroma (s * ((3 : ℚ) : ℝ)) 0 = s * ((3 : ℚ) : ℝ) := by
      unfold Spec.chroma; rw [zero_pow two_ne_zero, add_zero]; exact Real.sqrt_sq s0
    unfold Spec.IsHue Spec.cosd Spec.sind
    rw [this]; simp
  · simp only [v3, v0, v4, Rat.cast_zero, mul_zero]
    have : Spec.chroma 0 ((4 : ℚ) : ℝ) = ((4 : ℚ) : ℝ) := by
      unfold Spec.chroma; rw [zero_pow two_ne_zero, zero_add]; exact Real.sqrt_sq (by norm_num)
    unfold Spec.IsHue Spec.cosd Spec.sind
    rw [this, show (90:ℝ) * Real.pi / 180 = Real.pi / 2 by ring]; simp
  · have w0 := wrap_shift (x := 0) le_rfl (by norm_num) 0
    have w90 := wrap_shift (x := 90) (by norm_num) (by norm_num) 0
    simp only [Int.cast_zero, mul_zero, add_zero] at w0 w90
    unfold Spec.HuesApart
    rw [w0, w90]
    norm_num [abs_of_neg]

/-- C106 [F]: for two greys, and for a grey and a colour, no condition on hues is needed. -/
theorem C106_grey (hf : Std f) (hm : Spec.MathAccurate f) (he : f.eta ≤ f.u ^ 2 / 2 ^ 30) (c d : Lab (FP f))
    (hc : Spec.Ordinary c) (hd : Spec.Ordinary d) (grey : ¬Spec.Coloured c ∨ ¬Spec.Coloured d) :
    let ΔE := deltaE2000 (Spec.realLab c) (Spec.realLab d)
    (deltaE2000 c d).isFinite = true ∧ |((deltaE2000 c d).val : ℝ) - ΔE| ≤ 80000 * (1 + ΔE) * f.u :=
  acc_core hf hm he hc hd rfl rfl rfl fun w1 w2 => absurd grey (by rw [not_or, not_not, not_not]; exact ⟨w1, w2⟩)

end
end CS

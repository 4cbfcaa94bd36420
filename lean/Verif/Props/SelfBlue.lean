import Verif.Props.SelfF

/-!
# Images that do not survive a conversion to their own space (C115)

The printed matrices of Adobe RGB and sRGB are not inverse to each other. Blue gains a little red, which the steep
beginning of the curve makes visible: one 8-bit code for Adobe RGB, nineteen 16-bit codes for sRGB.
-/

namespace CS

section
variable {f : Fmt} [Libm f]

/-- the check for sRGB: blue adds about 2.3e-5 to red -/
def selfBlue16 (m _n : Matrix33 (FP f)) : Bool :=
  m.fin && decide (22.6e-6 ≤ m.x2.val ∧ m.x2.val ≤ 24e-6)

/-- the check for Adobe RGB: blue adds about 4.2e-6 to red -/
def selfBlue8 (m _n : Matrix33 (FP f)) : Bool :=
  m.fin && decide (4e-6 ≤ m.x2.val ∧ m.x2.val ≤ 4.5e-6)

theorem blue_gain (hf : Std f) {m : Matrix33 (FP f)} (hm : m.fin = true) {lo hi : ℚ} (h0 : 0 ≤ lo) (h1 : lo ≤ m.x2.val)
    (h2 : m.x2.val ≤ hi) (h3 : hi ≤ 1 / 1000) {z d : FP f} (z1 : z.isFinite = true) (z2 : z.val = 0)
    (d1 : d.isFinite = true) (d2 : |d.val - 1| ≤ 1 / 10 ^ 5) :
    (rgbVec (m * (⟨z, z, d⟩ : RGBf (FP f))) 0).isFinite = true ∧
    lo - 2e-8 ≤ (rgbVec (m * (⟨z, z, d⟩ : RGBf (FP f))) 0).val ∧
    (rgbVec (m * (⟨z, z, d⟩ : RGBf (FP f))) 0).val ≤ hi + 2e-8 := by
  have fm := Matrix33.fin_get hm
  obtain ⟨d3, d4⟩ := abs_le.1 d2
  have d5 : |d.val| ≤ 2 := by rw [abs_le]; norm_num at d3 d4; constructor <;> linarith
  obtain ⟨f0, e0⟩ := dot_last hf (fm 0 0) (fm 0 1) (fm 0 2) z1 z1 d1 z2 z2 (c := m.get 0 2) (C := 1 / 1000)
    (by change |m.x2.val| ≤ _; rw [abs_of_nonneg (h0.trans h1)]; exact h2.trans h3) (by norm_num) d5
  change |_ - m.x2.val * d.val| ≤ _ at e0
  have e : rgbVec (m * (⟨z, z, d⟩ : RGBf (FP f))) 0 = m.get 0 0 * z + m.get 0 1 * z + m.get 0 2 * d := rfl
  rw [e]
  refine ⟨f0, ?_⟩
  have k : |m.x2.val * (d.val - 1)| ≤ 1 / 1000 * (1 / 10 ^ 5) := by
    rw [abs_mul]
    exact mul_le_mul (by rw [abs_of_nonneg (h0.trans h1)]; exact h2.trans h3) d2 (abs_nonneg _) (by norm_num)
  obtain ⟨k1, k2⟩ := abs_le.1 k
  obtain ⟨e1, e2⟩ := abs_le.1 e0
  norm_num at k1 k2 e1 e2 ⊢
  constructor <;> linarith

theorem unquant8_zero (hf : Std f) : (unquant8 0 : FP f).isFinite = true ∧ (unquant8 0 : FP f).val = 0 := by
  obtain ⟨u1, -, -, u2, u3⟩ := unquant8_spec (f := f) hf 0
  refine ⟨u1, ?_⟩
  rcases u3 with h | h
  · exact h
  · have := (abs_le.1 u2).2
    have e : ((0 : UInt8).toNat : ℚ) = 0 := by decide
    rw [e] at this
    norm_num at this h
    linarith

theorem unquant16_zero (hf : Std f) : (unquant16 0 : FP f).isFinite = true ∧ (unquant16 0 : FP f).val = 0 := by
  obtain ⟨u1, -, -, u2, u3⟩ := unquant16_spec (f := f) hf 0
  refine ⟨u1, ?_⟩
  rcases u3 with h | h
  · exact h
  · have := (abs_le.1 u2).2
    have e : ((0 : UInt16).toNat : ℚ) = 0 := by decide
    rw [e] at this
    norm_num at this h
    linarith

theorem self_srgb16 (hf : Std f) (hp : PowAccurate f) {m n : Matrix33 (FP f)} (h : selfBlue16 m n = true) :
    19 ≤ (((Shipped.srgb (FP.ofQ f false)).encode
      (m * (Shipped.srgb (FP.ofQ f false)).decode (RGBu16.toF ⟨0, 0, 65535⟩))).toU16).r := by
  unfold selfBlue16 at h
  simp only [Bool.and_eq_true, decide_eq_true_eq] at h
  obtain ⟨hm, s1, s2⟩ := h
  obtain ⟨u1, u0⟩ := unquant16_zero (f := f) hf
  have hc := srgb_rel (f := f) hf hp (ε := 0) le_rfl (by norm_num)
  obtain ⟨w1, w2, w3, -, -⟩ := unquant16_spec (f := f) hf 65535
  have w4 := unquant16_65535 (f := f) hf
  obtain ⟨z1, -, -⟩ := hc.low _ u1 u0.ge (by rw [u0]; norm_num) (.inl u0)
  have z2 := hc.zero _ u1 u0
  obtain ⟨d1, -, -⟩ := hc.low _ w1 w2 w3 (.inr (by rw [w4]; norm_num))
  have d2 : |(decode.srgb_t (unquant16 65535 : FP f)).val - 1| ≤ 1 / 10 ^ 5 := by
    have := hc.one _ w1 w4
    qcast this
  obtain ⟨fr, r1, r2⟩ := blue_gain hf hm (by norm_num) s1 s2 (by norm_num) z1 z2 d1 d2
  have goal : (((Shipped.srgb (FP.ofQ f false)).encode
      (m * (Shipped.srgb (FP.ofQ f false)).decode (RGBu16.toF ⟨0, 0, 65535⟩))).toU16).r =
      quant16 (encode.srgb_t (rgbVec (m * (⟨decode.srgb_t (unquant16 0), decode.srgb_t (unquant16 0),
        decode.srgb_t (unquant16 65535)⟩ : RGBf (FP f))) 0)) := rfl
  rw [goal]
  generalize rgbVec (m * (⟨decode.srgb_t (unquant16 0), decode.srgb_t (unquant16 0),
        decode.srgb_t (unquant16 65535)⟩ : RGBf (FP f))) 0 = r at *
  obtain ⟨m1, m2, m3⟩ := lit_between hf (q := 0.0031308) (lo := 0.0031) (hi := 0.0032) (by norm_num)
    (by norm_num) (by norm_num) (by norm_num)
  have m2' : (0.0031 : ℚ) ≤ (FP.lit 0.0031308 : FP f).val := by exact_mod_cast m2
  obtain ⟨e1, e2⟩ := srgb_enc_lin hf fr (le_trans (by norm_num) r1) (r2.trans (le_trans (by norm_num) m2'))
  have r1r : ((22.6e-6 - 2e-8 : ℚ) : ℝ) ≤ r.val := by exact_mod_cast r1
  obtain ⟨v1, -, -, v2, -⟩ := unquant16_spec (f := f) hf 19
  have e19 : ((19 : UInt16).toNat : ℚ) = 19 := by decide
  rw [e19] at v2
  have hle : FP.le (unquant16 19 : FP f) (encode.srgb_t r) = true := by
    refine FP.le_val v1 e1 ?_
    have hu := (u_tiny hf).1
    have h3 := (abs_le.1 e2).1
    have h4 := (abs_le.1 v2).2
    have h4r : ((unquant16 19 : FP f).val : ℝ) ≤ 19 / 65535 + 1 / 2 ^ 24 := by
      have : (unquant16 19 : FP f).val ≤ 19 / 65535 + 1 / 2 ^ 24 := by linarith
      qcast this
    have : ((unquant16 19 : FP f).val : ℝ) ≤ (encode.srgb_t r).val := by
      generalize ((unquant16 19 : FP f).val : ℝ) = A at *
      generalize ((encode.srgb_t r).val : ℝ) = B at *
      norm_num at hu h3 h4r r1r ⊢
      linarith
    exact_mod_cast this
  have h5 := C03_quant16_monotone _ _ (by have := hf.p24; omega) hle
  rwa [u16_roundtrip _ (by have := hf.p24; omega)] at h5

theorem self_adobe8 (hf : Std f) (hp : PowAccurate f) {m n : Matrix33 (FP f)} (h : selfBlue8 m n = true) :
    (((Shipped.adobeRgb1998 (FP.ofQ f false)).encode
      (m * (Shipped.adobeRgb1998 (FP.ofQ f false)).decode (RGBu8.toF ⟨0, 0, 255⟩))).toU8).r = 1 := by
  unfold selfBlue8 at h
  simp only [Bool.and_eq_true, decide_eq_true_eq] at h
  obtain ⟨hm, s1, s2⟩ := h
  have a0 := RelF.ofQ hf (q := 2.19921875) (by norm_num) (by norm_num)
  have a2 := (RelF.ofQ_one (f := f)).div hf a0
    (by norm_num) (by norm_num) (by norm_num) (by norm_num) (by norm_num)
  obtain ⟨u1, u0⟩ := unquant8_zero (f := f) hf
  obtain ⟨z1, z2⟩ := hp.zero (unquant8 0) _ u1 a0.fin u0 (by have := a0.err.xpos; exact_mod_cast this)
  obtain ⟨d1, d2⟩ := dec_one hf hp
  obtain ⟨fr, R1, R2⟩ := blue_gain hf hm (by norm_num) s1 s2 (by norm_num) z1 z2 d1 (d2.trans (by norm_num))
  obtain ⟨k3, k4⟩ := RelF.small (f := f) (n := 0 + 1 + 1) hf (by norm_num) (by norm_num)
  obtain ⟨g3, g4⟩ := abs_le.1 (a2.err.to_abs k3 (by norm_num at k4 ⊢; linarith))
  have gf := a2.fin
  have hs : (0 + 1 + 1) * kap f * (1 + (0 + 1 + 1) * kap f) ≤ 1 / 2 ^ 12 := by
    norm_num at k3 k4 ⊢; nlinarith
  have goal : (((Shipped.adobeRgb1998 (FP.ofQ f false)).encode
      (m * (Shipped.adobeRgb1998 (FP.ofQ f false)).decode (RGBu8.toF ⟨0, 0, 255⟩))).toU8).r =
      quant8 (Flt.powf (rgbVec (m * (⟨Flt.powf (unquant8 0) (FP.ofQ f false 2.19921875),
        Flt.powf (unquant8 0) (FP.ofQ f false 2.19921875), Flt.powf (unquant8 255) (FP.ofQ f false 2.19921875)⟩ :
        RGBf (FP f))) 0) (FP.ofQ f false 1.0 / FP.ofQ f false 2.19921875)) := rfl
  rw [goal]
  generalize rgbVec (m * (⟨Flt.powf (unquant8 0) (FP.ofQ f false 2.19921875),
        Flt.powf (unquant8 0) (FP.ofQ f false 2.19921875), Flt.powf (unquant8 255) (FP.ofQ f false 2.19921875)⟩ :
        RGBf (FP f))) 0 = r at *
  generalize (FP.ofQ f false 1.0 / FP.ofQ f false 2.19921875 : FP f) = g at *
  have q1 : (5 / 11 : ℝ) ≤ g.val := by
    generalize (0 + 1 + 1) * kap f * (1 + (0 + 1 + 1) * kap f) = w at *
    norm_num at g3 g4 hs ⊢
    linarith
  have q2 : (g.val : ℝ) ≤ 6 / 13 := by
    generalize (0 + 1 + 1) * kap f * (1 + (0 + 1 + 1) * kap f) = w at *
    norm_num at g3 g4 hs ⊢
    linarith
  have r1 : (3.9e-6 : ℝ) ≤ r.val := by
    have : ((4e-6 - 2e-8 : ℚ) : ℝ) ≤ r.val := by exact_mod_cast R1
    norm_num at this ⊢; linarith
  have r2 : (r.val : ℝ) ≤ 4.6e-6 := by
    have : (r.val : ℝ) ≤ ((4.5e-6 + 2e-8 : ℚ) : ℝ) := by exact_mod_cast R2
    norm_num at this ⊢; linarith
  have r0 : (0 : ℝ) < r.val := by norm_num at r1; linarith
  have r3 : (r.val : ℝ) ≤ 1 := by norm_num at r2; linarith
  have lo : (0.003 : ℝ) ≤ (r.val : ℝ) ^ (g.val : ℝ) := by
    have h1 : (r.val : ℝ) ^ (6 / 13 : ℝ) ≤ (r.val : ℝ) ^ (g.val : ℝ) :=
      Real.rpow_le_rpow_of_exponent_ge r0 r3 q2
    have h2 : (3.9e-6 : ℝ) ^ (6 / 13 : ℝ) ≤ (r.val : ℝ) ^ (6 / 13 : ℝ) :=
      Real.rpow_le_rpow (by norm_num) r1 (by norm_num)
    have h3 : (0.003 : ℝ) ≤ (3.9e-6 : ℝ) ^ (6 / 13 : ℝ) := by
      rw [show (6 / 13 : ℝ) = ((6:ℕ):ℝ) * ((13:ℕ):ℝ)⁻¹ by norm_num, Real.rpow_mul (by norm_num),
        Real.rpow_natCast]
      refine le_trans (le_of_eq ?_) (Real.rpow_le_rpow (z := ((13:ℕ):ℝ)⁻¹) (x := (0.003:ℝ) ^ 13)
        (by positivity) (by norm_num) (by positivity))
      rw [Real.pow_rpow_inv_natCast (by norm_num) (by norm_num)]
    linarith
  have hi : (r.val : ℝ) ^ (g.val : ℝ) ≤ 0.004 := by
    have h1 : (r.val : ℝ) ^ (g.val : ℝ) ≤ (r.val : ℝ) ^ (5 / 11 : ℝ) :=
      Real.rpow_le_rpow_of_exponent_ge r0 r3 q1
    have h2 : (r.val : ℝ) ^ (5 / 11 : ℝ) ≤ (4.6e-6 : ℝ) ^ (5 / 11 : ℝ) :=
      Real.rpow_le_rpow r0.le r2 (by norm_num)
    have h3 : (4.6e-6 : ℝ) ^ (5 / 11 : ℝ) ≤ 0.004 := by
      rw [show (5 / 11 : ℝ) = ((5:ℕ):ℝ) * ((11:ℕ):ℝ)⁻¹ by norm_num, Real.rpow_mul (by norm_num),
        Real.rpow_natCast]
      refine le_trans (Real.rpow_le_rpow (z := ((11:ℕ):ℝ)⁻¹) (y := (0.004:ℝ) ^ 11)
        (by positivity) (by norm_num) (by positivity)) (le_of_eq ?_)
      rw [Real.pow_rpow_inv_natCast (by norm_num) (by norm_num)]
    linarith
  obtain ⟨w1, w2⟩ := hp.near r g fr gf (le_trans (by norm_num) R1) (le_trans R2 (by norm_num))
    (by
      have h2 : |(g.val : ℝ)| ≤ 4 := by rw [abs_le]; constructor <;> linarith
      exact_mod_cast h2)
    (le_trans (by norm_num) lo) (le_trans hi (by norm_num))
  refine quant8_of_near hf w1 1 ?_
  obtain ⟨-, -, -, v, -⟩ := unquant8_spec (f := f) hf 1
  have v' : |((unquant8 1 : FP f).val : ℝ) - 1 / 255| ≤ 1 / 2 ^ 24 := by
    have e : ((1 : UInt8).toNat : ℚ) = 1 := by decide
    rw [e] at v
    qcast v
  have huR : (f.u : ℝ) ≤ 1 / 2 ^ 24 := by qcast hf.hu
  have h1 : 4 * (f.u : ℝ) * (r.val : ℝ) ^ (g.val : ℝ) ≤ 4 * (1 / 2 ^ 24) * 0.004 :=
    mul_le_mul (by linarith) hi (le_trans (by norm_num) lo) (by norm_num)
  obtain ⟨w3, w4⟩ := abs_le.1 (w2.trans h1)
  obtain ⟨v1, v2⟩ := abs_le.1 v'
  rw [abs_le]
  generalize (r.val : ℝ) ^ (g.val : ℝ) = P at *
  norm_num at w3 w4 v1 v2 lo hi ⊢
  constructor <;> linarith

end

theorem self_srgb_check64 : @withCat02 Fmt.b64 (noLibm _) (fun MAi MA =>
    @fastRgb Fmt.b64 (noLibm _) MAi MA Tripb64.srgb Tripb64.srgb selfBlue16) = true := by krefl

theorem self_srgb_check32 : @withCat02 Fmt.b32 (noLibm _) (fun MAi MA =>
    @fastRgb Fmt.b32 (noLibm _) MAi MA Tripb32.srgb Tripb32.srgb selfBlue16) = true := by krefl

theorem self_adobe_check64 : @withCat02 Fmt.b64 (noLibm _) (fun MAi MA =>
    @fastRgb Fmt.b64 (noLibm _) MAi MA Tripb64.adobeRgb1998 Tripb64.adobeRgb1998 selfBlue8) = true := by krefl

theorem self_adobe_check32 : @withCat02 Fmt.b32 (noLibm _) (fun MAi MA =>
    @fastRgb Fmt.b32 (noLibm _) MAi MA Tripb32.adobeRgb1998 Tripb32.adobeRgb1998 selfBlue8) = true := by krefl

theorem self_matrix {f : Fmt} (L : Libm f) {a a0 : ColorSpaceRGB (FP f)} {t : ℚ}
    {check : Matrix33 (FP f) → Matrix33 (FP f) → Bool} (ha : Linked (.ok a, t) (a0, t))
    (h : @withCat02 f (noLibm f) (fun MAi MA => @fastRgb f (noLibm f) MAi MA a0 a0 check) = true) :
    ∃ m n, rgbToRgbMatrix a a = .ok m ∧ check m n = true := by
  obtain ⟨a, ea, a1, a2, a3, -⟩ := ha
  cases ea
  rw [← withCat02_libm L, ← fastRgb_libm L] at h
  obtain ⟨MAi, hi, h⟩ := withCat02_sound h
  obtain ⟨A, B, hA, hB, hk⟩ := fastRgb_sound hi h
  refine ⟨A, B, ?_, hk⟩
  rw [← hA]; unfold rgbToRgbMatrix; rw [a1, a2, a3]

theorem self_one {T U : Type} [Add T] [Sub T] [Mul T] [Div T] [Neg T] [Flt T] {into : RGBf T → U} {a : ColorSpaceRGB T}
    {m : Matrix33 T} (h : rgbToRgbMatrix a a = .ok m) (c : RGBf T) (o : U) :
    rgbToRgb into a a [c] [o] = .ok ([into (a.encode (m * a.decode c))], 1) := by
  unfold rgbToRgb
  rw [h]
  rfl

theorem link32A [L : Libm Fmt.b32] :
    Linked (.ok (Shipped.adobeRgb1998 (FP.ofQ Fmt.b32 false)), 0) (Tripb32.adobeRgb1998, 0) :=
  linked_of_check (adobeRgb1998_same Tripb32.l L) Tripb32.link_adobeRgb1998

theorem link64A [L : Libm Fmt.b64] :
    Linked (.ok (Shipped.adobeRgb1998 (FP.ofQ Fmt.b64 false)), 0) (Tripb64.adobeRgb1998, 0) :=
  linked_of_check (adobeRgb1998_same Tripb64.l L) Tripb64.link_adobeRgb1998

/-- C115 [F]: converting the 8-bit Adobe RGB image with the one pixel (0, 0, 255) to Adobe RGB gives red 1, in f32 and in
f64. -/
theorem C115_adobe_counterexample [Libm Fmt.b32] [Libm Fmt.b64] (hp : PowAccurate Fmt.b32) (hp' : PowAccurate Fmt.b64) :
    (∀ o, ∃ c : RGBu8, rgbToRgb RGBf.toU8 (Shipped.adobeRgb1998 (FP.ofQ Fmt.b32 false))
      (Shipped.adobeRgb1998 (FP.ofQ Fmt.b32 false)) [RGBu8.toF ⟨0, 0, 255⟩] [o] = .ok ([c], 1) ∧ c.r = 1) ∧
    (∀ o, ∃ c : RGBu8, rgbToRgb RGBf.toU8 (Shipped.adobeRgb1998 (FP.ofQ Fmt.b64 false))
      (Shipped.adobeRgb1998 (FP.ofQ Fmt.b64 false)) [RGBu8.toF ⟨0, 0, 255⟩] [o] = .ok ([c], 1) ∧ c.r = 1) := by
  constructor
  · obtain ⟨m, n, h1, h2⟩ := self_matrix _ link32A self_adobe_check32
    exact fun o => ⟨_, self_one h1 _ o, self_adobe8 std_b32 hp h2⟩
  · obtain ⟨m, n, h1, h2⟩ := self_matrix _ link64A self_adobe_check64
    exact fun o => ⟨_, self_one h1 _ o, self_adobe8 std_b64 hp' h2⟩

/-- C115 [F]: converting the 16-bit sRGB image with the one pixel (0, 0, 65535) to sRGB gives red of at least 19, in f32
and in f64. -/
theorem C115_srgb_counterexample [Libm Fmt.b32] [Libm Fmt.b64] (hp : PowAccurate Fmt.b32) (hp' : PowAccurate Fmt.b64) :
    (∀ o, ∃ c : RGBu16, rgbToRgb RGBf.toU16 (Shipped.srgb (FP.ofQ Fmt.b32 false))
      (Shipped.srgb (FP.ofQ Fmt.b32 false)) [RGBu16.toF ⟨0, 0, 65535⟩] [o] = .ok ([c], 1) ∧ 19 ≤ c.r) ∧
    (∀ o, ∃ c : RGBu16, rgbToRgb RGBf.toU16 (Shipped.srgb (FP.ofQ Fmt.b64 false))
      (Shipped.srgb (FP.ofQ Fmt.b64 false)) [RGBu16.toF ⟨0, 0, 65535⟩] [o] = .ok ([c], 1) ∧ 19 ≤ c.r) := by
  constructor
  · obtain ⟨m, n, h1, h2⟩ := self_matrix _ link32 self_srgb_check32
    exact fun o => ⟨_, self_one h1 _ o, self_srgb16 std_b32 hp h2⟩
  · obtain ⟨m, n, h1, h2⟩ := self_matrix _ link64 self_srgb_check64
    exact fun o => ⟨_, self_one h1 _ o, self_srgb16 std_b64 hp' h2⟩

/-- Not vacuous: the library that rounds the exact power is accurate. -/
example : letI := idealLibm Fmt.b32
    PowAccurate Fmt.b32 := ideal_pow std_b32

end CS

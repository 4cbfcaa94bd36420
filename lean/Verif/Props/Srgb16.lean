import Verif.Props.Adobe
import Verif.Props.Deep16

/-!
# 16-bit sRGB images with the printed matrices (C112)
The printed sRGB matrices are inverse to each other only up to 8e-5, which is several 16-bit codes.
-/

namespace CS

section
variable {f : Fmt} [Libm f]

/-- what blue contributes to red after a round trip -/
theorem blue_red (hf : Std f) {m n : Matrix33 (FP f)} (hm : m.fin = true) (hn : n.fin = true) {lo hi : ℚ}
    (hlo : 0 ≤ lo) (hhi : hi ≤ 30e-6)
    (s1 : lo ≤ n.x0.val * m.x2.val + n.x1.val * m.x5.val + n.x2.val * m.x8.val)
    (s2 : n.x0.val * m.x2.val + n.x1.val * m.x5.val + n.x2.val * m.x8.val ≤ hi)
    (m2 : |m.x2.val| ≤ 1 / 1000) (m5 : |m.x5.val| ≤ 1 / 1000) (m8 : |m.x8.val| ≤ 2)
    (n0 : |n.x0.val| ≤ 1) (n1 : |n.x1.val| ≤ 1) (n2 : |n.x2.val| ≤ 1 / 1000) {z d : FP f}
    (z1 : z.isFinite = true) (z2 : z.val = 0) (d1 : d.isFinite = true) (d2 : |d.val - 1| ≤ 1 / 10 ^ 5) :
    (rgbVec (n * (m * (⟨z, z, d⟩ : RGBf (FP f)))) 0).isFinite = true ∧
    lo - 1e-7 ≤ (rgbVec (n * (m * (⟨z, z, d⟩ : RGBf (FP f)))) 0).val ∧
    (rgbVec (n * (m * (⟨z, z, d⟩ : RGBf (FP f)))) 0).val ≤ hi + 1e-7 := by
  have fm := Matrix33.fin_get hm
  have fn := Matrix33.fin_get hn
  obtain ⟨d3, d4⟩ := abs_le.1 d2
  have d5 : |d.val| ≤ 2 := by rw [abs_le]; norm_num at d3 d4; constructor <;> linarith
  obtain ⟨f0, e0⟩ := dot_last hf (fm 0 0) (fm 0 1) (fm 0 2) z1 z1 d1 z2 z2 m2 (by norm_num) d5
  obtain ⟨f1, e1⟩ := dot_last hf (fm 1 0) (fm 1 1) (fm 1 2) z1 z1 d1 z2 z2 m5 (by norm_num) d5
  obtain ⟨f2, e2⟩ := dot_last hf (fm 2 0) (fm 2 1) (fm 2 2) z1 z1 d1 z2 z2 m8 (by norm_num) d5
  set y0 : FP f := m.get 0 0 * z + m.get 0 1 * z + m.get 0 2 * d with hy0
  set y1 : FP f := m.get 1 0 * z + m.get 1 1 * z + m.get 1 2 * d with hy1
  set y2 : FP f := m.get 2 0 * z + m.get 2 1 * z + m.get 2 2 * d with hy2
  change |y0.val - m.x2.val * d.val| ≤ _ at e0
  change |y1.val - m.x5.val * d.val| ≤ _ at e1
  change |y2.val - m.x8.val * d.val| ≤ _ at e2
  have D : |d.val| ≤ 1.001 := by rw [abs_le]; norm_num at d3 d4 ⊢; constructor <;> linarith
  have B : ∀ {y c C : ℚ}, |y - c * d.val| ≤ 5e-7 * C + 1e-15 → |c| ≤ C → |y| ≤ 1.002 * C + 1e-15 := by
    intro y c C h1 h2
    have h3 := abs_add_le (y - c * d.val) (c * d.val)
    rw [sub_add_cancel, abs_mul] at h3
    have h4 : |c| * |d.val| ≤ C * 1.001 := mul_le_mul h2 D (abs_nonneg _) (le_trans (abs_nonneg _) h2)
    have h5 : 0 ≤ C := le_trans (abs_nonneg _) h2
    norm_num at *
    linarith
  have b0 := B e0 m2
  have b1 := B e1 m5
  have b2 := B e2 m8
  have t0 : |n.x0.val * y0.val| ≤ 1 * 0.0011 := by
    rw [abs_mul]; exact mul_le_mul n0 (b0.trans (by norm_num)) (abs_nonneg _) (by norm_num)
  have t1 : |n.x1.val * y1.val| ≤ 1 * 0.0011 := by
    rw [abs_mul]; exact mul_le_mul n1 (b1.trans (by norm_num)) (abs_nonneg _) (by norm_num)
  have t2 : |n.x2.val * y2.val| ≤ 1 / 1000 * 2.1 := by
    rw [abs_mul]; exact mul_le_mul n2 (b2.trans (by norm_num)) (abs_nonneg _) (by norm_num)
  have T : |n.x0.val * y0.val| + |n.x1.val * y1.val| + |n.x2.val * y2.val| ≤ 0.0044 := by
    norm_num at t0 t1 t2 ⊢; linarith
  obtain ⟨fr, er⟩ := dot3_err (fn 0 0) (fn 0 1) (fn 0 2) f0 f1 f2 (by
    change |n.x0.val * y0.val| + |n.x1.val * y1.val| + |n.x2.val * y2.val| ≤ _
    have h1 := hf.wide.hmax
    have h2 : (2:ℚ) ^ 4 ≤ 2 ^ 126 := pow_le_pow_right₀ (by norm_num) (by norm_num)
    generalize (2:ℚ) ^ f.emax = z at *
    generalize (2:ℚ) ^ 126 = z' at *
    norm_num at h2 T ⊢
    linarith)
  set r : FP f := n.get 0 0 * y0 + n.get 0 1 * y1 + n.get 0 2 * y2 with hr
  change |r.val - (n.x0.val * y0.val + n.x1.val * y1.val + n.x2.val * y2.val)| ≤
    4 * f.u * (|n.x0.val * y0.val| + |n.x1.val * y1.val| + |n.x2.val * y2.val|) + 5 * f.eta at er
  have hu := hf.hu
  have het := hf.wide.heta
  have hu0 := f.u_pos
  have h2 : f.u / 2 ^ 124 ≤ (1 / 2 ^ 24) / 2 ^ 124 := div_le_div_of_nonneg_right hu (by positivity)
  have er' : |r.val - (n.x0.val * y0.val + n.x1.val * y1.val + n.x2.val * y2.val)| ≤ 2e-9 := by
    have h1 : 4 * f.u * (|n.x0.val * y0.val| + |n.x1.val * y1.val| + |n.x2.val * y2.val|) ≤
        4 * (1 / 2 ^ 24) * 0.0044 := mul_le_mul (by linarith) T (by positivity) (by norm_num)
    refine er.trans ?_
    norm_num at h1 h2 ⊢
    linarith
  have K : ∀ {a x y ε α : ℚ}, |x - y| ≤ ε → |a| ≤ α → |a * x - a * y| ≤ α * ε := by
    intro a x y ε α h1 h2
    rw [← mul_sub, abs_mul]
    exact mul_le_mul h2 h1 (abs_nonneg _) (le_trans (abs_nonneg _) h2)
  have k0 := K e0 n0
  have k1 := K e1 n1
  have k2 := K e2 n2
  have kd : |(n.x0.val * m.x2.val + n.x1.val * m.x5.val + n.x2.val * m.x8.val) * d.val -
      (n.x0.val * m.x2.val + n.x1.val * m.x5.val + n.x2.val * m.x8.val) * 1| ≤ 30e-6 * (1 / 10 ^ 5) :=
    K d2 (abs_le.2 ⟨by norm_num; linarith, s2.trans hhi⟩)
  have R : lo - 1e-7 ≤ r.val ∧ r.val ≤ hi + 1e-7 := by
    obtain ⟨v1, v2⟩ := abs_le.1 er'
    obtain ⟨v3, v4⟩ := abs_le.1 k0
    obtain ⟨v5, v6⟩ := abs_le.1 k1
    obtain ⟨v7, v8⟩ := abs_le.1 k2
    obtain ⟨v9, v10⟩ := abs_le.1 kd
    norm_num at v1 v2 v3 v4 v5 v6 v7 v8 v9 v10 ⊢
    constructor <;> linarith
  exact ⟨fr, R⟩

/-- the check: blue adds about 2.3e-5 to red -/
def blueCheck16 (m n : Matrix33 (FP f)) : Bool :=
  m.fin && n.fin && decide (
    22.6e-6 ≤ n.x0.val * m.x2.val + n.x1.val * m.x5.val + n.x2.val * m.x8.val ∧
    n.x0.val * m.x2.val + n.x1.val * m.x5.val + n.x2.val * m.x8.val ≤ 24e-6 ∧
    |m.x2.val| ≤ 1 / 1000 ∧ |m.x5.val| ≤ 1 / 1000 ∧ |m.x8.val| ≤ 2 ∧
    |n.x0.val| ≤ 1 ∧ |n.x1.val| ≤ 1 ∧ |n.x2.val| ≤ 1 / 1000)

theorem unquant16_65535 (hf : Std f) : (unquant16 65535 : FP f).val = 1 := by
  have hp := hf.p24
  have hN : 65535 ≤ 2 ^ f.p := le_trans (by norm_num) (Nat.pow_le_pow_right (by norm_num) (by omega : 16 ≤ f.p))
  obtain ⟨h1, h2, h3, h4⟩ := unquant_val (f := f) 65535 65535 le_rfl (by norm_num) hN (by norm_num)
  have e : (unquant16 65535 : FP f) = FP.ofQ f false ((65535 : ℕ) : ℚ) / FP.lit ((65535 : ℕ) : ℚ) := by
    unfold unquant16; norm_num; rfl
  rw [e, h2, div_self (by norm_num)]
  simpa using (FP.isRep_nat (f := f) 1 Nat.one_le_two_pow).1

theorem srgb_blue16 (hf : Std f) (hp : PowAccurate f) {m n : Matrix33 (FP f)} (h : blueCheck16 m n = true) :
    19 ≤ (((Shipped.srgb (FP.ofQ f false)).encode
      (n * (m * (Shipped.srgb (FP.ofQ f false)).decode (RGBu16.toF ⟨0, 0, 65535⟩)))).toU16).r := by
  unfold blueCheck16 at h
  simp only [Bool.and_eq_true, decide_eq_true_eq] at h
  obtain ⟨⟨hm, hn⟩, s1, s2, m2, m5, m8, n0, n1, n2⟩ := h
  obtain ⟨u1, -, -, u2, u3⟩ := unquant16_spec (f := f) hf 0
  have u0 : (unquant16 0 : FP f).val = 0 := by
    rcases u3 with h | h
    · exact h
    · have := (abs_le.1 u2).2
      have e : ((0 : UInt16).toNat : ℚ) = 0 := by decide
      rw [e] at this
      norm_num at this h
      linarith
  have hc := srgb_rel (f := f) hf hp (ε := 0) le_rfl (by norm_num)
  obtain ⟨w1, w2, w3, -, -⟩ := unquant16_spec (f := f) hf 65535
  have w4 := unquant16_65535 (f := f) hf
  obtain ⟨z1, -, -⟩ := hc.low _ u1 u0.ge (by rw [u0]; norm_num) (.inl u0)
  have z2 := hc.zero _ u1 u0
  obtain ⟨d1, -, -⟩ := hc.low _ w1 w2 w3 (.inr (by rw [w4]; norm_num))
  have d2 : |(decode.srgb_t (unquant16 65535 : FP f)).val - 1| ≤ 1 / 10 ^ 5 := by
    have := hc.one _ w1 w4
    qcast this
  obtain ⟨fr, r1, r2⟩ := blue_red hf hm hn (by norm_num) (by norm_num) s1 s2 m2 m5 m8 n0 n1 n2 z1 z2 d1 d2
  have goal : (((Shipped.srgb (FP.ofQ f false)).encode
      (n * (m * (Shipped.srgb (FP.ofQ f false)).decode (RGBu16.toF ⟨0, 0, 65535⟩)))).toU16).r =
      quant16 (encode.srgb_t (rgbVec (n * (m * (⟨decode.srgb_t (unquant16 0), decode.srgb_t (unquant16 0),
        decode.srgb_t (unquant16 65535)⟩ : RGBf (FP f)))) 0)) := rfl
  rw [goal]
  generalize rgbVec (n * (m * (⟨decode.srgb_t (unquant16 0), decode.srgb_t (unquant16 0),
        decode.srgb_t (unquant16 65535)⟩ : RGBf (FP f)))) 0 = r at *
  obtain ⟨m1, m2, m3⟩ := lit_between hf (q := 0.0031308) (lo := 0.0031) (hi := 0.0032) (by norm_num)
    (by norm_num) (by norm_num) (by norm_num)
  have m2' : (0.0031 : ℚ) ≤ (FP.lit 0.0031308 : FP f).val := by exact_mod_cast m2
  obtain ⟨e1, e2⟩ := srgb_enc_lin hf fr (le_trans (by norm_num) r1) (r2.trans (le_trans (by norm_num) m2'))
  have r1r : ((22.6e-6 - 1e-7 : ℚ) : ℝ) ≤ r.val := by exact_mod_cast r1
  obtain ⟨v1, -, -, v2, -⟩ := unquant16_spec (f := f) hf 19
  have e19 : ((19 : UInt16).toNat : ℚ) = 19 := by decide
  rw [e19] at v2
  have hle : FP.le (unquant16 19 : FP f) (encode.srgb_t r) = true := by
    refine FP.le_val v1 e1 ?_
    have hu := (u_tiny hf).1
    have h3 := (abs_le.1 e2).1
    have h4 := (abs_le.1 v2).2
    have h4r : ((unquant16 19 : FP f).val : ℝ) ≤ 19 / 65535 + 1 / 2 ^ 24 := by
      have : (unquant16 19 : FP f).val ≤ 19 / 65535 + 1 / 2 ^ 24 := by linarith
      qcast this
    have : ((unquant16 19 : FP f).val : ℝ) ≤ (encode.srgb_t r).val := by
      generalize ((unquant16 19 : FP f).val : ℝ) = A at *
      generalize ((encode.srgb_t r).val : ℝ) = B at *
      norm_num at hu h3 h4r r1r ⊢
      linarith
    exact_mod_cast this
  have h5 := C03_quant16_monotone _ _ (by have := hf.p24; omega) hle
  rwa [u16_roundtrip _ (by have := hf.p24; omega)] at h5

end

theorem srgb16_check64 : @withCat02 Fmt.b64 (noLibm _) (fun MAi MA =>
    @fastRgb Fmt.b64 (noLibm _) MAi MA Tripb64.srgb Tripb64.srgbDrv blueCheck16) = true := by krefl

theorem srgb16_check32 : @withCat02 Fmt.b32 (noLibm _) (fun MAi MA =>
    @fastRgb Fmt.b32 (noLibm _) MAi MA Tripb32.srgb Tripb32.srgbDrv blueCheck16) = true := by krefl

theorem srgb16_through {f : Fmt} (L : Libm f) (hf : Std f) (hp : PowAccurate f)
    {a0 b0 : ColorSpaceRGB (FP f)} {t : ℚ}
    (ha : Linked (.ok (Shipped.srgb (FP.ofQ f false)), t) (a0, t))
    (hb : Linked (Shipped.srgbDrv (FP.ofQ f false), t) (b0, t))
    (h : @withCat02 f (noLibm f) (fun MAi MA => @fastRgb f (noLibm f) MAi MA a0 b0 blueCheck16) = true) :
    ¬ Spec.Through16 (Spec.srgb f) (Shipped.srgbDrv (FP.ofQ f false)) := by
  rintro ⟨a', b', m, n, ea', eb', hm, hn, hall⟩
  obtain ⟨a, ea, a1, a2, a3, -⟩ := ha
  obtain ⟨b, eb, b1, b2, b3, -⟩ := hb
  have eb'' : b = b' := by
    have : (.ok b : Res (ColorSpaceRGB (FP f))) = .ok b' := by rw [← eb']; exact eb.symm
    exact Except.ok.inj this
  subst eb''
  cases ea
  cases ea'
  rw [← withCat02_libm L, ← fastRgb_libm L] at h
  obtain ⟨MAi, hi, h⟩ := withCat02_sound h
  obtain ⟨A, B, hA, hB, hk⟩ := fastRgb_sound hi h
  have hA' : rgbToRgbMatrix (Shipped.srgb (FP.ofQ f false)) b = .ok A := by
    rw [← hA]; unfold rgbToRgbMatrix; rw [a2, a3, b1, b3]
  have hB' : rgbToRgbMatrix b (Shipped.srgb (FP.ofQ f false)) = .ok B := by
    rw [← hB]; unfold rgbToRgbMatrix; rw [a1, a3, b2, b3]
  rw [hm] at hA'
  rw [hn] at hB'
  cases hA'
  cases hB'
  have h1 := srgb_blue16 hf hp hk
  rw [hall] at h1
  exact absurd h1 (by decide)

theorem link32 [L : Libm Fmt.b32] :
    Linked (.ok (Shipped.srgb (FP.ofQ Fmt.b32 false)), 0) (Tripb32.srgb, 0) :=
  linked_of_check (srgb_same Tripb32.l L) Tripb32.link_srgb

theorem link32' [L : Libm Fmt.b32] :
    Linked (Shipped.srgbDrv (FP.ofQ Fmt.b32 false), 0) (Tripb32.srgbDrv, 0) :=
  linked_of_check (srgbDrv_same Tripb32.l L) Tripb32.link_srgbDrv

theorem link64 [L : Libm Fmt.b64] :
    Linked (.ok (Shipped.srgb (FP.ofQ Fmt.b64 false)), 0) (Tripb64.srgb, 0) :=
  linked_of_check (srgb_same Tripb64.l L) Tripb64.link_srgb

theorem link64' [L : Libm Fmt.b64] :
    Linked (Shipped.srgbDrv (FP.ofQ Fmt.b64 false), 0) (Tripb64.srgbDrv, 0) :=
  linked_of_check (srgbDrv_same Tripb64.l L) Tripb64.link_srgbDrv

/-- C112 [F]: with the printed sRGB matrices 16 bits are too many. In f32 and in f64 the 16-bit sRGB colour
(0, 0, 65535), converted to SRGB_DRV and back, does not come back: its red is then at least 19. -/
theorem C112_srgb_counterexample [Libm Fmt.b32] [Libm Fmt.b64] (hp : PowAccurate Fmt.b32)
    (hp' : PowAccurate Fmt.b64) :
    ¬ Spec.Through16 (Spec.srgb Fmt.b32) (Shipped.srgbDrv (FP.ofQ Fmt.b32 false)) ∧
    ¬ Spec.Through16 (Spec.srgb Fmt.b64) (Shipped.srgbDrv (FP.ofQ Fmt.b64 false)) :=
  ⟨srgb16_through (t := 0) _ std_b32 hp link32 link32' srgb16_check32,
   srgb16_through (t := 0) _ std_b64 hp' link64 link64' srgb16_check64⟩

/-- Not vacuous: the library that rounds the exact power is accurate. -/
example : letI := idealLibm Fmt.b64
    PowAccurate Fmt.b64 := ideal_pow std_b64

end CS

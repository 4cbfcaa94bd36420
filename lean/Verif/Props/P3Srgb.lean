import Verif.Props.Srgb16

/-!
# 8-bit DCI-P3 images through the printed sRGB matrices (C112)
The curve of DCI-P3 is steep at black, so that the 2e-5 of red which the printed sRGB matrices add to blue becomes
several 8-bit codes.
-/

namespace CS

section
variable {f : Fmt} [Libm f]

/-- the check: blue adds about 1.9e-5 to red -/
def blueCheckP3 (m n : Matrix33 (FP f)) : Bool :=
  m.fin && n.fin && decide (
    18e-6 ≤ n.x0.val * m.x2.val + n.x1.val * m.x5.val + n.x2.val * m.x8.val ∧
    n.x0.val * m.x2.val + n.x1.val * m.x5.val + n.x2.val * m.x8.val ≤ 22e-6 ∧
    |m.x2.val| ≤ 1 / 1000 ∧ |m.x5.val| ≤ 1 / 1000 ∧ |m.x8.val| ≤ 2 ∧
    |n.x0.val| ≤ 1 ∧ |n.x1.val| ≤ 1 ∧ |n.x2.val| ≤ 1 / 1000)

theorem p3_blue (hf : Std f) (hp : PowAccurate f) {a : ColorSpaceRGB (FP f)}
    (h1 : a.oetf = (fun c => c.powf (FP.ofQ f false 1.0 / FP.ofQ f false 2.6)))
    (h2 : a.eotf = (fun c => c.powf (FP.ofQ f false 2.6))) {m n : Matrix33 (FP f)} (h : blueCheckP3 m n = true) :
    3 ≤ ((a.encode (n * (m * a.decode (RGBu8.toF ⟨0, 0, 255⟩)))).toU8).r := by
  unfold blueCheckP3 at h
  simp only [Bool.and_eq_true, decide_eq_true_eq] at h
  obtain ⟨⟨hm, hn⟩, s1, s2, m2, m5, m8, n0, n1, n2⟩ := h
  obtain ⟨u1, -, -, u2, u3⟩ := unquant8_spec (f := f) hf 0
  have u0 : (unquant8 0 : FP f).val = 0 := by
    rcases u3 with h | h
    · exact h
    · have := (abs_le.1 u2).2
      have e : ((0 : UInt8).toNat : ℚ) = 0 := by decide
      rw [e] at this
      norm_num at this h
      linarith
  have a1 := RelF.ofQ (f := f) hf (q := 2.6) (by norm_num) (by norm_num)
  have gpos : 0 < (FP.ofQ f false 2.6 : FP f).val := by have := a1.err.xpos; exact_mod_cast this
  obtain ⟨z1, z2⟩ := hp.zero _ _ u1 a1.fin u0 gpos
  obtain ⟨w1, w2, w3, -, -⟩ := unquant8_spec (f := f) hf 255
  have w4 : (unquant8 255 : FP f).val = 1 := by
    have hp24 := hf.p24
    have hN : 255 ≤ 2 ^ f.p := le_trans (by norm_num) (Nat.pow_le_pow_right (by norm_num) (by omega : 8 ≤ f.p))
    obtain ⟨t1, t2, t3, t4⟩ := unquant_val (f := f) 255 255 le_rfl (by norm_num) hN (by norm_num)
    have e : (unquant8 255 : FP f) = FP.ofQ f false ((255 : ℕ) : ℚ) / FP.lit ((255 : ℕ) : ℚ) := by
      unfold unquant8; norm_num; rfl
    rw [e, t2, div_self (by norm_num)]
    simpa using (FP.isRep_nat (f := f) 1 Nat.one_le_two_pow).1
  have g4 : |(FP.ofQ f false 2.6 : FP f).val| ≤ 4 := by
    obtain ⟨k3, k4⟩ := RelF.small (f := f) (n := 1) hf (by norm_num) (by norm_num)
    have k5 : (1 : ℝ) * kap f * (1 + 1 * kap f) ≤ 1 / 2 ^ 12 := by norm_num at k3 k4 ⊢; nlinarith
    obtain ⟨g3, g4⟩ := abs_le.1 (a1.err.to_abs k3 (by norm_num at k4 ⊢; linarith))
    have : |((FP.ofQ f false 2.6 : FP f).val : ℝ)| ≤ 4 := by
      generalize ((FP.ofQ f false 2.6 : FP f).val : ℝ) = A at *
      generalize (1 : ℝ) * kap f * (1 + 1 * kap f) = w at *
      rw [abs_le]
      norm_num at g3 g4 k5 ⊢
      constructor <;> linarith
    exact_mod_cast this
  obtain ⟨d1, d2⟩ := hp.near (unquant8 255) (FP.ofQ f false 2.6) w1 a1.fin (by rw [w4]; norm_num) (by rw [w4]; norm_num) g4
    (by rw [w4]; norm_num) (by rw [w4]; norm_num)
  rw [w4] at d2
  have huR : (f.u : ℝ) ≤ 1 / 2 ^ 24 := by qcast hf.hu
  have d3 : |(Flt.powf (unquant8 255) (FP.ofQ f false 2.6) : FP f).val - 1| ≤ 1 / 10 ^ 5 := by
    have : |((Flt.powf (unquant8 255) (FP.ofQ f false 2.6) : FP f).val : ℝ) - 1| ≤ 1 / 10 ^ 5 := by
      simp only [Rat.cast_one, Real.one_rpow, mul_one] at d2
      exact d2.trans (by norm_num at huR ⊢; linarith)
    qcast this
  obtain ⟨fr, r1, r2⟩ := blue_red hf hm hn (by norm_num) (by norm_num) s1 s2 m2 m5 m8 n0 n1 n2 z1 z2 d1 d3
  have goal : ((a.encode (n * (m * a.decode (RGBu8.toF ⟨0, 0, 255⟩)))).toU8).r =
      quant8 (Flt.powf (rgbVec (n * (m * (⟨Flt.powf (unquant8 0) (FP.ofQ f false 2.6),
        Flt.powf (unquant8 0) (FP.ofQ f false 2.6), Flt.powf (unquant8 255) (FP.ofQ f false 2.6)⟩ : RGBf (FP f)))) 0)
        (FP.ofQ f false 1.0 / FP.ofQ f false 2.6)) := by
    unfold ColorSpaceRGB.encode ColorSpaceRGB.decode
    rw [h1, h2]
    rfl
  rw [goal]
  generalize rgbVec (n * (m * (⟨Flt.powf (unquant8 0) (FP.ofQ f false 2.6),
        Flt.powf (unquant8 0) (FP.ofQ f false 2.6), Flt.powf (unquant8 255) (FP.ofQ f false 2.6)⟩ : RGBf (FP f)))) 0
      = r at *
  have a2 := (RelF.ofQ_one (f := f)).div hf
    (RelF.ofQ hf (q := 2.6) (by norm_num) (by norm_num))
    (by norm_num) (by norm_num) (by norm_num) (by norm_num) (by norm_num)
  obtain ⟨k3, k4⟩ := RelF.small (f := f) (n := 0 + 1 + 1) hf (by norm_num) (by norm_num)
  obtain ⟨g3, g4⟩ := abs_le.1 (a2.err.to_abs k3 (by norm_num at k4 ⊢; linarith))
  have gf := a2.fin
  have hs : (0 + 1 + 1) * kap f * (1 + (0 + 1 + 1) * kap f) ≤ 1 / 2 ^ 12 := by
    norm_num at k3 k4 ⊢; nlinarith
  generalize (FP.ofQ f false 1.0 / FP.ofQ f false 2.6 : FP f) = g at *
  have q1 : (1 / 5 : ℝ) ≤ g.val := by
    generalize (0 + 1 + 1) * kap f * (1 + (0 + 1 + 1) * kap f) = w at *
    norm_num at g3 g4 hs ⊢
    linarith
  have q2 : (g.val : ℝ) ≤ 2 / 5 := by
    generalize (0 + 1 + 1) * kap f * (1 + (0 + 1 + 1) * kap f) = w at *
    norm_num at g3 g4 hs ⊢
    linarith
  have r1' : (17.9e-6 : ℝ) ≤ r.val := by
    have : ((18e-6 - 1e-7 : ℚ) : ℝ) ≤ r.val := by exact_mod_cast r1
    norm_num at this ⊢; exact this
  have r2' : (r.val : ℝ) ≤ 1 := by
    have : (r.val : ℝ) ≤ ((22e-6 + 1e-7 : ℚ) : ℝ) := by exact_mod_cast r2
    norm_num at this ⊢; linarith
  have r0 : (0 : ℝ) < r.val := by norm_num at r1'; linarith
  have lo : (0.012 : ℝ) ≤ (r.val : ℝ) ^ (g.val : ℝ) := by
    have h1 : (r.val : ℝ) ^ (2 / 5 : ℝ) ≤ (r.val : ℝ) ^ (g.val : ℝ) :=
      Real.rpow_le_rpow_of_exponent_ge r0 r2' q2
    have h2 : (17.9e-6 : ℝ) ^ (2 / 5 : ℝ) ≤ (r.val : ℝ) ^ (2 / 5 : ℝ) :=
      Real.rpow_le_rpow (by norm_num) r1' (by norm_num)
    have h3 : (0.012 : ℝ) ≤ (17.9e-6 : ℝ) ^ (2 / 5 : ℝ) := by
      rw [show (2 / 5 : ℝ) = ((2:ℕ):ℝ) * ((5:ℕ):ℝ)⁻¹ by norm_num, Real.rpow_mul (by norm_num),
        Real.rpow_natCast]
      refine le_trans (le_of_eq ?_) (Real.rpow_le_rpow (z := ((5:ℕ):ℝ)⁻¹) (x := (0.012:ℝ) ^ 5)
        (by positivity) (by norm_num) (by positivity))
      rw [Real.pow_rpow_inv_natCast (by norm_num) (by norm_num)]
    linarith
  have hi : (r.val : ℝ) ^ (g.val : ℝ) ≤ 1 := Real.rpow_le_one r0.le r2' (by linarith)
  obtain ⟨e1, e2⟩ := hp.near r g fr gf (le_trans (by norm_num) r1) (le_trans r2 (by norm_num))
    (by
      have h2 : |(g.val : ℝ)| ≤ 4 := by rw [abs_le]; constructor <;> linarith
      exact_mod_cast h2)
    (le_trans (by norm_num) lo) (le_trans hi (by norm_num))
  obtain ⟨v1, -, -, v2, -⟩ := unquant8_spec (f := f) hf 3
  have hle : FP.le (unquant8 3 : FP f) (Flt.powf r g) = true := by
    refine FP.le_val v1 e1 ?_
    have e3 : ((3 : UInt8).toNat : ℚ) = 3 := by decide
    rw [e3] at v2
    have v3 : |((unquant8 3 : FP f).val : ℝ) - 3 / 255| ≤ 1 / 2 ^ 24 := by qcast v2
    have h1 : 4 * (f.u : ℝ) * (r.val : ℝ) ^ (g.val : ℝ) ≤ 4 * (1 / 2 ^ 24) * 1 :=
      mul_le_mul (by linarith) hi (le_trans (by norm_num) lo) (by norm_num)
    have w5 := (abs_le.1 (e2.trans h1)).1
    have v4 := (abs_le.1 v3).2
    have : ((unquant8 3 : FP f).val : ℝ) ≤ (Flt.powf r g).val := by
      generalize (r.val : ℝ) ^ (g.val : ℝ) = P at *
      generalize ((unquant8 3 : FP f).val : ℝ) = A at *
      generalize ((Flt.powf r g).val : ℝ) = B at *
      norm_num at w5 v4 lo ⊢
      linarith
    exact_mod_cast this
  have h5 := C03_quant8_monotone _ _ (by have := hf.p24; omega) hle
  rwa [u8_roundtrip _ (by have := hf.p24; omega)] at h5

end

theorem p3_check64 : @withCat02 Fmt.b64 (noLibm _) (fun MAi MA =>
    @fastRgb Fmt.b64 (noLibm _) MAi MA Tripb64.dciP3D65 Tripb64.srgb blueCheckP3) = true := by krefl

theorem p3_check32 : @withCat02 Fmt.b32 (noLibm _) (fun MAi MA =>
    @fastRgb Fmt.b32 (noLibm _) MAi MA Tripb32.dciP3D65 Tripb32.srgb blueCheckP3) = true := by krefl

theorem p3_through {f : Fmt} (L : Libm f) (hf : Std f) (hp : PowAccurate f)
    {a0 b0 : ColorSpaceRGB (FP f)} {t : ℚ}
    (ha : Linked (Shipped.dciP3D65 (FP.ofQ f false), t) (a0, t))
    (hb : Linked (.ok (Shipped.srgb (FP.ofQ f false)), t) (b0, t))
    (h : @withCat02 f (noLibm f) (fun MAi MA => @fastRgb f (noLibm f) MAi MA a0 b0 blueCheckP3) = true) :
    ∃ a m n, Shipped.dciP3D65 (FP.ofQ f false) = .ok a ∧
      rgbToRgbMatrix a (Shipped.srgb (FP.ofQ f false)) = .ok m ∧
      rgbToRgbMatrix (Shipped.srgb (FP.ofQ f false)) a = .ok n ∧
      3 ≤ ((a.encode (n * (m * a.decode (RGBu8.toF ⟨0, 0, 255⟩)))).toU8).r := by
  obtain ⟨a, ea, a1, a2, a3, -⟩ := ha
  obtain ⟨b, eb, b1, b2, b3, -⟩ := hb
  cases eb
  rw [← withCat02_libm L, ← fastRgb_libm L] at h
  obtain ⟨MAi, hi, h⟩ := withCat02_sound h
  obtain ⟨A, B, hA, hB, hk⟩ := fastRgb_sound hi h
  obtain ⟨c1, c2⟩ := new_curves ea
  refine ⟨a, A, B, ea, ?_, ?_, p3_blue hf hp c1 c2 hk⟩
  · rw [← hA]; unfold rgbToRgbMatrix; rw [a2, a3, b1, b3]
  · rw [← hB]; unfold rgbToRgbMatrix; rw [a1, a3, b2, b3]

theorem link32P3 [L : Libm Fmt.b32] :
    Linked (Shipped.dciP3D65 (FP.ofQ Fmt.b32 false), 0) (Tripb32.dciP3D65, 0) :=
  linked_of_check (dciP3D65_same Tripb32.l L) Tripb32.link_dciP3D65

theorem link64P3 [L : Libm Fmt.b64] :
    Linked (Shipped.dciP3D65 (FP.ofQ Fmt.b64 false), 0) (Tripb64.dciP3D65, 0) :=
  linked_of_check (dciP3D65_same Tripb64.l L) Tripb64.link_dciP3D65

/-- C112 [F]: 8-bit DCI-P3 D65 images do not survive a detour through sRGB with its printed matrices. In f32 and in
f64 the colour (0, 0, 255) comes back with red of at least 3. -/
theorem C112_p3_counterexample [Libm Fmt.b32] [Libm Fmt.b64] (hp : PowAccurate Fmt.b32)
    (hp' : PowAccurate Fmt.b64) :
    (∃ a m n, Shipped.dciP3D65 (FP.ofQ Fmt.b32 false) = .ok a ∧
      rgbToRgbMatrix a (Shipped.srgb (FP.ofQ Fmt.b32 false)) = .ok m ∧
      rgbToRgbMatrix (Shipped.srgb (FP.ofQ Fmt.b32 false)) a = .ok n ∧
      3 ≤ ((a.encode (n * (m * a.decode (RGBu8.toF ⟨0, 0, 255⟩)))).toU8).r) ∧
    (∃ a m n, Shipped.dciP3D65 (FP.ofQ Fmt.b64 false) = .ok a ∧
      rgbToRgbMatrix a (Shipped.srgb (FP.ofQ Fmt.b64 false)) = .ok m ∧
      rgbToRgbMatrix (Shipped.srgb (FP.ofQ Fmt.b64 false)) a = .ok n ∧
      3 ≤ ((a.encode (n * (m * a.decode (RGBu8.toF ⟨0, 0, 255⟩)))).toU8).r) :=
  ⟨p3_through (t := 0) _ std_b32 hp link32P3 link32 p3_check32,
   p3_through (t := 0) _ std_b64 hp' link64P3 link64 p3_check64⟩

/-- Not vacuous: the library that rounds the exact power is accurate. -/
example : letI := idealLibm Fmt.b32
    PowAccurate Fmt.b32 := ideal_pow std_b32

end CS

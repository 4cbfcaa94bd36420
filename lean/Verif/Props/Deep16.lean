import Verif.Lemmas.CurveRel
import Verif.Props.Grey8F
import Verif.Lemmas.FPMono
import Mathlib.Analysis.MeanInequalitiesPow

/-!
# 16-bit images, and DCI-P3 images, through other spaces and back (C112)

The companion of C83 for 16 bits per component. Double precision is needed for the spaces with a
transfer curve: single precision keeps 16 bits only where the components are linear.

The power curve of DCI-P3 is infinitely steep at black, so a component that comes back a little above
or below zero matters. There the theorem assumes, besides the accuracy of `powf`, that raising keeps the
order and that a negative base with a fractional exponent gives NaN, as IEEE 754 requires.
-/

namespace CS

/-! ### specification -/

/-- both spaces and both matrices exist, and every 16-bit pixel of the first survives decoding,
conversion to the second, conversion back and encoding -/
def Spec.Through16 {f : Fmt} [Libm f] (r s : Res (ColorSpaceRGB (FP f))) : Prop :=
  ∃ a b m n, r = .ok a ∧ s = .ok b ∧ rgbToRgbMatrix a b = .ok m ∧ rgbToRgbMatrix b a = .ok n ∧
    ∀ c : RGBu16, (a.encode (n * (m * a.decode c.toF))).toU16 = c

/-- the same through XYZ, for each of the six white points -/
def Spec.ThroughXyz16 {f : Fmt} [Libm f] (r : Res (ColorSpaceRGB (FP f))) : Prop :=
  ∃ cs, r = .ok cs ∧ ∀ w ∈ Spec.whites f, ∃ A B, xyzToRgbMatrix w cs = .ok A ∧
    rgbToXyzMatrix w cs = .ok B ∧
    ∀ c : RGBu16, (cs.encode (xyzToRgb A (rgbToXyz B (cs.decode c.toF)))).toU16 = c

/-- the spaces whose matrices are computed from their primaries -/
def Spec.derived (f : Fmt) [Libm f] : List (Res (ColorSpaceRGB (FP f))) :=
  let l := FP.ofQ f false
  [Shipped.srgbDrv l, Shipped.bt709 l, Shipped.bt2020 l, Shipped.dciP3 l, Shipped.dciP3D65 l,
   Shipped.acesCg l]

/-- the two linear spaces -/
def Spec.linears (f : Fmt) [Libm f] : List (Res (ColorSpaceRGB (FP f))) :=
  [.ok (Shipped.aces (FP.ofQ f false)), Shipped.acesCg (FP.ofQ f false)]

/-- the two DCI-P3 spaces -/
def Spec.dcis (f : Fmt) [Libm f] : List (Res (ColorSpaceRGB (FP f))) :=
  [Shipped.dciP3 (FP.ofQ f false), Shipped.dciP3D65 (FP.ofQ f false)]

/-- What IEEE 754 says of `powf` for a negative base: unless the exponent is an integer, the result is
NaN. -/
structure PowNegative (f : Fmt) [Libm f] : Prop where
  nan : ∀ x y : FP f, x.isFinite = true → y.isFinite = true → x.val < 0 → y.val.den ≠ 1 →
    (Flt.powf x y).isNaN = true

/-! ### from codes to pixels -/

section
variable {f : Fmt} [Libm f]

theorem pixel16 {δ : ℝ} {cs : ColorSpaceRGB (FP f)} {enc dec : FP f → FP f}
    (henc : cs.oetf = RGBf.mapc enc) (hdec : cs.eotf = RGBf.mapc dec)
    (hb : ∀ n : UInt16, (dec (unquant16 n)).isFinite = true ∧ |((dec (unquant16 n)).val : ℝ)| ≤ 1.00001)
    (key : ∀ (n : UInt16) (x : FP f), x.isFinite = true →
      |(x.val : ℝ) - (dec (unquant16 n)).val| ≤ δ → quant16 (enc x) = n)
    (g : RGBf (FP f) → RGBf (FP f))
    (hg : ∀ c, (∀ i, (rgbVec c i).isFinite = true ∧ |(rgbVec c i).val| ≤ 1.00001) → ∀ i,
      (rgbVec (g c) i).isFinite = true ∧ |((rgbVec (g c) i).val : ℝ) - (rgbVec c i).val| ≤ δ)
    (c : RGBu16) : (cs.encode (g (cs.decode c.toF))).toU16 = c := by
  unfold ColorSpaceRGB.encode ColorSpaceRGB.decode
  rw [henc, hdec]
  have hb' : ∀ n : UInt16, (dec (unquant16 n)).isFinite = true ∧ |(dec (unquant16 n) : FP f).val| ≤ 1.00001 := by
    intro n
    refine ⟨(hb n).1, ?_⟩
    have : |((dec (unquant16 n) : FP f).val : ℝ)| ≤ ((1.00001 : ℚ) : ℝ) := (hb n).2.trans (by norm_num)
    exact_mod_cast this
  obtain ⟨r, gg, b⟩ := c
  have hv := hg (RGBf.mapc dec (RGBu16.toF ⟨r, gg, b⟩)) (by
    intro i; fin_cases i
    · exact hb' r
    · exact hb' gg
    · exact hb' b)
  have k0 := key r _ (hv 0).1 (hv 0).2
  have k1 := key gg _ (hv 1).1 (hv 1).2
  have k2 := key b _ (hv 2).1 (hv 2).2
  show (⟨_, _, _⟩ : RGBu16) = _
  exact congr (congrArg₂ RGBu16.mk k0 k1) k2

theorem pixel8 {δ : ℝ} {cs : ColorSpaceRGB (FP f)} {enc dec : FP f → FP f}
    (henc : cs.oetf = RGBf.mapc enc) (hdec : cs.eotf = RGBf.mapc dec)
    (hb : ∀ n : UInt8, (dec (unquant8 n)).isFinite = true ∧ |((dec (unquant8 n)).val : ℝ)| ≤ 1.00001)
    (key : ∀ (n : UInt8) (x : FP f), x.isFinite = true →
      |(x.val : ℝ) - (dec (unquant8 n)).val| ≤ δ → quant8 (enc x) = n)
    (g : RGBf (FP f) → RGBf (FP f))
    (hg : ∀ c, (∀ i, (rgbVec c i).isFinite = true ∧ |(rgbVec c i).val| ≤ 1.00001) → ∀ i,
      (rgbVec (g c) i).isFinite = true ∧ |((rgbVec (g c) i).val : ℝ) - (rgbVec c i).val| ≤ δ)
    (c : RGBu8) : (cs.encode (g (cs.decode c.toF))).toU8 = c := by
  unfold ColorSpaceRGB.encode ColorSpaceRGB.decode
  rw [henc, hdec]
  have hb' : ∀ n : UInt8, (dec (unquant8 n)).isFinite = true ∧ |(dec (unquant8 n) : FP f).val| ≤ 1.00001 := by
    intro n
    refine ⟨(hb n).1, ?_⟩
    have : |((dec (unquant8 n) : FP f).val : ℝ)| ≤ ((1.00001 : ℚ) : ℝ) := (hb n).2.trans (by norm_num)
    exact_mod_cast this
  obtain ⟨r, gg, b⟩ := c
  have hv := hg (RGBf.mapc dec (RGBu8.toF ⟨r, gg, b⟩)) (by
    intro i; fin_cases i
    · exact hb' r
    · exact hb' gg
    · exact hb' b)
  have k0 := key r _ (hv 0).1 (hv 0).2
  have k1 := key gg _ (hv 1).1 (hv 1).2
  have k2 := key b _ (hv 2).1 (hv 2).2
  show (⟨_, _, _⟩ : RGBu8) = _
  exact congr (congrArg₂ RGBu8.mk k0 k1) k2

/-- the pixels of a space with curves `enc` and `dec` survive any map that moves components by at most `δ` -/
def Keeps16 (δ : ℝ) (cs : ColorSpaceRGB (FP f)) : Prop :=
  ∀ g : RGBf (FP f) → RGBf (FP f),
    (∀ c, (∀ i, (rgbVec c i).isFinite = true ∧ |(rgbVec c i).val| ≤ 1.00001) → ∀ i,
      (rgbVec (g c) i).isFinite = true ∧ |((rgbVec (g c) i).val : ℝ) - (rgbVec c i).val| ≤ δ) →
    ∀ c : RGBu16, (cs.encode (g (cs.decode c.toF))).toU16 = c

/-- the same for eight bits -/
def Keeps8 (δ : ℝ) (cs : ColorSpaceRGB (FP f)) : Prop :=
  ∀ g : RGBf (FP f) → RGBf (FP f),
    (∀ c, (∀ i, (rgbVec c i).isFinite = true ∧ |(rgbVec c i).val| ≤ 1.00001) → ∀ i,
      (rgbVec (g c) i).isFinite = true ∧ |((rgbVec (g c) i).val : ℝ) - (rgbVec c i).val| ≤ δ) →
    ∀ c : RGBu8, (cs.encode (g (cs.decode c.toF))).toU8 = c

theorem Keeps16.mono {δ δ' : ℝ} {cs : ColorSpaceRGB (FP f)} (h : Keeps16 δ cs) (h' : δ' ≤ δ) :
    Keeps16 δ' cs := fun g hg => h g fun c hc i => ⟨(hg c hc i).1, (hg c hc i).2.trans h'⟩

theorem Keeps8.mono {δ δ' : ℝ} {cs : ColorSpaceRGB (FP f)} (h : Keeps8 δ cs) (h' : δ' ≤ δ) :
    Keeps8 δ' cs := fun g hg => h g fun c hc i => ⟨(hg c hc i).1, (hg c hc i).2.trans h'⟩

theorem linear_keeps16 (hf : Std f) {cs : ColorSpaceRGB (FP f)} (h1 : cs.oetf = encode.linear)
    (h2 : cs.eotf = decode.linear) : Keeps16 (1 / 150000) cs := fun g hg c =>
  pixel16 (enc := encode.linear_t) (dec := decode.linear_t) h1 h2 (fun n => by
    obtain ⟨a, b, c, -⟩ := unquant16_spec (f := f) hf n
    refine ⟨a, ?_⟩
    have hy1 : ((unquant16 n : FP f).val : ℝ) ≤ 1 := by exact_mod_cast c
    have hy0 : (0 : ℝ) ≤ (unquant16 n : FP f).val := by exact_mod_cast b
    show |((unquant16 n : FP f).val : ℝ)| ≤ _
    rw [abs_of_nonneg hy0]; exact hy1.trans (by norm_num))
    (fun n x hx hd => quant16_of_near hf hx n hd) g hg c

theorem linear_keeps8 (hf : Std f) {cs : ColorSpaceRGB (FP f)} (h1 : cs.oetf = encode.linear)
    (h2 : cs.eotf = decode.linear) : Keeps8 (1 / 600) cs := fun g hg c =>
  pixel8 (enc := encode.linear_t) (dec := decode.linear_t) h1 h2 (fun n => by
    obtain ⟨a, b, c, -⟩ := unquant8_spec (f := f) hf n
    refine ⟨a, ?_⟩
    have hy1 : ((unquant8 n : FP f).val : ℝ) ≤ 1 := by exact_mod_cast c
    have hy0 : (0 : ℝ) ≤ (unquant8 n : FP f).val := by exact_mod_cast b
    show |((unquant8 n : FP f).val : ℝ)| ≤ _
    rw [abs_of_nonneg hy0]; exact hy1.trans (by norm_num))
    (fun n x hx hd => quant8_of_near hf hx n hd) g hg c

theorem through16_of {r s : Res (ColorSpaceRGB (FP f))} {t : ℚ} (h : Spec.PairReturns r s t)
    (hk : ∀ cs, r = .ok cs → Keeps16 (((t * 1.00001 : ℚ)) : ℝ) cs) : Spec.Through16 r s := by
  obtain ⟨a, b, m, n, e1, e2, e3, e4, hr⟩ := h
  exact ⟨a, b, m, n, e1, e2, e3, e4, hk a e1 _ (fun c hc i => returns_move hr c hc i)⟩

theorem through8_of {r s : Res (ColorSpaceRGB (FP f))} {t : ℚ} (h : Spec.PairReturns r s t)
    (hk : ∀ cs, r = .ok cs → Keeps8 (((t * 1.00001 : ℚ)) : ℝ) cs) : Spec.Through8 r s := by
  obtain ⟨a, b, m, n, e1, e2, e3, e4, hr⟩ := h
  exact ⟨a, b, m, n, e1, e2, e3, e4, hk a e1 _ (fun c hc i => returns_move hr c hc i)⟩

theorem throughXyz16_of {r : Res (ColorSpaceRGB (FP f))} {t : ℚ} (h : Spec.SpaceTrips r t)
    (hk : ∀ cs, r = .ok cs → Keeps16 (((t * 1.00001 : ℚ)) : ℝ) cs) : Spec.ThroughXyz16 r := by
  obtain ⟨cs, e, hw⟩ := h
  refine ⟨cs, e, fun w hw' => ?_⟩
  obtain ⟨A, B, hA, hB, hT⟩ := hw w hw'
  refine ⟨A, B, hA, hB, hk cs e (fun c => xyzToRgb A (rgbToXyz B c)) (fun c hc i => ?_)⟩
  obtain ⟨a, b⟩ := hT.2 c 1.00001 (by norm_num) (by norm_num) hc i
  exact ⟨a, by exact_mod_cast b⟩

end

/-! ### sRGB in double precision -/

theorem u_b64_real : ((Fmt.b64.u : ℚ) : ℝ) ≤ 1 / 10 ^ 15 := by
  have : Fmt.b64.u ≤ 1 / 10 ^ 15 := by norm_num [Fmt.u, Fmt.b64]
  have : ((Fmt.b64.u : ℚ) : ℝ) ≤ ((1 / 10 ^ 15 : ℚ) : ℝ) := by exact_mod_cast this
  exact this.trans (by norm_num)

theorem srgb_keeps16 [Libm Fmt.b64] (hp : PowAccurate Fmt.b64) {cs : ColorSpaceRGB (FP Fmt.b64)}
    (h1 : cs.oetf = encode.srgb) (h2 : cs.eotf = decode.srgb) : Keeps16 (1 / 10 ^ 7) cs := fun g hg c =>
  pixel16 (enc := encode.srgb_t) (dec := decode.srgb_t) h1 h2 (fun n => by
    obtain ⟨a, b, c, -⟩ := unquant16_spec (f := Fmt.b64) std_b64 n
    exact srgb_dec_bound std_b64 hp a b c)
    (fun n x hx hd => by
      obtain ⟨a, b, c, -⟩ := unquant16_spec (f := Fmt.b64) std_b64 n
      obtain ⟨p, q⟩ := srgb_close std_b64 hp a b c hx (by norm_num) hd
      refine quant16_of_near std_b64 p n (q.trans ?_)
      have := u_b64_real
      norm_num at this ⊢
      linarith) g hg c

/-! ### the curve of DCI-P3 -/

/-- powers with exponents in `[0,1]` are subadditive -/
theorem rpow_sub_le {x y d p : ℝ} (hx : 0 ≤ x) (hy : 0 ≤ y) (hp0 : 0 ≤ p) (hp1 : p ≤ 1) (h : |x - y| ≤ d) :
    |x ^ p - y ^ p| ≤ d ^ p := by
  have key : ∀ a b : ℝ, 0 ≤ a → 0 ≤ b → a - b ≤ d → a ^ p ≤ b ^ p + d ^ p := by
    intro a b ha hb hab
    have d0 : 0 ≤ d := (abs_nonneg _).trans h
    have h1 : a ^ p ≤ (b + d) ^ p := Real.rpow_le_rpow ha (by linarith) hp0
    have h2 := NNReal.rpow_add_le_add_rpow ⟨b, hb⟩ ⟨d, d0⟩ hp0 hp1
    have h3 : (b + d) ^ p ≤ b ^ p + d ^ p := by exact_mod_cast h2
    exact h1.trans h3
  obtain ⟨h1, h2⟩ := abs_le.1 h
  have a1 := key x y hx hy h2
  have a2 := key y x hy hx (by linarith)
  rw [abs_le]
  constructor <;> linarith

/-- comparing a fractional power with a number -/
theorem rpow_le_of_pow {d k : ℝ} (hd : 0 ≤ d) (hk : 0 ≤ k) (h : d ^ 5 ≤ k ^ 13) : d ^ (1 / (2.6 : ℝ)) ≤ k := by
  have e : d ^ (1 / (2.6:ℝ)) = (d ^ 5) ^ (1 / (13:ℝ)) := by
    rw [← Real.rpow_natCast d 5, ← Real.rpow_mul hd]; norm_num
  have e' : k = (k ^ 13) ^ (1 / (13:ℝ)) := by
    rw [← Real.rpow_natCast k 13, ← Real.rpow_mul hk]; norm_num
  rw [e, e']
  exact Real.rpow_le_rpow (by positivity) h (by norm_num)

section
variable [Libm Fmt.b64]

/-- the encoding exponent -/
abbrev dciP : FP Fmt.b64 := FP.ofQ Fmt.b64 false 1.0 / FP.ofQ Fmt.b64 false 2.6

omit [Libm Fmt.b64] in
theorem kap_b64 : kap Fmt.b64 ≤ 1 / 10 ^ 14 := by
  have := u_b64_real
  unfold kap
  norm_num at this ⊢
  linarith

theorem dci_enc (hp : PowAccurate Fmt.b64) {x : FP Fmt.b64} (hx : x.isFinite = true)
    (h0 : (1:ℝ) / 2 ^ 52 ≤ x.val) (h1 : (x.val : ℝ) ≤ 1.01) :
    (Flt.powf x dciP).isFinite = true ∧
    |((Flt.powf x dciP).val : ℝ) - (x.val : ℝ) ^ (1 / (2.6 : ℝ))| ≤ 1 / 10 ^ 12 := by
  have hx0 : (0:ℝ) < x.val := lt_of_lt_of_le (by positivity) h0
  have a2 := (RelF.ofQ_one (f := Fmt.b64)).div std_b64
    (RelF.ofQ std_b64 (q := 2.6) (by norm_num) (by norm_num))
    (by norm_num) (by norm_num) (by norm_num) (by norm_num) (by norm_num)
  have hlog := abs_log_le (X := (x.val : ℝ)) 52 h0 (le_trans h1 (by norm_num))
  have a3 := (RelF.exact hx (by exact_mod_cast hx0)).powf std_b64 hp a2 (N := 50)
    (L := 52 * (6932 / 10000)) le_rfl (by norm_num) (by norm_num) (by norm_num)
    (le_trans (by norm_num) h0) (by norm_num at h1 ⊢; linarith) (by norm_num) (by norm_num)
    (by exact_mod_cast hlog) (by norm_num) (by norm_num)
  refine ⟨a3.fin, ?_⟩
  obtain ⟨s1, s2⟩ := RelF.small std_b64 (n := 50) (by norm_num) (by norm_num)
  have hP : (x.val : ℝ) ^ (1 / (2.6:ℝ)) ≤ 1.01 := by
    rcases le_total (x.val : ℝ) 1 with h | h
    · exact le_trans (Real.rpow_le_one hx0.le h (by norm_num)) (by norm_num)
    · refine le_trans ?_ h1
      calc _ ≤ (x.val : ℝ) ^ (1 : ℝ) := Real.rpow_le_rpow_of_exponent_le h (by norm_num)
        _ = _ := Real.rpow_one _
  have hk : 50 * kap Fmt.b64 * (1 + 50 * kap Fmt.b64) ≤ 6 / 10 ^ 13 := by
    have h1 := kap_b64
    have h' := kap_pos Fmt.b64
    nlinarith
  have h' := kap_pos Fmt.b64
  have h3 := a3.err.to_abs s1 (le_trans s2 (by norm_num))
  have e : ((2.6 : ℚ) : ℝ) = 2.6 := by norm_num
  rw [e] at h3
  refine h3.trans ?_
  calc _ ≤ 1.01 * (6 / 10 ^ 13 : ℝ) := mul_le_mul hP hk (by positivity) (by norm_num)
    _ ≤ _ := by norm_num

theorem dci_dec (hp : PowAccurate Fmt.b64) {y : FP Fmt.b64} (hy : y.isFinite = true)
    (h0 : 1 / 2 ^ 17 ≤ y.val) (h1 : y.val ≤ 1) :
    (Flt.powf y (FP.ofQ Fmt.b64 false 2.6)).isFinite = true ∧
    |((Flt.powf y (FP.ofQ Fmt.b64 false 2.6)).val : ℝ) - (y.val : ℝ) ^ (2.6 : ℝ)| ≤
      1 / 10 ^ 12 * (y.val : ℝ) ^ (2.6 : ℝ) := by
  have hy0 : (0:ℝ) < y.val := by
    exact_mod_cast lt_of_lt_of_le (by positivity : (0:ℚ) < 1 / 2 ^ 17) h0
  have h0r : (1:ℝ) / 2 ^ 17 ≤ y.val := by qcast h0
  have h1r : (y.val : ℝ) ≤ 1 := by exact_mod_cast h1
  have hlog := abs_log_le (X := (y.val : ℝ)) 17 h0r (le_trans h1r (by norm_num))
  have a1 := (RelF.exact hy (by exact_mod_cast hy0)).powf std_b64 hp
    (RelF.ofQ std_b64 (q := 2.6) (by norm_num) (by norm_num)) (N := 36)
    (L := 17 * (6932 / 10000)) le_rfl (by norm_num) (by norm_num) (by norm_num)
    (le_trans (by norm_num) h0r) (by linarith) (by norm_num) (by norm_num) (by exact_mod_cast hlog)
    (by norm_num) (by norm_num)
  refine ⟨a1.fin, ?_⟩
  obtain ⟨s1, s2⟩ := RelF.small std_b64 (n := 36) (by norm_num) (by norm_num)
  have h3 := a1.err.to_abs s1 (le_trans s2 (by norm_num))
  have e : ((2.6 : ℚ) : ℝ) = 2.6 := by norm_num
  rw [e] at h3
  refine h3.trans ?_
  rw [mul_comm]
  refine mul_le_mul_of_nonneg_right ?_ (Real.rpow_nonneg hy0.le _)
  have h1 := kap_b64
  have h' := kap_pos Fmt.b64
  nlinarith

/-- away from black -/
theorem dci_close (hp : PowAccurate Fmt.b64) {y x : FP Fmt.b64} (hy : y.isFinite = true)
    (h0 : 1 / 2 ^ 17 ≤ y.val) (h1 : y.val ≤ 1) (hx : x.isFinite = true) {lo d k : ℝ}
    (hlo : lo ≤ (y.val : ℝ) ^ (2.6:ℝ)) (hlo' : 1 / 2 ^ 50 + d ≤ lo * (1 - 1 / 10 ^ 12)) (hd1 : d ≤ 1 / 1000)
    (hk : 0 ≤ k) (hdk : d ^ 5 ≤ k ^ 13)
    (hd : |(x.val : ℝ) - (Flt.powf y (FP.ofQ Fmt.b64 false 2.6)).val| ≤ d) :
    (Flt.powf x dciP).isFinite = true ∧ |((Flt.powf x dciP).val : ℝ) - y.val| ≤ k + 2 / 10 ^ 12 := by
  obtain ⟨a, b⟩ := dci_dec hp hy h0 h1
  generalize hDe : ((Flt.powf y (FP.ofQ Fmt.b64 false 2.6)).val : ℝ) = D at b hd
  have hy0 : (0:ℝ) < y.val := by
    exact_mod_cast lt_of_lt_of_le (by positivity : (0:ℚ) < 1 / 2 ^ 17) h0
  have h1r : (y.val : ℝ) ≤ 1 := by exact_mod_cast h1
  have hX1 : (y.val : ℝ) ^ (2.6:ℝ) ≤ 1 := Real.rpow_le_one hy0.le h1r (by norm_num)
  have hX0 : 0 < (y.val : ℝ) ^ (2.6:ℝ) := Real.rpow_pos_of_pos hy0 _
  have hXp : ((y.val : ℝ) ^ (2.6:ℝ)) ^ (1 / (2.6:ℝ)) = y.val := by
    rw [← Real.rpow_mul hy0.le]; norm_num
  have hr := rpow_rel hX0 (by norm_num) (p := 1 / (2.6:ℝ)) (by norm_num) (by norm_num) b
  rw [hXp] at hr
  generalize (y.val : ℝ) ^ (2.6:ℝ) = X at *
  have d0 : 0 ≤ d := (abs_nonneg _).trans hd
  obtain ⟨b1, b2⟩ := abs_le.1 b
  obtain ⟨c1, c2⟩ := abs_le.1 hd
  have hD : lo * (1 - 1 / 10 ^ 12) ≤ D := by
    have := mul_le_mul_of_nonneg_right hlo (by norm_num : (0:ℝ) ≤ 1 - 1 / 10 ^ 12)
    linarith
  have hx0 : (1:ℝ) / 2 ^ 52 ≤ x.val := by
    have : (1:ℝ) / 2 ^ 50 ≤ x.val := by linarith
    exact le_trans (by norm_num) this
  have hx1 : (x.val : ℝ) ≤ 1.01 := by
    have : D ≤ 1 + 1 / 10 ^ 12 := by linarith
    norm_num at this hd1 ⊢
    linarith
  obtain ⟨e1, e2⟩ := dci_enc hp hx hx0 hx1
  refine ⟨e1, ?_⟩
  have hD0 : 0 ≤ D := by
    have : (0:ℝ) < 1 / 2 ^ 50 := by positivity
    linarith
  have hx0' : (0:ℝ) ≤ x.val := le_trans (by positivity) hx0
  have hs := rpow_sub_le hx0' hD0 (p := 1 / (2.6:ℝ)) (by norm_num) (by norm_num) hd
  have hs' := hs.trans (rpow_le_of_pow d0 hk hdk)
  obtain ⟨f1, f2⟩ := abs_le.1 e2
  obtain ⟨g1, g2⟩ := abs_le.1 hs'
  obtain ⟨i1, i2⟩ := abs_le.1 hr
  have hy1 : 1 / 10 ^ 12 * (y.val : ℝ) ≤ 1 / 10 ^ 12 := by
    have := mul_le_mul_of_nonneg_left h1r (by positivity : (0:ℝ) ≤ 1 / 10 ^ 12)
    linarith
  rw [abs_le]
  constructor <;> linarith

theorem dciP_facts : (dciP).isFinite = true ∧ 0 < (dciP).val ∧ (dciP).val.den ≠ 1 := by
  have a2 := (RelF.ofQ_one (f := Fmt.b64)).div std_b64
    (RelF.ofQ std_b64 (q := 2.6) (by norm_num) (by norm_num))
    (by norm_num) (by norm_num) (by norm_num) (by norm_num) (by norm_num)
  obtain ⟨s1, s2⟩ := RelF.small std_b64 (n := 0 + 1 + 1) (by norm_num) (by norm_num)
  have h3 := a2.err.to_abs s1 (le_trans s2 (by norm_num))
  have hpos : 0 < (dciP).val := by have := a2.err.xpos; exact_mod_cast this
  have hlt : (dciP).val < 1 := by
    have hk : (0 + 1 + 1) * kap Fmt.b64 * (1 + (0 + 1 + 1) * kap Fmt.b64) ≤ 1 / 10 := by
      have h1 := kap_b64
      have h' := kap_pos Fmt.b64
      nlinarith
    have := (abs_le.1 h3).2
    have h' : ((dciP).val : ℝ) < 1 := by
      show (((FP.ofQ Fmt.b64 false 1.0 / FP.ofQ Fmt.b64 false 2.6 : FP Fmt.b64)).val : ℝ) < 1
      generalize (((FP.ofQ Fmt.b64 false 1.0 / FP.ofQ Fmt.b64 false 2.6 : FP Fmt.b64)).val : ℝ) = v at this ⊢
      norm_num at this hk ⊢
      linarith
    exact_mod_cast h'
  refine ⟨a2.fin, hpos, fun h => ?_⟩
  have e : ((dciP).val.num : ℚ) = (dciP).val := (Rat.den_eq_one_iff _).1 h
  have h1 : (0:ℚ) < (dciP).val.num := by rw [e]; exact hpos
  have h2 : ((dciP).val.num : ℚ) < 1 := by rw [e]; exact hlt
  have h1' : 0 < (dciP).val.num := by exact_mod_cast h1
  have h2' : (dciP).val.num < 1 := by exact_mod_cast h2
  omega

/-- near black: the encoded value is NaN, zero or below the encoding of `c` -/
theorem dci_black (hm : PowMonotone Fmt.b64) (hn : PowNegative Fmt.b64)
    {x c : FP Fmt.b64} (hx : x.isFinite = true) (hc : c.isFinite = true) (h : x.val ≤ c.val) :
    (Flt.powf x dciP).isNaN = true ∨ Flt.le (Flt.powf x dciP) (Flt.powf c dciP) = true := by
  obtain ⟨p1, p2, p3⟩ := dciP_facts
  rcases lt_or_ge x.val 0 with h0 | h0
  · exact Or.inl (hn.nan x _ hx p1 h0 p3)
  · refine Or.inr (hm.mono x c _ p1 p2 ?_ (FP.le_val hx hc h))
    exact FP.le_val (by rw [FP.lit_zero]; rfl) hx (by rw [FP.lit_zero]; exact h0)

omit [Libm Fmt.b64] in
/-- a power of two as a value of the format -/
theorem exists_pow (n : ℕ) (hn : n ≤ 60) : ∃ c : FP Fmt.b64, c.isFinite = true ∧ c.val = 1 / 2 ^ n := by
  have h := roundQ_eq_self Fmt.b64 1 (-n) (by norm_num [Fmt.b64]) (by norm_num [Fmt.b64, Fmt.emin]; omega)
  have e : (((1:ℤ):ℚ) * 2 ^ (-(n:ℤ))) = 1 / 2 ^ n := by
    rw [zpow_neg, zpow_natCast]; norm_num
  rw [e] at h
  refine ⟨.fin (1 / 2 ^ n) ⟨h, ?_⟩, rfl, rfl⟩
  rw [abs_of_pos (by positivity)]
  have h1 : (1:ℚ) / 2 ^ n ≤ 1 := by
    rw [div_le_one (by positivity)]
    exact one_le_pow₀ (by norm_num)
  refine lt_of_le_of_lt h1 ?_
  show (1:ℚ) < 2 ^ ((1023:ℤ) + 1)
  exact one_lt_zpow₀ (by norm_num) (by norm_num)

theorem dci_bound (hp : PowAccurate Fmt.b64) {y : FP Fmt.b64} (hy : y.isFinite = true) (h1 : y.val ≤ 1)
    (h : y.val = 0 ∨ 1 / 2 ^ 17 ≤ y.val) :
    (Flt.powf y (FP.ofQ Fmt.b64 false 2.6)).isFinite = true ∧
    |((Flt.powf y (FP.ofQ Fmt.b64 false 2.6)).val : ℝ)| ≤ 1.00001 := by
  rcases h with h | h
  · have a0 := RelF.ofQ std_b64 (q := 2.6) (by norm_num) (by norm_num)
    obtain ⟨a, b⟩ := hp.zero y _ hy a0.fin h (by have := a0.err.xpos; exact_mod_cast this)
    exact ⟨a, by rw [b]; norm_num⟩
  · obtain ⟨a, b⟩ := dci_dec hp hy h h1
    refine ⟨a, ?_⟩
    have hy0 : (0:ℝ) ≤ y.val := by
      have : (0:ℚ) ≤ y.val := le_trans (by positivity) h
      exact_mod_cast this
    have hX1 : (y.val : ℝ) ^ (2.6:ℝ) ≤ 1 := Real.rpow_le_one hy0 (by exact_mod_cast h1) (by norm_num)
    have hX0 : 0 ≤ (y.val : ℝ) ^ (2.6:ℝ) := Real.rpow_nonneg hy0 _
    generalize ((Flt.powf y (FP.ofQ Fmt.b64 false 2.6)).val : ℝ) = D at *
    generalize (y.val : ℝ) ^ (2.6:ℝ) = X at *
    obtain ⟨b1, b2⟩ := abs_le.1 b
    norm_num at b1 b2 ⊢
    rw [abs_le]
    constructor <;> linarith

theorem dci_zero (hp : PowAccurate Fmt.b64) {y : FP Fmt.b64} (hy : y.isFinite = true) (h : y.val = 0) :
    (Flt.powf y (FP.ofQ Fmt.b64 false 2.6)).val = 0 := by
  have a0 := RelF.ofQ std_b64 (q := 2.6) (by norm_num) (by norm_num)
  exact (hp.zero y _ hy a0.fin h (by have := a0.err.xpos; exact_mod_cast this)).2

omit [Libm Fmt.b64] in
/-- a lower bound on the decoded value -/
theorem dci_low {y : ℝ} {n m : ℕ} (h : 1 / 2 ^ n ≤ y) (hm : 13 * n ≤ 5 * m) : 1 / 2 ^ m ≤ y ^ (2.6:ℝ) := by
  have h1 : ((1:ℝ) / 2 ^ n) ^ (2.6:ℝ) ≤ y ^ (2.6:ℝ) := Real.rpow_le_rpow (by positivity) h (by norm_num)
  refine le_trans ?_ h1
  have e : ((1:ℝ) / 2 ^ n) = 2 ^ (-(n:ℝ)) := by
    rw [Real.rpow_neg (by norm_num), Real.rpow_natCast, one_div]
  have e' : ((1:ℝ) / 2 ^ m) = 2 ^ (-(m:ℝ)) := by
    rw [Real.rpow_neg (by norm_num), Real.rpow_natCast, one_div]
  rw [e, e', ← Real.rpow_mul (by norm_num)]
  refine Real.rpow_le_rpow_of_exponent_le (by norm_num) ?_
  have : (13:ℝ) * n ≤ 5 * m := by exact_mod_cast hm
  norm_num
  linarith

variable (hp : PowAccurate Fmt.b64) (hm : PowMonotone Fmt.b64) (hn : PowNegative Fmt.b64)
include hp hm hn

theorem dci_code16 (n : UInt16) (x : FP Fmt.b64) (hx : x.isFinite = true)
    (hd : |(x.val : ℝ) - (Flt.powf (unquant16 n) (FP.ofQ Fmt.b64 false 2.6)).val| ≤ 2.1e-14) :
    quant16 (Flt.powf x dciP) = n := by
  obtain ⟨a, b, c, -, e⟩ := unquant16_spec (f := Fmt.b64) std_b64 n
  rcases e with e | e
  · rw [dci_zero hp a e] at hd
    have z1 : (FP.lit 0 : FP Fmt.b64).isFinite = true := by rw [FP.lit_zero]; rfl
    have z2 : (FP.lit 0 : FP Fmt.b64).val = 0 := by rw [FP.lit_zero]; rfl
    have hn0 : n = 0 := by
      have h1 := quant16_of_near std_b64 z1 n (by rw [z2, e]; norm_num)
      have h2 := (C02_quant16_saturates (FP.lit 0 : FP Fmt.b64) (by norm_num [Fmt.b64])).2.1
        (FP.le_val z1 z1 le_rfl)
      rw [← h1, h2]
    obtain ⟨k, k1, k2⟩ := exists_pow 45 (by norm_num)
    have hxk : x.val ≤ k.val := by
      have := (abs_le.1 hd).2
      have h' : (x.val : ℝ) ≤ ((1 / 2 ^ 45 : ℚ) : ℝ) := by
        generalize (x.val : ℝ) = v at *
        norm_num at this ⊢
        linarith
      rw [k2]
      exact_mod_cast h'
    rcases dci_black hm hn hx k1 hxk with h | h
    · rw [(C02_quant16_saturates _ (by norm_num [Fmt.b64])).1 h, hn0]
    · have h1 := C03_quant16_monotone _ _ (by norm_num [Fmt.b64]) h
      have kr : (k.val : ℝ) = 1 / 2 ^ 45 := by rw [k2]; norm_num
      obtain ⟨q1, q2⟩ := dci_enc hp k1 (by rw [kr]; norm_num) (by rw [kr]; norm_num)
      have q3 : (k.val : ℝ) ^ (1 / (2.6:ℝ)) ≤ 6.5e-6 := by
        rw [kr]
        exact rpow_le_of_pow (by positivity) (by norm_num) (by norm_num)
      have q4 : 0 ≤ (k.val : ℝ) ^ (1 / (2.6:ℝ)) := Real.rpow_nonneg (by rw [kr]; positivity) _
      have h2 : quant16 (Flt.powf k dciP) = n := by
        refine quant16_of_near std_b64 q1 n ?_
        rw [e]
        obtain ⟨q5, q6⟩ := abs_le.1 q2
        generalize (k.val : ℝ) ^ (1 / (2.6:ℝ)) = K at *
        generalize ((Flt.powf k dciP).val : ℝ) = V at *
        norm_num at q3 q4 q5 q6 ⊢
        rw [abs_le]
        constructor <;> linarith
      rw [h2, hn0] at h1
      rw [hn0]
      rw [UInt16.le_iff_toNat_le] at h1
      apply UInt16.toNat_inj.1
      exact Nat.le_zero.1 h1
  · have er : (1:ℝ) / 2 ^ 17 ≤ (unquant16 n : FP Fmt.b64).val := by qcast e
    obtain ⟨q1, q2⟩ := dci_close hp a e c hx (dci_low er (m := 45) (by norm_num)) (by norm_num) (by norm_num)
      (k := 6.6e-6) (by norm_num) (by norm_num) hd
    exact quant16_of_near std_b64 q1 n (q2.trans (by norm_num))

theorem dci_code8 (n : UInt8) (x : FP Fmt.b64) (hx : x.isFinite = true)
    (hd : |(x.val : ℝ) - (Flt.powf (unquant8 n) (FP.ofQ Fmt.b64 false 2.6)).val| ≤ 2.2e-10) :
    quant8 (Flt.powf x dciP) = n := by
  obtain ⟨a, b, c, -, -⟩ := unquant8_spec (f := Fmt.b64) std_b64 n
  rcases (unquant8_low std_b64 n).2.2.2 with e | e
  · rw [dci_zero hp a e] at hd
    have z1 : (FP.lit 0 : FP Fmt.b64).isFinite = true := by rw [FP.lit_zero]; rfl
    have z2 : (FP.lit 0 : FP Fmt.b64).val = 0 := by rw [FP.lit_zero]; rfl
    have hn0 : n = 0 := by
      have h1 := quant8_of_near std_b64 z1 n (by rw [z2, e]; norm_num)
      have h2 := (C02_quant8_saturates (FP.lit 0 : FP Fmt.b64) (by norm_num [Fmt.b64])).2.1
        (FP.le_val z1 z1 le_rfl)
      rw [← h1, h2]
    obtain ⟨k, k1, k2⟩ := exists_pow 32 (by norm_num)
    have hxk : x.val ≤ k.val := by
      have := (abs_le.1 hd).2
      have h' : (x.val : ℝ) ≤ ((1 / 2 ^ 32 : ℚ) : ℝ) := by
        generalize (x.val : ℝ) = v at *
        norm_num at this ⊢
        linarith
      rw [k2]
      exact_mod_cast h'
    rcases dci_black hm hn hx k1 hxk with h | h
    · rw [(C02_quant8_saturates _ (by norm_num [Fmt.b64])).1 h, hn0]
    · have h1 := C03_quant8_monotone _ _ (by norm_num [Fmt.b64]) h
      have kr : (k.val : ℝ) = 1 / 2 ^ 32 := by rw [k2]; norm_num
      obtain ⟨q1, q2⟩ := dci_enc hp k1 (by rw [kr]; norm_num) (by rw [kr]; norm_num)
      have q3 : (k.val : ℝ) ^ (1 / (2.6:ℝ)) ≤ 1 / 1000 := by
        rw [kr]
        exact rpow_le_of_pow (by positivity) (by norm_num) (by norm_num)
      have q4 : 0 ≤ (k.val : ℝ) ^ (1 / (2.6:ℝ)) := Real.rpow_nonneg (by rw [kr]; positivity) _
      have h2 : quant8 (Flt.powf k dciP) = n := by
        refine quant8_of_near std_b64 q1 n ?_
        rw [e]
        obtain ⟨q5, q6⟩ := abs_le.1 q2
        generalize (k.val : ℝ) ^ (1 / (2.6:ℝ)) = K at *
        generalize ((Flt.powf k dciP).val : ℝ) = V at *
        norm_num at q3 q4 q5 q6 ⊢
        rw [abs_le]
        constructor <;> linarith
      rw [h2, hn0] at h1
      rw [hn0]
      rw [UInt8.le_iff_toNat_le] at h1
      apply UInt8.toNat_inj.1
      exact Nat.le_zero.1 h1
  · have er : (1:ℝ) / 2 ^ 9 ≤ (unquant8 n : FP Fmt.b64).val := by qcast e
    obtain ⟨q1, q2⟩ := dci_close hp a (le_trans (by norm_num) e) c hx (dci_low er (m := 24) (by norm_num))
      (by norm_num) (by norm_num) (k := 1 / 1000) (by norm_num) (by norm_num) hd
    exact quant8_of_near std_b64 q1 n (q2.trans (by norm_num))

theorem dci_keeps : ∀ r ∈ Spec.dcis Fmt.b64, ∀ cs, r = .ok cs → Keeps16 2.1e-14 cs ∧ Keeps8 2.2e-10 cs := by
  have key : ∀ cs : ColorSpaceRGB (FP Fmt.b64),
      cs.oetf = (fun c => c.powf (FP.ofQ Fmt.b64 false 1.0 / FP.ofQ Fmt.b64 false 2.6)) →
      cs.eotf = (fun c => c.powf (FP.ofQ Fmt.b64 false 2.6)) → Keeps16 2.1e-14 cs ∧ Keeps8 2.2e-10 cs := by
    intro cs h1 h2
    refine ⟨fun g hg c => pixel16 (enc := fun x => Flt.powf x dciP)
        (dec := fun y => Flt.powf y (FP.ofQ Fmt.b64 false 2.6)) h1 h2 (fun n => ?_)
        (fun n x hx hd => dci_code16 hp hm hn n x hx hd) g hg c,
      fun g hg c => pixel8 (enc := fun x => Flt.powf x dciP)
        (dec := fun y => Flt.powf y (FP.ofQ Fmt.b64 false 2.6)) h1 h2 (fun n => ?_)
        (fun n x hx hd => dci_code8 hp hm hn n x hx hd) g hg c⟩
    · obtain ⟨a, b, c, -, e⟩ := unquant16_spec (f := Fmt.b64) std_b64 n
      exact dci_bound hp a c e
    · obtain ⟨a, b, c, -, e⟩ := unquant8_spec (f := Fmt.b64) std_b64 n
      exact dci_bound hp a c e
  intro r hr cs e
  simp only [Spec.dcis, List.mem_cons, List.not_mem_nil, or_false] at hr
  rcases hr with rfl | rfl
  · obtain ⟨a, b⟩ := new_curves e
    exact key cs a b
  · obtain ⟨a, b⟩ := new_curves e
    exact key cs a b

end

/-! ### tolerances -/

theorem derived_tol {f : Fmt} [Libm f] {a b c d e : ℚ} {r : Res (ColorSpaceRGB (FP f))}
    (h : r ∈ Spec.derived f) : (r, e) ∈ Spec.xyzTolerance f a b c d e := by
  simp only [Spec.derived, List.mem_cons, List.not_mem_nil, or_false] at h
  simp only [Spec.xyzTolerance, List.mem_cons, List.not_mem_nil, or_false]
  rcases h with rfl | rfl | rfl | rfl | rfl | rfl <;> simp only [true_or, or_true]

theorem aces_tol {f : Fmt} [Libm f] {a b c d e : ℚ} :
    ((.ok (Shipped.aces (FP.ofQ f false)) : Res (ColorSpaceRGB (FP f))), d) ∈ Spec.xyzTolerance f a b c d e := by
  simp only [Spec.xyzTolerance, List.mem_cons, List.not_mem_nil, or_false]
  simp only [true_or, or_true]

/-! ## C112 -/

/-- C112 [F]: in f64, every 16-bit image in SRGB_DRV survives the trip through ACES and through every
space whose matrices are computed from its primaries. -/
theorem C112_srgb16_f64 [Libm Fmt.b64] (hp : PowAccurate Fmt.b64) :
    ∀ s ∈ .ok (Shipped.aces (FP.ofQ Fmt.b64 false)) :: Spec.derived Fmt.b64,
      Spec.Through16 (Shipped.srgbDrv (FP.ofQ Fmt.b64 false)) s := by
  have hr : Shipped.srgbDrv (FP.ofQ Fmt.b64 false) ∈ Spec.derived Fmt.b64 := by
    simp only [Spec.derived, List.mem_cons, true_or]
  have hk : ∀ cs, Shipped.srgbDrv (FP.ofQ Fmt.b64 false) = .ok cs → Keeps16 (1 / 10 ^ 7) cs := fun cs e => by
    obtain ⟨a, b⟩ := new_curves e
    exact srgb_keeps16 hp a b
  intro s hs
  rcases List.mem_cons.1 hs with rfl | hs
  · exact through16_of (C77_rgb_to_rgb_f64 _ (derived_tol hr) _ aces_tol)
      (fun cs e => (hk cs e).mono (by norm_num))
  · exact through16_of (C77_rgb_to_rgb_f64 _ (derived_tol hr) _ (derived_tol hs))
      (fun cs e => (hk cs e).mono (by norm_num))

theorem linear_any {f : Fmt} [Libm f] (hf : Std f) : ∀ r ∈ Spec.linears f, ∀ cs, r = .ok cs →
    Keeps16 (1 / 150000) cs := by
  intro r hr cs e
  simp only [Spec.linears, List.mem_cons, List.not_mem_nil, or_false] at hr
  rcases hr with rfl | rfl
  · cases e; exact linear_keeps16 hf rfl rfl
  · obtain ⟨a, b⟩ := new_curves e; exact linear_keeps16 hf a b

theorem linears_tol {f : Fmt} [Libm f] {a b c d e : ℚ} {r : Res (ColorSpaceRGB (FP f))}
    (h : r ∈ Spec.linears f) : ∃ t, (t = d ∨ t = e) ∧ (r, t) ∈ Spec.xyzTolerance f a b c d e := by
  simp only [Spec.linears, List.mem_cons, List.not_mem_nil, or_false] at h
  rcases h with rfl | rfl
  · exact ⟨d, .inl rfl, aces_tol⟩
  · exact ⟨e, .inr rfl, derived_tol (by simp only [Spec.derived, List.mem_cons, true_or, or_true])⟩

theorem alexa_tol {f : Fmt} [Libm f] {a b c d e : ℚ} :
    ((.ok (Shipped.alexaWideGamut (FP.ofQ f false)) : Res (ColorSpaceRGB (FP f))), c) ∈
      Spec.xyzTolerance f a b c d e := by
  simp only [Spec.xyzTolerance, List.mem_cons, List.not_mem_nil, or_false]
  simp only [true_or, or_true]

/-- C112 [F]: every 16-bit image in ACES or ACEScg survives the trip through ALEXA Wide Gamut, ACES and
every space whose matrices are computed from its primaries, in f32 and in f64. -/
theorem C112_linear16 [Libm Fmt.b32] [Libm Fmt.b64] :
    (∀ r ∈ Spec.linears Fmt.b32,
      ∀ s ∈ .ok (Shipped.alexaWideGamut (FP.ofQ Fmt.b32 false)) ::
        .ok (Shipped.aces (FP.ofQ Fmt.b32 false)) :: Spec.derived Fmt.b32, Spec.Through16 r s) ∧
    (∀ r ∈ Spec.linears Fmt.b64,
      ∀ s ∈ .ok (Shipped.alexaWideGamut (FP.ofQ Fmt.b64 false)) ::
        .ok (Shipped.aces (FP.ofQ Fmt.b64 false)) :: Spec.derived Fmt.b64, Spec.Through16 r s) := by
  constructor
  · intro r hr s hs
    have hk := linear_any std_b32 r hr
    obtain ⟨t, ht, hm⟩ := linears_tol (a := 8e-5) (b := 2.5e-5) (c := 3e-6) (d := 2e-6) (e := 2e-6) hr
    rcases List.mem_cons.1 hs with rfl | hs
    · refine through16_of (C77_rgb_to_rgb_f32 _ hm _ alexa_tol) (fun cs e => (hk cs e).mono ?_)
      rcases ht with rfl | rfl <;> norm_num
    rcases List.mem_cons.1 hs with rfl | hs
    · refine through16_of (C77_rgb_to_rgb_f32 _ hm _ aces_tol) (fun cs e => (hk cs e).mono ?_)
      rcases ht with rfl | rfl <;> norm_num
    · refine through16_of (C77_rgb_to_rgb_f32 _ hm _ (derived_tol hs)) (fun cs e => (hk cs e).mono ?_)
      rcases ht with rfl | rfl <;> norm_num
  · intro r hr s hs
    have hk := linear_any std_b64 r hr
    obtain ⟨t, ht, hm⟩ := linears_tol (a := 8e-5) (b := 2.5e-5) (c := 3e-6) (d := 2e-10) (e := 1e-14) hr
    rcases List.mem_cons.1 hs with rfl | hs
    · refine through16_of (C77_rgb_to_rgb_f64 _ hm _ alexa_tol) (fun cs e => (hk cs e).mono ?_)
      rcases ht with rfl | rfl <;> norm_num
    rcases List.mem_cons.1 hs with rfl | hs
    · refine through16_of (C77_rgb_to_rgb_f64 _ hm _ aces_tol) (fun cs e => (hk cs e).mono ?_)
      rcases ht with rfl | rfl <;> norm_num
    · refine through16_of (C77_rgb_to_rgb_f64 _ hm _ (derived_tol hs)) (fun cs e => (hk cs e).mono ?_)
      rcases ht with rfl | rfl <;> norm_num

theorem dcis_derived {f : Fmt} [Libm f] {r : Res (ColorSpaceRGB (FP f))} (h : r ∈ Spec.dcis f) :
    r ∈ Spec.derived f := by
  simp only [Spec.dcis, List.mem_cons, List.not_mem_nil, or_false] at h
  simp only [Spec.derived, List.mem_cons, List.not_mem_nil, or_false]
  rcases h with rfl | rfl <;> simp only [true_or, or_true]

/-- C112 [F]: in f64, every 16-bit image in DCI-P3 or DCI-P3 D65 survives the trip through every space
whose matrices are computed from its primaries, and every 8-bit one also survives the trip through ACES,
down to black. -/
theorem C112_dci_f64 [Libm Fmt.b64] (hp : PowAccurate Fmt.b64) (hm : PowMonotone Fmt.b64)
    (hn : PowNegative Fmt.b64) : ∀ r ∈ Spec.dcis Fmt.b64,
      (∀ s ∈ Spec.derived Fmt.b64, Spec.Through16 r s ∧ Spec.Through8 r s) ∧
      Spec.Through8 r (.ok (Shipped.aces (FP.ofQ Fmt.b64 false))) := by
  intro r hr
  have hk := dci_keeps hp hm hn r hr
  have hd := dcis_derived hr
  refine ⟨fun s hs => ⟨?_, ?_⟩, ?_⟩
  · exact through16_of (C77_rgb_to_rgb_f64 _ (derived_tol hd) _ (derived_tol hs))
      (fun cs e => (hk cs e).1.mono (by norm_num))
  · exact through8_of (C77_rgb_to_rgb_f64 _ (derived_tol hd) _ (derived_tol hs))
      (fun cs e => (hk cs e).2.mono (by norm_num))
  · exact through8_of (C77_rgb_to_rgb_f64 _ (derived_tol hd) _ aces_tol)
      (fun cs e => (hk cs e).2.mono (by norm_num))

/-- C112 [F]: in f64, every 16-bit image in SRGB_DRV, ACES, ACEScg or one of the DCI-P3 spaces survives
the conversion to XYZ and back, with any of the six white points. -/
theorem C112_xyz16_f64 [Libm Fmt.b64] (hp : PowAccurate Fmt.b64) (hm : PowMonotone Fmt.b64)
    (hn : PowNegative Fmt.b64) :
    ∀ r ∈ Shipped.srgbDrv (FP.ofQ Fmt.b64 false) :: (Spec.linears Fmt.b64 ++ Spec.dcis Fmt.b64),
      Spec.ThroughXyz16 r := by
  intro r hr
  rcases List.mem_cons.1 hr with rfl | hr
  · have hr : Shipped.srgbDrv (FP.ofQ Fmt.b64 false) ∈ Spec.derived Fmt.b64 := by
      simp only [Spec.derived, List.mem_cons, true_or]
    refine throughXyz16_of (C77_round_trip_f64 _ (derived_tol hr)) (fun cs e => ?_)
    obtain ⟨a, b⟩ := new_curves e
    exact (srgb_keeps16 hp a b).mono (by norm_num)
  rcases List.mem_append.1 hr with hr | hr
  · obtain ⟨t, ht, hm⟩ := linears_tol (a := 8e-5) (b := 2e-5) (c := 3e-6) (d := 2e-10) (e := 1e-14) hr
    refine throughXyz16_of (C77_round_trip_f64 _ hm) (fun cs e => (linear_any std_b64 r hr cs e).mono ?_)
    rcases ht with rfl | rfl <;> norm_num
  · exact throughXyz16_of (C77_round_trip_f64 _ (derived_tol (dcis_derived hr)))
      (fun cs e => (dci_keeps hp hm hn r hr cs e).1.mono (by norm_num))

/-! ### not vacuous -/

/-- a library as IEEE 754 prescribes for negative bases -/
@[reducible] noncomputable def strictLibm (f : Fmt) : Libm f :=
  { orderedLibm f with powf := fun x e => if x.val < 0 then .nan else gridPow x e }

theorem strict_facts {f : Fmt} (hf : Std f) : @PowAccurate f (strictLibm f) ∧ @PowMonotone f (strictLibm f) ∧
    @PowNegative f (strictLibm f) := by
  have eq : ∀ x e : FP f, 0 ≤ x.val → (strictLibm f).powf x e = (orderedLibm f).powf x e := by
    intro x e h
    show (if x.val < 0 then .nan else gridPow x e) = gridPow x e
    rw [if_neg (not_lt.2 h)]
  have nn : ∀ x : FP f, FP.le (FP.lit 0) x = true → 0 ≤ x.val := by
    intro x h
    rcases @fin_or_pinf f (orderedLibm f) x h with rfl | h
    · exact le_rfl
    · exact h.2
  refine ⟨@PowAccurate.mk f (strictLibm f) ?_ ?_, @PowMonotone.mk f (strictLibm f) ?_,
    @PowNegative.mk f (strictLibm f) ?_⟩
  · intro x y hx hy h1 h2 h3 h4 h5
    show ((strictLibm f).powf x y).isFinite = true ∧ |(((strictLibm f).powf x y).val : ℝ) - _| ≤ _
    rw [eq x y (le_trans (by positivity) h1)]
    exact @PowAccurate.near f (orderedLibm f) (ordered_pow hf) x y hx hy h1 h2 h3 h4 h5
  · intro x y hx hy h1 h2
    show ((strictLibm f).powf x y).isFinite = true ∧ ((strictLibm f).powf x y).val = 0
    rw [eq x y h1.ge]
    exact @PowAccurate.zero f (orderedLibm f) (ordered_pow hf) x y hx hy h1 h2
  · intro x y e he h0 h1 h2
    show FP.le ((strictLibm f).powf x e) ((strictLibm f).powf y e) = true
    have h1' : FP.le (FP.lit 0) x = true := h1
    rw [eq x e (nn x h1'), eq y e (nn y (FP.le_trans' h1' h2))]
    exact @PowMonotone.mono f (orderedLibm f) ordered_pow_mono x y e he h0 h1 h2
  · intro x y _ _ h _
    show FP.isNaN (if x.val < 0 then .nan else gridPow x y) = true
    rw [if_pos h]; rfl

/-- Not vacuous: with such a library a dark 16-bit pixel goes from DCI-P3 to BT.2020 and back. -/
example : letI := strictLibm Fmt.b64
    ∃ a b m n, Shipped.dciP3 (FP.ofQ Fmt.b64 false) = .ok a ∧ Shipped.bt2020 (FP.ofQ Fmt.b64 false) = .ok b ∧
      rgbToRgbMatrix a b = .ok m ∧ rgbToRgbMatrix b a = .ok n ∧
      (a.encode (n * (m * a.decode (RGBu16.toF ⟨65535, 0, 1⟩)))).toU16 = ⟨65535, 0, 1⟩ := by
  letI := strictLibm Fmt.b64
  obtain ⟨h1, h2, h3⟩ := strict_facts std_b64
  obtain ⟨a, b, m, n, e1, e2, e3, e4, h⟩ := ((C112_dci_f64 h1 h2 h3 (Shipped.dciP3 (FP.ofQ Fmt.b64 false))
    (by simp [Spec.dcis])).1 (Shipped.bt2020 (FP.ofQ Fmt.b64 false)) (by simp [Spec.derived])).1
  exact ⟨a, b, m, n, e1, e2, e3, e4, h _⟩

end CS

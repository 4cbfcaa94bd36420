import Verif.Lemmas.Curves
import Verif.Lemmas.IdealLibm
import Verif.Props.Rounding
import Verif.Props.Quant

/-!
# Decoding and encoding images in floating point (C82)

The theorems hold for every mathematical library whose `powf` is within two units in the last place
(`PowAccurate`) and, for LogC, whose `log10` is accurate to a few units (`LogAccurate`). Rounding the
exact values gives such a library (`ideal_pow`, `ideal_log`).
-/

namespace CS

/-! ### the seam of the sRGB curve, by evaluation -/

theorem seam32 : ((FP.lit 0.040449936 : FP Fmt.b32) / FP.lit 12.92).val ≤ (FP.lit 0.0031308 : FP Fmt.b32).val :=
  of_decide_eq_true (by krefl)
theorem seam64 : ((FP.lit 0.040449936 : FP Fmt.b64) / FP.lit 12.92).val ≤ (FP.lit 0.0031308 : FP Fmt.b64).val :=
  of_decide_eq_true (by krefl)

/-! ### specification -/

/-- the shipped spaces whose transfer curve has no gap between its branches -/
def Spec.gapless (f : Fmt) [Libm f] : List (Res (ColorSpaceRGB (FP f))) :=
  let l := FP.ofQ f false
  [.ok (Shipped.srgb l), .ok (Shipped.adobeRgb1998 l), .ok (Shipped.alexaWideGamut l),
   .ok (Shipped.aces l), Shipped.srgbDrv l, Shipped.dciP3 l, Shipped.dciP3D65 l, Shipped.acesCg l]

/-- the two others -/
def Spec.gapped (f : Fmt) [Libm f] : List (Res (ColorSpaceRGB (FP f))) :=
  [Shipped.bt709 (FP.ofQ f false), Shipped.bt2020 (FP.ofQ f false)]

/-- the space exists, and decoding and encoding an 8-bit pixel gives the same pixel -/
def Spec.Lossless8 {f : Fmt} [Libm f] (r : Res (ColorSpaceRGB (FP f))) : Prop :=
  ∃ cs, r = .ok cs ∧ ∀ c : RGBu8, (cs.encode (cs.decode c.toF)).toU8 = c

/-- the same for 16-bit pixels -/
def Spec.Lossless16 {f : Fmt} [Libm f] (r : Res (ColorSpaceRGB (FP f))) : Prop :=
  ∃ cs, r = .ok cs ∧ ∀ c : RGBu16, (cs.encode (cs.decode c.toF)).toU16 = c

/-! ### curves -/

/-- a space applies the curves `enc` and `dec` to each component, and they invert each other to `δ` -/
structure CurveTrip {f : Fmt} [Libm f] (δ : ℝ) (cs : ColorSpaceRGB (FP f)) (enc dec : FP f → FP f) :
    Prop where
  henc : cs.oetf = RGBf.mapc enc
  hdec : cs.eotf = RGBf.mapc dec
  near : ∀ y : FP f, y.isFinite = true → 0 ≤ y.val → y.val ≤ 1 → (y.val = 0 ∨ 1 / 2 ^ 17 ≤ y.val) →
    (enc (dec y)).isFinite = true ∧ |((enc (dec y)).val : ℝ) - y.val| ≤ δ

theorem CurveTrip.u8 {f : Fmt} [Libm f] {δ : ℝ} (hf : Std f) {cs : ColorSpaceRGB (FP f)}
    {enc dec : FP f → FP f} (h : CurveTrip δ cs enc dec) (hδ : δ ≤ 1 / 600) (c : RGBu8) :
    (cs.encode (cs.decode c.toF)).toU8 = c := by
  unfold ColorSpaceRGB.encode ColorSpaceRGB.decode
  rw [h.henc, h.hdec]
  have key : ∀ n : UInt8, quant8 (enc (dec (unquant8 n))) = n := by
    intro n
    obtain ⟨a, b, c, _, d⟩ := unquant8_spec (f := f) hf n
    obtain ⟨e1, e2⟩ := h.near _ a b c d
    exact quant8_of_near hf e1 n (e2.trans hδ)
  cases c
  simp only [RGBf.toU8, RGBf.mapc, RGBu8.toF, key]

theorem CurveTrip.u16 {f : Fmt} [Libm f] {δ : ℝ} (hf : Std f) {cs : ColorSpaceRGB (FP f)}
    {enc dec : FP f → FP f} (h : CurveTrip δ cs enc dec) (hδ : δ ≤ 1 / 150000) (c : RGBu16) :
    (cs.encode (cs.decode c.toF)).toU16 = c := by
  unfold ColorSpaceRGB.encode ColorSpaceRGB.decode
  rw [h.henc, h.hdec]
  have key : ∀ n : UInt16, quant16 (enc (dec (unquant16 n))) = n := by
    intro n
    obtain ⟨a, b, c, _, d⟩ := unquant16_spec (f := f) hf n
    obtain ⟨e1, e2⟩ := h.near _ a b c d
    exact quant16_of_near hf e1 n (e2.trans hδ)
  cases c
  simp only [RGBf.toU16, RGBf.mapc, RGBu16.toF, key]

theorem new_curves {T : Type} [Add T] [Sub T] [Mul T] [Div T] [Neg T] [Flt T] {r g b w : XYY T}
    {o e : RGBf T → RGBf T} {cs : ColorSpaceRGB T} (h : ColorSpaceRGB.new r g b w o e = .ok cs) :
    cs.oetf = o ∧ cs.eotf = e := by
  unfold ColorSpaceRGB.new at h
  cases hm : unwrap (buildXyzToRgbMatrix r g b w).inverse with
  | error p => simp only [hm] at h; cases h
  | ok v => simp only [hm] at h; cases h; exact ⟨rfl, rfl⟩

section
variable {f : Fmt} [Libm f] (hf : Std f) (hp : PowAccurate f)
include hf hp

theorem srgb_near (hs : ((FP.lit 0.040449936 : FP f) / FP.lit 12.92).val ≤ (FP.lit 0.0031308 : FP f).val)
    {y : FP f} (hy : y.isFinite = true) (h0 : 0 ≤ y.val) (h1 : y.val ≤ 1) :
    (encode.srgb_t (decode.srgb_t y)).isFinite = true ∧
    |((encode.srgb_t (decode.srgb_t y)).val : ℝ) - y.val| ≤ 1 / 150000 := by
  obtain ⟨a, b⟩ := srgb_roundtrip hf hp hs hy h0 h1
  refine ⟨a, b.trans ?_⟩
  have := (u_tiny hf).1
  norm_num at this ⊢; linarith

theorem gamma_near {g : ℚ} (hg1 : 2 ≤ g) (hg2 : g ≤ 27 / 10) {y : FP f} (hy : y.isFinite = true)
    (h1 : y.val ≤ 1) (h : y.val = 0 ∨ 1 / 2 ^ 17 ≤ y.val) :
    (Flt.powf (Flt.powf y (FP.ofQ f false g)) (FP.ofQ f false 1.0 / FP.ofQ f false g)).isFinite = true ∧
    |((Flt.powf (Flt.powf y (FP.ofQ f false g)) (FP.ofQ f false 1.0 / FP.ofQ f false g)).val : ℝ)
      - y.val| ≤ 1 / 150000 := by
  rcases h with h | h
  · obtain ⟨a, b⟩ := gamma_zero hf hp hg1 hg2 hy h
    exact ⟨a, by rw [b, h]; norm_num⟩
  · obtain ⟨a, b⟩ := gamma_trip hf hp hg1 hg2 hy h h1
    refine ⟨a, b.trans ?_⟩
    obtain ⟨u1, u2, _⟩ := u_tiny hf
    have h1r : (y.val : ℝ) ≤ 1 := by exact_mod_cast h1
    calc 47 * (f.u : ℝ) * y.val ≤ 47 * (6 / 10 ^ 8) * 1 :=
          mul_le_mul (by linarith) h1r (by
            have : (0:ℚ) ≤ y.val := le_trans (by positivity) h
            exact_mod_cast this) (by norm_num)
      _ ≤ _ := by norm_num

/-- every space without a gap, from the existence of the derived ones -/
theorem gapless_curves (hl : LogAccurate f)
    (hs : ((FP.lit 0.040449936 : FP f) / FP.lit 12.92).val ≤ (FP.lit 0.0031308 : FP f).val) :
    ∀ r ∈ Spec.gapless f, ∀ cs, r = .ok cs → ∃ enc dec, CurveTrip (1 / 150000) cs enc dec := by
  have sr : ∀ cs : ColorSpaceRGB (FP f), cs.oetf = encode.srgb → cs.eotf = decode.srgb →
      ∃ enc dec, CurveTrip (1 / 150000) cs enc dec := fun cs h1 h2 =>
    ⟨encode.srgb_t, decode.srgb_t, h1, h2, fun y hy h0 h1 _ => srgb_near hf hp hs hy h0 h1⟩
  have ln : ∀ cs : ColorSpaceRGB (FP f), cs.oetf = encode.linear → cs.eotf = decode.linear →
      ∃ enc dec, CurveTrip (1 / 150000) cs enc dec := fun cs h1 h2 =>
    ⟨encode.linear_t, decode.linear_t, h1, h2, fun y hy h0 h1 _ => ⟨hy, by
      simp [encode.linear_t, decode.linear_t]⟩⟩
  have gm : ∀ (g : ℚ) (cs : ColorSpaceRGB (FP f)), 2 ≤ g → g ≤ 27 / 10 →
      cs.oetf = (fun c => c.powf (FP.ofQ f false 1.0 / FP.ofQ f false g)) →
      cs.eotf = (fun c => c.powf (FP.ofQ f false g)) →
      ∃ enc dec, CurveTrip (1 / 150000) cs enc dec := fun g cs g1 g2 h1 h2 =>
    ⟨fun x => Flt.powf x (FP.ofQ f false 1.0 / FP.ofQ f false g), fun y => Flt.powf y (FP.ofQ f false g),
      h1, h2, fun y hy h0 h1 h => gamma_near hf hp g1 g2 hy h1 h⟩
  intro r hr cs e
  simp only [Spec.gapless, List.mem_cons, List.not_mem_nil, or_false] at hr
  rcases hr with rfl | rfl | rfl | rfl | rfl | rfl | rfl | rfl
  · cases e; exact sr _ rfl rfl
  · cases e; exact gm 2.19921875 _ (by norm_num) (by norm_num) rfl rfl
  · cases e
    exact ⟨encode.alexa_logc_v3_t, decode.alexa_logc_v3_t, rfl, rfl, fun y hy h0 h1 _ => by
      obtain ⟨a, b⟩ := logc_trip hf hp hl hy h0 h1
      exact ⟨a, b.trans (by norm_num)⟩⟩
  · cases e; exact ln _ rfl rfl
  · obtain ⟨a, b⟩ := new_curves e; exact sr _ a b
  · obtain ⟨a, b⟩ := new_curves e; exact gm 2.6 _ (by norm_num) (by norm_num) a b
  · obtain ⟨a, b⟩ := new_curves e; exact gm 2.6 _ (by norm_num) (by norm_num) a b
  · obtain ⟨a, b⟩ := new_curves e; exact ln _ a b

theorem gapped_curves :
    ∀ r ∈ Spec.gapped f, ∀ cs, r = .ok cs → ∃ enc dec, CurveTrip (1 / 1000) cs enc dec ∧
      ∀ y : FP f, y.isFinite = true → (0.08102 : ℝ) ≤ y.val → (y.val : ℝ) ≤ 0.08103 →
        (enc (dec y)).isFinite = true ∧ ((enc (dec y)).val : ℝ) ≤ 0.0808 := by
  intro r hr cs e
  simp only [Spec.gapped, List.mem_cons, List.not_mem_nil, or_false] at hr
  rcases hr with rfl | rfl
  · obtain ⟨a, b⟩ := new_curves e
    exact ⟨encode.bt709_t, decode.bt709_t, ⟨a, b, fun y hy h0 h1 _ => bt709_trip hf hp hy h0 h1⟩,
      fun y hy h0 h1 => bt709_gap hf hp hy h0 h1⟩
  · obtain ⟨a, b⟩ := new_curves e
    exact ⟨encode.bt2020_t, decode.bt2020_t, ⟨a, b, fun y hy h0 h1 _ => bt2020_trip hf hp hy h0 h1⟩,
      fun y hy h0 h1 => bt2020_gap hf hp hy h0 h1⟩

omit hp in
/-- what is encoded below 0.0808 is not the 16-bit code 5310 -/
theorem not_code {x : FP f} (hx : x.isFinite = true) (h : (x.val : ℝ) ≤ 0.0808) : quant16 x ≠ 5310 := by
  have hp24 := hf.p24
  obtain ⟨a, b, c, d, _⟩ := unquant16_spec (f := f) hf 5300
  have e : (unquant16 5300 : FP f).val - 5300 / 65535 ≥ -(1 / 2 ^ 24) := by
    have := (abs_le.1 d).1
    exact this
  have hle : Flt.le x (unquant16 5300 : FP f) = true := by
    rw [FP.flt_le, FP.le_finite hx a]
    refine decide_eq_true ?_
    have hq : x.val ≤ 0.0808 := by
      have : (x.val : ℝ) ≤ ((0.0808 : ℚ) : ℝ) := h.trans (by norm_num)
      exact_mod_cast this
    norm_num at hq e ⊢
    linarith
  have h1 := C03_quant16_monotone x _ (by omega) hle
  have h2 := (congrArg RGBu16.r (C04_u16_roundtrip (f := f) ⟨5300, 5300, 5300⟩ (by omega)))
  have h3 : quant16 (unquant16 5300 : FP f) = 5300 := h2
  rw [h3] at h1
  intro hc
  rw [hc] at h1
  exact absurd h1 (by decide)

end

/-! ## C82 -/

theorem mem_tolerance {f : Fmt} [Libm f] {a b c d e : ℚ} {r : Res (ColorSpaceRGB (FP f))}
    (h : r ∈ Spec.gapless f ∨ r ∈ Spec.gapped f) : ∃ t, (r, t) ∈ Spec.xyzTolerance f a b c d e := by
  have h' : r ∈ (Spec.xyzTolerance f a b c d e).map Prod.fst := by
    simp only [Spec.gapless, Spec.gapped, List.mem_cons, List.not_mem_nil, or_false] at h
    simp only [Spec.xyzTolerance, List.map_cons, List.map_nil, List.mem_cons, List.not_mem_nil, or_false]
    rcases h with (h | h | h | h | h | h | h | h) | (h | h) <;> simp only [h, true_or, or_true]
  obtain ⟨x, hx, rfl⟩ := List.mem_map.1 h'
  exact ⟨x.2, hx⟩

theorem exists32 [Libm Fmt.b32] {r} (h : r ∈ Spec.gapless Fmt.b32 ∨ r ∈ Spec.gapped Fmt.b32) :
    ∃ cs, r = .ok cs := by
  obtain ⟨t, ht⟩ := mem_tolerance h
  obtain ⟨cs, e, _⟩ := C77_round_trip_f32 _ ht
  exact ⟨cs, e⟩

theorem exists64 [Libm Fmt.b64] {r} (h : r ∈ Spec.gapless Fmt.b64 ∨ r ∈ Spec.gapped Fmt.b64) :
    ∃ cs, r = .ok cs := by
  obtain ⟨t, ht⟩ := mem_tolerance h
  obtain ⟨cs, e, _⟩ := C77_round_trip_f64 _ ht
  exact ⟨cs, e⟩

/-- C82 [F]: in f32, every 8-bit image decoded and encoded again with any shipped space is unchanged. -/
theorem C82_eight_bit_f32 [Libm Fmt.b32] (hp : PowAccurate Fmt.b32) (hl : LogAccurate Fmt.b32) :
    ∀ r, r ∈ Spec.gapless Fmt.b32 ∨ r ∈ Spec.gapped Fmt.b32 → Spec.Lossless8 r := by
  intro r hr
  obtain ⟨cs, e⟩ := exists32 hr
  refine ⟨cs, e, ?_⟩
  rcases hr with hr | hr
  · obtain ⟨_, _, h⟩ := gapless_curves std_b32 hp hl seam32 r hr cs e
    exact h.u8 std_b32 (by norm_num)
  · obtain ⟨_, _, h, _⟩ := gapped_curves std_b32 hp r hr cs e
    exact h.u8 std_b32 (by norm_num)

/-- C82 [F]: the same in f64. -/
theorem C82_eight_bit_f64 [Libm Fmt.b64] (hp : PowAccurate Fmt.b64) (hl : LogAccurate Fmt.b64) :
    ∀ r, r ∈ Spec.gapless Fmt.b64 ∨ r ∈ Spec.gapped Fmt.b64 → Spec.Lossless8 r := by
  intro r hr
  obtain ⟨cs, e⟩ := exists64 hr
  refine ⟨cs, e, ?_⟩
  rcases hr with hr | hr
  · obtain ⟨_, _, h⟩ := gapless_curves std_b64 hp hl seam64 r hr cs e
    exact h.u8 std_b64 (by norm_num)
  · obtain ⟨_, _, h, _⟩ := gapped_curves std_b64 hp r hr cs e
    exact h.u8 std_b64 (by norm_num)

/-- C82 [F]: in f32, every 16-bit image decoded and encoded again is unchanged, for every shipped space
but BT.709 and BT.2020. -/
theorem C82_sixteen_bit_f32 [Libm Fmt.b32] (hp : PowAccurate Fmt.b32) (hl : LogAccurate Fmt.b32) :
    ∀ r ∈ Spec.gapless Fmt.b32, Spec.Lossless16 r := by
  intro r hr
  obtain ⟨cs, e⟩ := exists32 (.inl hr)
  obtain ⟨_, _, h⟩ := gapless_curves std_b32 hp hl seam32 r hr cs e
  exact ⟨cs, e, h.u16 std_b32 (by norm_num)⟩

/-- C82 [F]: the same in f64. -/
theorem C82_sixteen_bit_f64 [Libm Fmt.b64] (hp : PowAccurate Fmt.b64) (hl : LogAccurate Fmt.b64) :
    ∀ r ∈ Spec.gapless Fmt.b64, Spec.Lossless16 r := by
  intro r hr
  obtain ⟨cs, e⟩ := exists64 (.inl hr)
  obtain ⟨_, _, h⟩ := gapless_curves std_b64 hp hl seam64 r hr cs e
  exact ⟨cs, e, h.u16 std_b64 (by norm_num)⟩

theorem bt_sixteen {f : Fmt} [Libm f] (hf : Std f) (hp : PowAccurate f) {r : Res (ColorSpaceRGB (FP f))}
    (hr : r ∈ Spec.gapped f) {cs : ColorSpaceRGB (FP f)} (e : r = .ok cs) :
    ((cs.encode (cs.decode (RGBu16.toF ⟨5310, 5310, 5310⟩))).toU16).r ≠ 5310 := by
  obtain ⟨enc, dec, h, hg⟩ := gapped_curves hf hp r hr cs e
  unfold ColorSpaceRGB.encode ColorSpaceRGB.decode
  rw [h.henc, h.hdec]
  obtain ⟨a, b, c, d, _⟩ := unquant16_spec (f := f) hf 5310
  obtain ⟨d1, d2⟩ := abs_le.1 d
  have e1 : (unquant16 5310 : FP f).val - 5310 / 65535 ≥ -(1 / 2 ^ 24) := d1
  have e2 : (unquant16 5310 : FP f).val - 5310 / 65535 ≤ 1 / 2 ^ 24 := d2
  have g1 : (0.08102 : ℝ) ≤ (unquant16 5310 : FP f).val := by
    have : (0.08102 : ℚ) ≤ (unquant16 5310 : FP f).val := by norm_num at e1 ⊢; linarith
    have h : ((0.08102 : ℚ) : ℝ) ≤ (unquant16 5310 : FP f).val := by exact_mod_cast this
    exact le_trans (by norm_num) h
  have g2 : ((unquant16 5310 : FP f).val : ℝ) ≤ 0.08103 := by
    have : (unquant16 5310 : FP f).val ≤ (0.08103 : ℚ) := by norm_num at e2 ⊢; linarith
    have h : ((unquant16 5310 : FP f).val : ℝ) ≤ ((0.08103 : ℚ) : ℝ) := by exact_mod_cast this
    exact le_trans h (by norm_num)
  obtain ⟨z1, z2⟩ := hg _ a g1 g2
  exact not_code hf z1 z2

/-- C82 [F]: with BT.709 and BT.2020 a 16-bit image can change: the grey level 5310 does not come back,
in f32 and in f64, because the two branches of these curves do not meet. -/
theorem C82_bt_sixteen_bit_counterexample [Libm Fmt.b32] [Libm Fmt.b64] (hp : PowAccurate Fmt.b32)
    (hp' : PowAccurate Fmt.b64) :
    (∀ r ∈ Spec.gapped Fmt.b32, ¬ Spec.Lossless16 r) ∧ (∀ r ∈ Spec.gapped Fmt.b64, ¬ Spec.Lossless16 r) := by
  constructor
  · rintro r hr ⟨cs, e, h⟩
    exact bt_sixteen std_b32 hp hr e (congrArg RGBu16.r (h ⟨5310, 5310, 5310⟩))
  · rintro r hr ⟨cs, e, h⟩
    exact bt_sixteen std_b64 hp' hr e (congrArg RGBu16.r (h ⟨5310, 5310, 5310⟩))

/-- C82 [F]: for floating-point components in `[0,1]`, f32 or f64: the sRGB curves return every value to
within 24 roundings, LogC to within 4e-6, BT.709 and BT.2020 to within 1e-3. -/
theorem C82_components {f : Fmt} (hb : f = Fmt.b32 ∨ f = Fmt.b64) [Libm f] (hp : PowAccurate f)
    (hl : LogAccurate f) (y : FP f) (hy : y.isFinite = true) (h0 : 0 ≤ y.val) (h1 : y.val ≤ 1) :
    |((encode.srgb_t (decode.srgb_t y)).val : ℝ) - y.val| ≤ 24 * f.u ∧
    |((encode.alexa_logc_v3_t (decode.alexa_logc_v3_t y)).val : ℝ) - y.val| ≤ 4e-6 ∧
    |((encode.bt709_t (decode.bt709_t y)).val : ℝ) - y.val| ≤ 1e-3 ∧
    |((encode.bt2020_t (decode.bt2020_t y)).val : ℝ) - y.val| ≤ 1e-3 := by
  have hf : Std f := by rcases hb with rfl | rfl; exacts [std_b32, std_b64]
  refine ⟨?_, (logc_trip hf hp hl hy h0 h1).2.trans (by norm_num),
    (bt709_trip hf hp hy h0 h1).2.trans (by norm_num), (bt2020_trip hf hp hy h0 h1).2.trans (by norm_num)⟩
  rcases hb with rfl | rfl
  · exact (srgb_roundtrip hf hp seam32 hy h0 h1).2
  · exact (srgb_roundtrip hf hp seam64 hy h0 h1).2

/-- C82 [F]: a power curve with exponent between 2 and 2.7, as used by DCI-P3 and Adobe RGB, returns every
component from `2^-17` to 1 to within 47 roundings, relative to the component. -/
theorem C82_power_components {f : Fmt} (hb : f = Fmt.b32 ∨ f = Fmt.b64) [Libm f] (hp : PowAccurate f)
    (g : ℚ) (hg1 : 2 ≤ g) (hg2 : g ≤ 2.7) (c : RGBf (FP f))
    (hc : ∀ i, (rgbVec c i).isFinite = true ∧ 1 / 2 ^ 17 ≤ (rgbVec c i).val ∧ (rgbVec c i).val ≤ 1) :
    ∀ i, |((rgbVec ((c.powf (FP.ofQ f false g)).powf (FP.ofQ f false 1.0 / FP.ofQ f false g)) i).val : ℝ)
      - (rgbVec c i).val| ≤ 47 * f.u * (rgbVec c i).val := by
  have hf : Std f := by rcases hb with rfl | rfl; exacts [std_b32, std_b64]
  intro i
  obtain ⟨a, b, d⟩ := hc i
  have := (gamma_trip hf hp hg1 (le_trans hg2 (by norm_num)) a b d).2
  fin_cases i <;> exact this

/-- Not vacuous: rounding the exact power and logarithm is accurate enough, in both formats. -/
example : @PowAccurate Fmt.b32 (idealLibm Fmt.b32) ∧ @LogAccurate Fmt.b32 (idealLibm Fmt.b32) ∧
    @PowAccurate Fmt.b64 (idealLibm Fmt.b64) ∧ @LogAccurate Fmt.b64 (idealLibm Fmt.b64) :=
  ⟨ideal_pow std_b32, ideal_log std_b32, ideal_pow std_b64, ideal_log std_b64⟩

/-- Not vacuous: with that library a pixel survives the trip through LogC in f32. -/
example : letI := idealLibm Fmt.b32
    ((Shipped.alexaWideGamut (FP.ofQ Fmt.b32 false)).encode
      ((Shipped.alexaWideGamut (FP.ofQ Fmt.b32 false)).decode (RGBu16.toF ⟨5310, 17, 65535⟩))).toU16
      = ⟨5310, 17, 65535⟩ := by
  letI := idealLibm Fmt.b32
  obtain ⟨cs, e, h⟩ := C82_sixteen_bit_f32 (ideal_pow std_b32) (ideal_log std_b32)
    (.ok (Shipped.alexaWideGamut (FP.ofQ Fmt.b32 false))) (by simp [Spec.gapless])
  cases e
  exact h _

end CS

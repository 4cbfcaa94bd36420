import Verif.Lemmas.TripEval32
import Verif.Lemmas.TripEval64

/-!
# C85: the shipped RGB spaces are the published ones

The published chromaticities are listed once more, from the standards named in the comments of
`color_space_rgb.rs`, as exact rationals; the theorems say that the conversion functions send the
three unit colours and white to these chromaticities, up to a stated error.
-/

namespace CS

/-- chromaticity coordinates of the primaries and the white of an RGB space -/
structure Spec.Primaries where
  red : ℚ × ℚ
  green : ℚ × ℚ
  blue : ℚ × ℚ
  white : ℚ × ℚ

/-- IEC 61966-2-1 (sRGB) and ITU-R BT.709 -/
def Spec.rec709 : Spec.Primaries := ⟨(0.64, 0.33), (0.30, 0.60), (0.15, 0.06), (0.3127, 0.3290)⟩
/-- ITU-R BT.2020 -/
def Spec.rec2020 : Spec.Primaries :=
  ⟨(0.708, 0.292), (0.170, 0.797), (0.131, 0.046), (0.3127, 0.3290)⟩
/-- SMPTE RP 431-2 -/
def Spec.p3 : Spec.Primaries := ⟨(0.680, 0.320), (0.265, 0.690), (0.150, 0.060), (0.314, 0.351)⟩
/-- SMPTE EG 432-1 -/
def Spec.p3d65 : Spec.Primaries := { Spec.p3 with white := (0.3127, 0.3290) }
/-- SMPTE ST 2065-1 (AP0) -/
def Spec.ap0 : Spec.Primaries :=
  ⟨(0.73470, 0.26530), (0, 1), (0.0001, -0.077), (0.32168, 0.33767)⟩
/-- Academy S-2014-004 (AP1) -/
def Spec.ap1 : Spec.Primaries := ⟨(0.713, 0.293), (0.165, 0.830), (0.128, 0.044), (0.32168, 0.33767)⟩
/-- Adobe RGB (1998) colour image encoding -/
def Spec.adobe : Spec.Primaries := ⟨(0.64, 0.33), (0.21, 0.71), (0.15, 0.06), (0.3127, 0.3290)⟩
/-- ARRI Alexa Wide Gamut RGB -/
def Spec.alexa : Spec.Primaries :=
  ⟨(0.6840, 0.3130), (0.2210, 0.8480), (0.0861, -0.1020), (0.3127, 0.3290)⟩

/-- a finite number within `δ` of `q` -/
def Spec.Near {f : Fmt} (a : FP f) (q δ : ℚ) : Prop := a.isFinite = true ∧ |a.val - q| ≤ δ

/-- chromaticity coordinates within `δ` of a published pair -/
def Spec.NearXy {f : Fmt} (c : XYY (FP f)) (p : ℚ × ℚ) (δ : ℚ) : Prop :=
  Spec.Near c.x p.1 δ ∧ Spec.Near c.y p.2 δ

/-- relative to the space's own white, the unit colours convert to XYZ colours of the published
chromaticities, RGB white to luminance 100, and the published white of luminance 100 to RGB white -/
def Spec.Realises {f : Fmt} [Libm f] (r : Res (ColorSpaceRGB (FP f))) (p : Spec.Primaries)
    (δ : ℚ) : Prop :=
  let O : FP f := Flt.one
  let Z : FP f := Flt.zero
  ∃ cs A B, r = .ok cs ∧ xyzToRgbMatrix cs.white cs = .ok A ∧ rgbToXyzMatrix cs.white cs = .ok B ∧
    Spec.NearXy (XYY.fromXyz (rgbToXyz B ⟨O, Z, Z⟩)) p.red δ ∧
    Spec.NearXy (XYY.fromXyz (rgbToXyz B ⟨Z, O, Z⟩)) p.green δ ∧
    Spec.NearXy (XYY.fromXyz (rgbToXyz B ⟨Z, Z, O⟩)) p.blue δ ∧
    Spec.NearXy (XYY.fromXyz (rgbToXyz B ⟨O, O, O⟩)) p.white δ ∧
    Spec.Near (rgbToXyz B ⟨O, O, O⟩).y 100 (100 * δ) ∧
    ∃ c, xyzToRgb A (XYZ.fromXy (FP.ofQ f false p.white.1) (FP.ofQ f false p.white.2)) = c ∧
      Spec.Near c.r 1 δ ∧ Spec.Near c.g 1 δ ∧ Spec.Near c.b 1 δ

/-! ### Evaluation -/

/-- evaluation form of `Spec.Near` -/
def nearB {f : Fmt} (a : FP f) (q δ : ℚ) : Bool := a.isFinite && decide (|a.val - q| ≤ δ)
theorem nearB_sound {f : Fmt} {a : FP f} {q δ : ℚ} (h : nearB a q δ = true) : Spec.Near a q δ := by
  unfold nearB at h
  rw [Bool.and_eq_true, decide_eq_true_eq] at h
  exact h

/-- evaluation form of `Spec.NearXy` -/
def nearXyB {f : Fmt} [Libm f] (v : XYZ (FP f)) (p : ℚ × ℚ) (δ : ℚ) : Bool :=
  v.force fun v => (fun c : XYY (FP f) => nearB c.x p.1 δ && nearB c.y p.2 δ) (XYY.fromXyz v)
theorem nearXyB_sound {f : Fmt} [Libm f] {v : XYZ (FP f)} {p : ℚ × ℚ} {δ : ℚ}
    (h : nearXyB v p δ = true) : Spec.NearXy (XYY.fromXyz v) p δ := by
  unfold nearXyB at h
  simp only [XYZ.force_eq, Bool.and_eq_true] at h
  exact ⟨nearB_sound h.1, nearB_sound h.2⟩

/-- evaluation form of `Spec.Realises` -/
def realisesB {f : Fmt} [Libm f] (cs : ColorSpaceRGB (FP f)) (p : Spec.Primaries) (δ : ℚ) : Bool :=
  withCat02 fun MAi MA => cs.force fun cs => fastXyz MAi MA cs.white cs fun A B =>
    (fun O Z : FP f =>
      nearXyB (rgbToXyz B ⟨O, Z, Z⟩) p.red δ && nearXyB (rgbToXyz B ⟨Z, O, Z⟩) p.green δ &&
      nearXyB (rgbToXyz B ⟨Z, Z, O⟩) p.blue δ && nearXyB (rgbToXyz B ⟨O, O, O⟩) p.white δ &&
      nearB (rgbToXyz B ⟨O, O, O⟩).y 100 (100 * δ) &&
      (fun c : RGBf (FP f) => nearB c.r 1 δ && nearB c.g 1 δ && nearB c.b 1 δ)
        (xyzToRgb A (XYZ.fromXy (FP.ofQ f false p.white.1) (FP.ofQ f false p.white.2))))
      Flt.one Flt.zero

theorem realisesB_libm {f : Fmt} (L : Libm f) : @realisesB f L = @realisesB f (noLibm f) := by
  funext cs p δ; rfl

theorem realises_of_check {f : Fmt} (L : Libm f) {r : Res (ColorSpaceRGB (FP f))} {t : ℚ}
    {c : ColorSpaceRGB (FP f)} {p : Spec.Primaries} {δ : ℚ} (hr : Linked (r, t) (c, t))
    (h : @realisesB f (noLibm f) c p δ = true) : Spec.Realises r p δ := by
  rw [← realisesB_libm L] at h
  obtain ⟨cs, er, e1, e2, e3, -⟩ := hr
  unfold realisesB at h
  obtain ⟨MAi, hi, h⟩ := withCat02_sound h
  simp only [ColorSpaceRGB.force_eq] at h
  obtain ⟨A, B, hA, hB, hk⟩ := fastXyz_sound hi h
  simp only [Bool.and_eq_true] at hk
  obtain ⟨⟨⟨⟨⟨h1, h2⟩, h3⟩, h4⟩, h5⟩, ⟨h6, h7⟩, h8⟩ := hk
  refine ⟨cs, A, B, er, ?_, ?_, nearXyB_sound h1, nearXyB_sound h2, nearXyB_sound h3,
    nearXyB_sound h4, nearB_sound h5, _, rfl, nearB_sound h6, nearB_sound h7, nearB_sound h8⟩
  · rw [← hA]; unfold xyzToRgbMatrix; rw [e1, e3]
  · rw [← hB]; unfold rgbToXyzMatrix; rw [e2, e3]

theorem pub64_srgb : @realisesB Fmt.b64 (noLibm _) Tripb64.srgb Spec.rec709 2e-4 = true := by krefl
theorem pub64_adobeRgb1998 : @realisesB Fmt.b64 (noLibm _) Tripb64.adobeRgb1998 Spec.adobe 2e-5 = true := by krefl
theorem pub64_alexaWideGamut : @realisesB Fmt.b64 (noLibm _) Tripb64.alexaWideGamut Spec.alexa 2e-6 = true := by krefl
theorem pub64_aces : @realisesB Fmt.b64 (noLibm _) Tripb64.aces Spec.ap0 1e-10 = true := by krefl
theorem pub64_srgbDrv : @realisesB Fmt.b64 (noLibm _) Tripb64.srgbDrv Spec.rec709 2e-15 = true := by krefl
theorem pub64_bt709 : @realisesB Fmt.b64 (noLibm _) Tripb64.bt709 Spec.rec709 2e-15 = true := by krefl
theorem pub64_bt2020 : @realisesB Fmt.b64 (noLibm _) Tripb64.bt2020 Spec.rec2020 2e-15 = true := by krefl
theorem pub64_dciP3 : @realisesB Fmt.b64 (noLibm _) Tripb64.dciP3 Spec.p3 2e-15 = true := by krefl
theorem pub64_dciP3D65 : @realisesB Fmt.b64 (noLibm _) Tripb64.dciP3D65 Spec.p3d65 2e-15 = true := by krefl
theorem pub64_acesCg : @realisesB Fmt.b64 (noLibm _) Tripb64.acesCg Spec.ap1 2e-15 = true := by krefl
theorem pub32_srgb : @realisesB Fmt.b32 (noLibm _) Tripb32.srgb Spec.rec709 2e-4 = true := by krefl
theorem pub32_adobeRgb1998 : @realisesB Fmt.b32 (noLibm _) Tripb32.adobeRgb1998 Spec.adobe 2e-5 = true := by krefl
theorem pub32_alexaWideGamut : @realisesB Fmt.b32 (noLibm _) Tripb32.alexaWideGamut Spec.alexa 2e-6 = true := by krefl
theorem pub32_aces : @realisesB Fmt.b32 (noLibm _) Tripb32.aces Spec.ap0 5e-7 = true := by krefl
theorem pub32_srgbDrv : @realisesB Fmt.b32 (noLibm _) Tripb32.srgbDrv Spec.rec709 5e-7 = true := by krefl
theorem pub32_bt709 : @realisesB Fmt.b32 (noLibm _) Tripb32.bt709 Spec.rec709 5e-7 = true := by krefl
theorem pub32_bt2020 : @realisesB Fmt.b32 (noLibm _) Tripb32.bt2020 Spec.rec2020 5e-7 = true := by krefl
theorem pub32_dciP3 : @realisesB Fmt.b32 (noLibm _) Tripb32.dciP3 Spec.p3 5e-7 = true := by krefl
theorem pub32_dciP3D65 : @realisesB Fmt.b32 (noLibm _) Tripb32.dciP3D65 Spec.p3d65 5e-7 = true := by krefl
theorem pub32_acesCg : @realisesB Fmt.b32 (noLibm _) Tripb32.acesCg Spec.ap1 5e-7 = true := by krefl

/-! ### C85 -/

/-- the shipped spaces, each with its published chromaticities and an allowed error -/
def Spec.published (f : Fmt) [Libm f] (srgb adobe alexa aces derived : ℚ) :
    List (Res (ColorSpaceRGB (FP f)) × Spec.Primaries × ℚ) :=
  let l := FP.ofQ f false
  [(.ok (Shipped.srgb l), Spec.rec709, srgb), (.ok (Shipped.adobeRgb1998 l), Spec.adobe, adobe),
   (.ok (Shipped.alexaWideGamut l), Spec.alexa, alexa), (.ok (Shipped.aces l), Spec.ap0, aces),
   (Shipped.srgbDrv l, Spec.rec709, derived), (Shipped.bt709 l, Spec.rec709, derived),
   (Shipped.bt2020 l, Spec.rec2020, derived), (Shipped.dciP3 l, Spec.p3, derived),
   (Shipped.dciP3D65 l, Spec.p3d65, derived), (Shipped.acesCg l, Spec.ap1, derived)]

/-- C85 [F]: in f64 every shipped space realises its published primaries and white, with an error of
at most 2e-4 (sRGB, whose printed matrix has four decimals), 2e-5 (Adobe RGB), 2e-6 (Alexa Wide
Gamut), 1e-10 (ACES) and 2e-15 (the spaces derived from primaries). -/
theorem C85_realises_f64 [L : Libm Fmt.b64] :
    ∀ r ∈ Spec.published Fmt.b64 2e-4 2e-5 2e-6 1e-10 2e-15, Spec.Realises r.1 r.2.1 r.2.2 := by
  unfold Spec.published
  dsimp only
  simp only [List.forall_mem_cons, List.not_mem_nil, false_implies, implies_true, and_true]
  exact ⟨realises_of_check L (linked_of_check (t := 0) (srgb_same Tripb64.l L) Tripb64.link_srgb) pub64_srgb,
    realises_of_check L (linked_of_check (t := 0) (adobeRgb1998_same Tripb64.l L) Tripb64.link_adobeRgb1998) pub64_adobeRgb1998,
    realises_of_check L (linked_of_check (t := 0) (alexaWideGamut_same Tripb64.l L) Tripb64.link_alexaWideGamut) pub64_alexaWideGamut,
    realises_of_check L (linked_of_check (t := 0) (aces_same Tripb64.l L) Tripb64.link_aces) pub64_aces,
    realises_of_check L (linked_of_check (t := 0) (srgbDrv_same Tripb64.l L) Tripb64.link_srgbDrv) pub64_srgbDrv,
    realises_of_check L (linked_of_check (t := 0) (bt709_same Tripb64.l L) Tripb64.link_bt709) pub64_bt709,
    realises_of_check L (linked_of_check (t := 0) (bt2020_same Tripb64.l L) Tripb64.link_bt2020) pub64_bt2020,
    realises_of_check L (linked_of_check (t := 0) (dciP3_same Tripb64.l L) Tripb64.link_dciP3) pub64_dciP3,
    realises_of_check L (linked_of_check (t := 0) (dciP3D65_same Tripb64.l L) Tripb64.link_dciP3D65) pub64_dciP3D65,
    realises_of_check L (linked_of_check (t := 0) (acesCg_same Tripb64.l L) Tripb64.link_acesCg) pub64_acesCg⟩

/-- C85 [F]: the same in f32, with 5e-7 for ACES and the spaces derived from primaries. -/
theorem C85_realises_f32 [L : Libm Fmt.b32] :
    ∀ r ∈ Spec.published Fmt.b32 2e-4 2e-5 2e-6 5e-7 5e-7, Spec.Realises r.1 r.2.1 r.2.2 := by
  unfold Spec.published
  dsimp only
  simp only [List.forall_mem_cons, List.not_mem_nil, false_implies, implies_true, and_true]
  exact ⟨realises_of_check L (linked_of_check (t := 0) (srgb_same Tripb32.l L) Tripb32.link_srgb) pub32_srgb,
    realises_of_check L (linked_of_check (t := 0) (adobeRgb1998_same Tripb32.l L) Tripb32.link_adobeRgb1998) pub32_adobeRgb1998,
    realises_of_check L (linked_of_check (t := 0) (alexaWideGamut_same Tripb32.l L) Tripb32.link_alexaWideGamut) pub32_alexaWideGamut,
    realises_of_check L (linked_of_check (t := 0) (aces_same Tripb32.l L) Tripb32.link_aces) pub32_aces,
    realises_of_check L (linked_of_check (t := 0) (srgbDrv_same Tripb32.l L) Tripb32.link_srgbDrv) pub32_srgbDrv,
    realises_of_check L (linked_of_check (t := 0) (bt709_same Tripb32.l L) Tripb32.link_bt709) pub32_bt709,
    realises_of_check L (linked_of_check (t := 0) (bt2020_same Tripb32.l L) Tripb32.link_bt2020) pub32_bt2020,
    realises_of_check L (linked_of_check (t := 0) (dciP3_same Tripb32.l L) Tripb32.link_dciP3) pub32_dciP3,
    realises_of_check L (linked_of_check (t := 0) (dciP3D65_same Tripb32.l L) Tripb32.link_dciP3D65) pub32_dciP3D65,
    realises_of_check L (linked_of_check (t := 0) (acesCg_same Tripb32.l L) Tripb32.link_acesCg) pub32_acesCg⟩

/-- every space of the list is one a user gets: the claim is not vacuous (here Adobe RGB, whose blue
and white chromaticities differ from its green) -/
example [L : Libm Fmt.b64] : ∃ cs B, Shipped.adobeRgb1998 (FP.ofQ Fmt.b64 false) = cs ∧
    rgbToXyzMatrix cs.white cs = .ok B ∧
    Spec.NearXy (XYY.fromXyz (rgbToXyz B ⟨Flt.zero, Flt.one, Flt.zero⟩)) (0.21, 0.71) 2e-5 := by
  obtain ⟨cs, A, B, h, -, hB, -, hg, -⟩ :=
    C85_realises_f64 (.ok (Shipped.adobeRgb1998 (FP.ofQ Fmt.b64 false)), Spec.adobe, 2e-5)
      (by simp [Spec.published])
  injection h with h
  exact ⟨cs, B, h, hB, hg⟩

/-- the chromaticities stored in a space: the accessible fields `red`, `green`, `blue`, `white` -/
def Spec.Stores {T : Type} [Neg T] (l : ℚ → T) (r : Res (ColorSpaceRGB T)) (p : Spec.Primaries) :
    Prop :=
  let num : ℚ → T := fun q => if q < 0 then -l (-q) else l q
  let pair : ℚ × ℚ → XYY T := fun c => ⟨num c.1, num c.2, l 1⟩
  ∀ cs, r = .ok cs → cs.red = pair p.red ∧ cs.green = pair p.green ∧ cs.blue = pair p.blue ∧
    cs.white = pair p.white

/-- C85 [G]: in any arithmetic the spaces store the published chromaticities, each number being the
meaning of the published decimal. -/
theorem C85_primaries {T : Type} [Add T] [Sub T] [Mul T] [Div T] [Neg T] [Flt T] (l : ℚ → T) :
    Spec.Stores l (.ok (Shipped.srgb l)) Spec.rec709 ∧
    Spec.Stores l (.ok (Shipped.adobeRgb1998 l)) Spec.adobe ∧
    Spec.Stores l (.ok (Shipped.alexaWideGamut l)) Spec.alexa ∧
    Spec.Stores l (.ok (Shipped.aces l)) Spec.ap0 ∧
    Spec.Stores l (Shipped.srgbDrv l) Spec.rec709 ∧ Spec.Stores l (Shipped.bt709 l) Spec.rec709 ∧
    Spec.Stores l (Shipped.bt2020 l) Spec.rec2020 ∧ Spec.Stores l (Shipped.dciP3 l) Spec.p3 ∧
    Spec.Stores l (Shipped.dciP3D65 l) Spec.p3d65 ∧ Spec.Stores l (Shipped.acesCg l) Spec.ap1 := by
  have new : ∀ (r g b w : XYY T) (e d : RGBf T → RGBf T) (cs : ColorSpaceRGB T),
      ColorSpaceRGB.new r g b w e d = .ok cs →
      cs.red = r ∧ cs.green = g ∧ cs.blue = b ∧ cs.white = w := by
    intro r g b w e d cs h
    unfold ColorSpaceRGB.new at h
    cases hi : (buildXyzToRgbMatrix r g b w).inverse with
    | none => simp [hi, unwrap] at h; cases h
    | some m => simp only [hi, unwrap] at h; cases h; exact ⟨rfl, rfl, rfl, rfl⟩
  refine ⟨?_, ?_, ?_, ?_, ?_, ?_, ?_, ?_, ?_, ?_⟩ <;> intro cs h
  iterate 4
    cases h
    simp only [Shipped.srgb, Shipped.adobeRgb1998, Shipped.alexaWideGamut, Shipped.aces,
      ColorSpaceRGB.newWithMatrices, Spec.rec709, Spec.adobe, Spec.alexa, Spec.ap0]
    norm_num
  all_goals
    obtain ⟨h1, h2, h3, h4⟩ := new _ _ _ _ _ _ cs h
    rw [h1, h2, h3, h4]
    simp only [Spec.rec709, Spec.rec2020, Spec.p3, Spec.p3d65, Spec.ap1]
    norm_num

end CS

import Verif.Lemmas.FPTrip
import Verif.Model.Shipped

/-!
# Statement of the floating-point round trips (C77) and reduction to evaluations
-/

namespace CS

theorem forall₂_mem {α β : Type} {R : α → β → Prop} {l : List α} {m : List β}
    (h : List.Forall₂ R l m) : ∀ a ∈ l, ∃ b ∈ m, R a b := by
  induction h with
  | nil => simp
  | cons h1 _ ih =>
    intro a ha
    rcases List.mem_cons.1 ha with rfl | ha
    · exact ⟨_, List.mem_cons_self .., h1⟩
    · obtain ⟨b, hb, hr⟩ := ih a ha
      exact ⟨b, List.mem_cons_of_mem _ hb, hr⟩

/-- converting any XYZ colour with components up to `M` to RGB and back, and any RGB colour to XYZ
and back, gives finite components within `δ M` of the original -/
def Spec.Trips {f : Fmt} [Libm f] (toRgb toXyz : Matrix33 (FP f)) (δ : ℚ) : Prop :=
  (∀ (v : XYZ (FP f)) (M : ℚ), 1 / 2 ^ 90 ≤ M → M ≤ 2 ^ 100 →
    (∀ i, (xyzVec v i).isFinite = true ∧ |(xyzVec v i).val| ≤ M) → ∀ i,
    (xyzVec (rgbToXyz toXyz (xyzToRgb toRgb v)) i).isFinite = true ∧
    |(xyzVec (rgbToXyz toXyz (xyzToRgb toRgb v)) i).val - (xyzVec v i).val| ≤ δ * M) ∧
  (∀ (c : RGBf (FP f)) (M : ℚ), 1 / 2 ^ 90 ≤ M → M ≤ 2 ^ 100 →
    (∀ i, (rgbVec c i).isFinite = true ∧ |(rgbVec c i).val| ≤ M) → ∀ i,
    (rgbVec (xyzToRgb toRgb (rgbToXyz toXyz c)) i).isFinite = true ∧
    |(rgbVec (xyzToRgb toRgb (rgbToXyz toXyz c)) i).val - (rgbVec c i).val| ≤ δ * M)

/-- applying `m`, then `back`, moves every colour with components up to `M` by at most `δ M` -/
def Spec.Returns {f : Fmt} [Libm f] (m back : Matrix33 (FP f)) (δ : ℚ) : Prop :=
  ∀ (c : RGBf (FP f)) (M : ℚ), 1 / 2 ^ 90 ≤ M → M ≤ 2 ^ 100 →
    (∀ i, (rgbVec c i).isFinite = true ∧ |(rgbVec c i).val| ≤ M) → ∀ i,
    (rgbVec (back * (m * c)) i).isFinite = true ∧
    |(rgbVec (back * (m * c)) i).val - (rgbVec c i).val| ≤ δ * M

theorem trips_of_check {f : Fmt} [Libm f] (hf : Wide f) (hp : 100 ≤ 2 ^ f.p)
    {A B : Matrix33 (FP f)} {δ : ℚ} (h1 : tripCheck A B δ = true) (h2 : tripCheck B A δ = true) :
    Spec.Trips A B δ := by
  obtain ⟨α, β, ε, t, ht⟩ := tripCheck_sound h1
  obtain ⟨β', α', ε', t', ht'⟩ := tripCheck_sound h2
  constructor
  · intro v M hM1 hM2 hv i
    obtain ⟨g1, g2⟩ := trip_xyz hf t v hM1 hM2 (lit100 hp) hv i
    have hM0 : 0 ≤ M := le_trans (by positivity) hM1
    exact ⟨g1, le_trans g2 (mul_le_mul_of_nonneg_right ht hM0)⟩
  · intro v M hM1 hM2 hv i
    obtain ⟨g1, g2⟩ := trip_rgb hf t' v hM1 hM2 (lit100 hp) hv i
    have hM0 : 0 ≤ M := le_trans (by positivity) hM1
    rw [mul_comm β' α'] at ht'
    exact ⟨g1, le_trans g2 (mul_le_mul_of_nonneg_right ht' hM0)⟩

theorem returns_of_check {f : Fmt} [Libm f] (hf : Wide f)
    {A B : Matrix33 (FP f)} {δ : ℚ} (h1 : tripCheck A B δ = true) : Spec.Returns A B δ := by
  obtain ⟨α, β, ε, t, ht⟩ := tripCheck_sound h1
  intro v M hM1 hM2 hv i
  obtain ⟨g1, g2⟩ := trip_plain hf t v (le_trans (by norm_num) hM1) hM2 hv i
  have hM0 : 0 ≤ M := le_trans (by positivity) hM1
  exact ⟨g1, le_trans g2 (mul_le_mul_of_nonneg_right ht hM0)⟩

/-- the six white points of `illuminant::xy`, illuminant.rs:10-39 -/
def Spec.whites (f : Fmt) : List (XYY (FP f)) :=
  let l := FP.ofQ f false
  [Shipped.xyD50 l, Shipped.xyD55 l, Shipped.xyD60 l, Shipped.xyD65 l, Shipped.xyDCI_P3 l,
   Shipped.xyACES l]

/-- for every listed white point the two conversion matrices exist and make good round trips -/
def Spec.SpaceTrips {f : Fmt} [Libm f] (r : Res (ColorSpaceRGB (FP f))) (δ : ℚ) : Prop :=
  ∃ cs, r = .ok cs ∧ ∀ w ∈ Spec.whites f, ∃ A B, xyzToRgbMatrix w cs = .ok A ∧
    rgbToXyzMatrix w cs = .ok B ∧ Spec.Trips A B δ

/-- the matrices both ways between two spaces exist, and `a` to `b` and back is nearly the identity -/
def Spec.PairReturns {f : Fmt} [Libm f] (r s : Res (ColorSpaceRGB (FP f))) (δ : ℚ) : Prop :=
  ∃ a b m n, r = .ok a ∧ s = .ok b ∧ rgbToRgbMatrix a b = .ok m ∧ rgbToRgbMatrix b a = .ok n ∧
    Spec.Returns m n δ

/-! ### Tables of evaluated matrices

The modules `TripEval64` and `TripEval32` list the matrices of the ten spaces as dyadic numbers,
check by evaluation that these are what the constructors compute, and run the checks below on them. -/

/-- the number `n / 2^k` -/
def dyadic (f : Fmt) (n : ℤ) (k : ℕ) : FP f := FP.ofQ f false (n / 2 ^ k)

/-- identity of two floats, zeros distinguished -/
def FP.same {f : Fmt} : FP f → FP f → Bool
  | .fin p _, .fin q _ => decide (p = q)
  | .nzero, .nzero => true
  | _, _ => false

theorem FP.same_sound {f : Fmt} {a b : FP f} (h : FP.same a b = true) : a = b := by
  cases a <;> cases b <;> simp_all [FP.same]

/-- identity of two matrices -/
def Matrix33.same {f : Fmt} (a b : Matrix33 (FP f)) : Bool :=
  FP.same a.x0 b.x0 && FP.same a.x1 b.x1 && FP.same a.x2 b.x2 && FP.same a.x3 b.x3 &&
  FP.same a.x4 b.x4 && FP.same a.x5 b.x5 && FP.same a.x6 b.x6 && FP.same a.x7 b.x7 &&
  FP.same a.x8 b.x8

theorem Matrix33.same_sound {f : Fmt} {a b : Matrix33 (FP f)} (h : a.same b = true) : a = b := by
  unfold Matrix33.same at h
  simp only [Bool.and_eq_true] at h
  obtain ⟨⟨⟨⟨⟨⟨⟨⟨h0, h1⟩, h2⟩, h3⟩, h4⟩, h5⟩, h6⟩, h7⟩, h8⟩ := h
  ext
  exacts [FP.same_sound h0, FP.same_sound h1, FP.same_sound h2, FP.same_sound h3, FP.same_sound h4,
    FP.same_sound h5, FP.same_sound h6, FP.same_sound h7, FP.same_sound h8]

/-- a colour space known by its matrices and white point only -/
def tabled {f : Fmt} (m mi : Matrix33 (FP f)) (w : XYY (FP f)) : ColorSpaceRGB (FP f) :=
  ⟨m, mi, w, w, w, w, id, id⟩

/-- does the construction give the tabled matrices -/
def linkCheck {f : Fmt} (r : Res (ColorSpaceRGB (FP f))) (c : ColorSpaceRGB (FP f)) : Bool :=
  match r with
  | .error _ => false
  | .ok cs => cs.xf_xyz_to_rgb.same c.xf_xyz_to_rgb && cs.xf_rgb_to_xyz.same c.xf_rgb_to_xyz &&
      (FP.same cs.white.x c.white.x && FP.same cs.white.y c.white.y && FP.same cs.white.Y c.white.Y)

/-- a space and its table entry -/
def Linked {f : Fmt} (r : Res (ColorSpaceRGB (FP f)) × ℚ) (c : ColorSpaceRGB (FP f) × ℚ) : Prop :=
  ∃ cs, r.1 = .ok cs ∧ cs.xf_xyz_to_rgb = c.1.xf_xyz_to_rgb ∧
    cs.xf_rgb_to_xyz = c.1.xf_rgb_to_xyz ∧ cs.white = c.1.white ∧ r.2 = c.2

theorem linked_of_check {f : Fmt} {r r0 : Res (ColorSpaceRGB (FP f))} {t : ℚ}
    {c : ColorSpaceRGB (FP f)} (hs : SameData r r0) (h : linkCheck r0 c = true) :
    Linked (r, t) (c, t) := by
  unfold linkCheck at h
  cases r0 with
  | error e => simp at h
  | ok c0 =>
    obtain ⟨cs, e, e1, e2, e3⟩ := hs c0 rfl
    simp only [Bool.and_eq_true] at h
    obtain ⟨⟨h1, h2⟩, ⟨h3, h4⟩, h5⟩ := h
    refine ⟨cs, e, e1.trans (Matrix33.same_sound h1), e2.trans (Matrix33.same_sound h2), ?_, rfl⟩
    rw [e3]
    ext
    exacts [FP.same_sound h3, FP.same_sound h4, FP.same_sound h5]

/-- evaluation form of `SpaceTrips` -/
def spaceCheck {f : Fmt} [Libm f] (cs : ColorSpaceRGB (FP f)) (δ : ℚ) : Bool :=
  withCat02 fun MAi MA => cs.force fun cs => (Spec.whites f).all fun w =>
    fastXyz MAi MA w cs fun A B => tripCheck A B δ && tripCheck B A δ

theorem spaceTrips_of_check {f : Fmt} (L : Libm f) (hf : Wide f) (hp : 100 ≤ 2 ^ f.p)
    {r : Res (ColorSpaceRGB (FP f)) × ℚ} {c : ColorSpaceRGB (FP f) × ℚ} (hr : Linked r c)
    (h : @spaceCheck f (noLibm f) c.1 c.2 = true) : Spec.SpaceTrips r.1 r.2 := by
  unfold spaceCheck at h
  obtain ⟨cs, er, e1, e2, e3, e4⟩ := hr
  refine ⟨cs, er, fun w hw => ?_⟩
  rw [← withCat02_libm L, ← fastXyz_libm L] at h
  obtain ⟨MAi, hi, h⟩ := withCat02_sound h
  simp only [ColorSpaceRGB.force_eq] at h
  rw [List.all_eq_true] at h
  obtain ⟨A, B, hA, hB, hk⟩ := fastXyz_sound hi (h w hw)
  rw [Bool.and_eq_true] at hk
  refine ⟨A, B, ?_, ?_, ?_⟩
  · rw [← hA]; unfold xyzToRgbMatrix; rw [e1, e3]
  · rw [← hB]; unfold rgbToXyzMatrix; rw [e2, e3]
  · rw [e4]; exact trips_of_check hf hp hk.1 hk.2

/-- the shipped spaces, each with the error it is allowed in a conversion through XYZ -/
def Spec.xyzTolerance (f : Fmt) [Libm f] (srgb adobe alexa aces derived : ℚ) :
    List (Res (ColorSpaceRGB (FP f)) × ℚ) :=
  let l := FP.ofQ f false
  [(.ok (Shipped.srgb l), srgb), (.ok (Shipped.adobeRgb1998 l), adobe),
   (.ok (Shipped.alexaWideGamut l), alexa), (.ok (Shipped.aces l), aces),
   (Shipped.srgbDrv l, derived), (Shipped.bt709 l, derived), (Shipped.bt2020 l, derived),
   (Shipped.dciP3 l, derived), (Shipped.dciP3D65 l, derived), (Shipped.acesCg l, derived)]

/-! ### The spaces do not depend on the mathematical library -/

section
variable {f : Fmt} (l : ℚ → FP f)

/-- `srgb` evaluated without a library -/
def srgb0 : Res (ColorSpaceRGB (FP f)) :=
  letI := noLibm f
  .ok (Shipped.srgb l)
theorem srgb_same (L : Libm f) : SameData (.ok (Shipped.srgb l)) (srgb0 l) := by
  unfold srgb0 Shipped.srgb
  exact published_same _ _ _ _ _ _ _ _ _ _
/-- `adobeRgb1998` evaluated without a library -/
def adobeRgb19980 : Res (ColorSpaceRGB (FP f)) :=
  letI := noLibm f
  .ok (Shipped.adobeRgb1998 l)
theorem adobeRgb1998_same (L : Libm f) : SameData (.ok (Shipped.adobeRgb1998 l)) (adobeRgb19980 l) := by
  unfold adobeRgb19980 Shipped.adobeRgb1998
  exact published_same _ _ _ _ _ _ _ _ _ _
/-- `alexaWideGamut` evaluated without a library -/
def alexaWideGamut0 : Res (ColorSpaceRGB (FP f)) :=
  letI := noLibm f
  .ok (Shipped.alexaWideGamut l)
theorem alexaWideGamut_same (L : Libm f) : SameData (.ok (Shipped.alexaWideGamut l)) (alexaWideGamut0 l) := by
  unfold alexaWideGamut0 Shipped.alexaWideGamut
  exact published_same _ _ _ _ _ _ _ _ _ _
/-- `aces` evaluated without a library -/
def aces0 : Res (ColorSpaceRGB (FP f)) :=
  letI := noLibm f
  .ok (Shipped.aces l)
theorem aces_same (L : Libm f) : SameData (.ok (Shipped.aces l)) (aces0 l) := by
  unfold aces0 Shipped.aces
  exact published_same _ _ _ _ _ _ _ _ _ _
/-- `srgbDrv` evaluated without a library -/
def srgbDrv0 : Res (ColorSpaceRGB (FP f)) :=
  letI := noLibm f
  Shipped.srgbDrv l
theorem srgbDrv_same (L : Libm f) : SameData (Shipped.srgbDrv l) (srgbDrv0 l) := by
  unfold srgbDrv0 Shipped.srgbDrv
  exact new_same L _ _ _ _ _ _ _ _
/-- `bt709` evaluated without a library -/
def bt7090 : Res (ColorSpaceRGB (FP f)) :=
  letI := noLibm f
  Shipped.bt709 l
theorem bt709_same (L : Libm f) : SameData (Shipped.bt709 l) (bt7090 l) := by
  unfold bt7090 Shipped.bt709
  exact new_same L _ _ _ _ _ _ _ _
/-- `bt2020` evaluated without a library -/
def bt20200 : Res (ColorSpaceRGB (FP f)) :=
  letI := noLibm f
  Shipped.bt2020 l
theorem bt2020_same (L : Libm f) : SameData (Shipped.bt2020 l) (bt20200 l) := by
  unfold bt20200 Shipped.bt2020
  exact new_same L _ _ _ _ _ _ _ _
/-- `dciP3` evaluated without a library -/
def dciP30 : Res (ColorSpaceRGB (FP f)) :=
  letI := noLibm f
  Shipped.dciP3 l
theorem dciP3_same (L : Libm f) : SameData (Shipped.dciP3 l) (dciP30 l) := by
  unfold dciP30 Shipped.dciP3
  exact new_same L _ _ _ _ _ _ _ _
/-- `dciP3D65` evaluated without a library -/
def dciP3D650 : Res (ColorSpaceRGB (FP f)) :=
  letI := noLibm f
  Shipped.dciP3D65 l
theorem dciP3D65_same (L : Libm f) : SameData (Shipped.dciP3D65 l) (dciP3D650 l) := by
  unfold dciP3D650 Shipped.dciP3D65
  exact new_same L _ _ _ _ _ _ _ _
/-- `acesCg` evaluated without a library -/
def acesCg0 : Res (ColorSpaceRGB (FP f)) :=
  letI := noLibm f
  Shipped.acesCg l
theorem acesCg_same (L : Libm f) : SameData (Shipped.acesCg l) (acesCg0 l) := by
  unfold acesCg0 Shipped.acesCg
  exact new_same L _ _ _ _ _ _ _ _
end

theorem spaces_of_check {f : Fmt} (L : Libm f) (hf : Wide f) (hp : 100 ≤ 2 ^ f.p)
    {l : List (Res (ColorSpaceRGB (FP f)) × ℚ)} {t : List (ColorSpaceRGB (FP f) × ℚ)}
    (hl : List.Forall₂ Linked l t) (h : ∀ r ∈ t, @spaceCheck f (noLibm f) r.1 r.2 = true) :
    ∀ r ∈ l, Spec.SpaceTrips r.1 r.2 := by
  intro r hr
  obtain ⟨r0, hr0, hs⟩ := forall₂_mem hl r hr
  exact spaceTrips_of_check L hf hp hs (h r0 hr0)

end CS

import Verif.Lemmas.FPFast
import Verif.Lemmas.Quant

/-!
# Checking the round-trip hypotheses by evaluation
-/

namespace CS

/-- evaluate all entries once -/
def Matrix33.force {f : Fmt} {β : Type} (m : Matrix33 (FP f)) (k : Matrix33 (FP f) → β) : β :=
  m.x0.force fun a0 => m.x1.force fun a1 => m.x2.force fun a2 =>
  m.x3.force fun a3 => m.x4.force fun a4 => m.x5.force fun a5 =>
  m.x6.force fun a6 => m.x7.force fun a7 => m.x8.force fun a8 =>
  k ⟨a0, a1, a2, a3, a4, a5, a6, a7, a8⟩

theorem Matrix33.force_eq {f : Fmt} {β : Type} (m : Matrix33 (FP f)) (k : Matrix33 (FP f) → β) :
    m.force k = k m := by
  simp only [Matrix33.force, FP.force_eq]

/-- evaluate the matrices and the white point of a colour space once -/
def ColorSpaceRGB.force {f : Fmt} {β : Type} (cs : ColorSpaceRGB (FP f))
    (k : ColorSpaceRGB (FP f) → β) : β :=
  cs.xf_xyz_to_rgb.force fun m => cs.xf_rgb_to_xyz.force fun n =>
  cs.white.x.force fun x => cs.white.y.force fun y => cs.white.Y.force fun Y =>
  k { cs with xf_xyz_to_rgb := m, xf_rgb_to_xyz := n, white := ⟨x, y, Y⟩ }

theorem ColorSpaceRGB.force_eq {f : Fmt} {β : Type} (cs : ColorSpaceRGB (FP f))
    (k : ColorSpaceRGB (FP f) → β) : cs.force k = k cs := by
  simp only [ColorSpaceRGB.force, Matrix33.force_eq, FP.force_eq]

/-- largest of three row sums of absolute values, at least 1/2 -/
def normAbs {f : Fmt} (m : Matrix33 (FP f)) : ℚ :=
  let r (i : Fin 3) : ℚ := |m.q i 0| + |m.q i 1| + |m.q i 2|
  max (1 / 2) (max (r 0) (max (r 1) (r 2)))

/-- largest row sum of `|B A - 1|` -/
def maxDefect {f : Fmt} (B A : Matrix33 (FP f)) : ℚ :=
  let e (i j : Fin 3) : ℚ :=
    |B.q i 0 * A.q 0 j + B.q i 1 * A.q 1 j + B.q i 2 * A.q 2 j - (if i = j then 1 else 0)|
  let r (i : Fin 3) : ℚ := e i 0 + e i 1 + e i 2
  max (r 0) (max (r 1) (r 2))

/-- may the pair be used with error `δ`? -/
def tripCheck {f : Fmt} (A B : Matrix33 (FP f)) (δ : ℚ) : Bool :=
  A.fin && B.fin && decide (normAbs A ≤ 64) && decide (normAbs B ≤ 64) &&
    decide (11 * f.u * (normAbs A * normAbs B) + maxDefect B A ≤ δ)

theorem tripCheck_sound {f : Fmt} {A B : Matrix33 (FP f)} {δ : ℚ} (h : tripCheck A B δ = true) :
    ∃ α β ε, TripOk A B α β ε ∧ 11 * f.u * (α * β) + ε ≤ δ := by
  unfold tripCheck at h
  simp only [Bool.and_eq_true, decide_eq_true_eq] at h
  obtain ⟨⟨⟨⟨h1, h2⟩, h3⟩, h4⟩, h5⟩ := h
  refine ⟨normAbs A, normAbs B, maxDefect B A, ⟨h1, h2, ?_, ?_, le_max_left _ _, le_max_left _ _, h3,
    h4, ?_⟩, h5⟩
  · intro i
    unfold rowAbs normAbs
    rw [Fin.sum_univ_three]
    fin_cases i <;> simp
  · intro i
    unfold rowAbs normAbs
    rw [Fin.sum_univ_three]
    fin_cases i <;> simp
  · intro i
    unfold defect maxDefect
    simp only [Fin.sum_univ_three]
    fin_cases i <;> simp

theorem lit100 {f : Fmt} [Libm f] (h : 100 ≤ 2 ^ f.p) :
    (Flt.lit 100.0 : FP f).isFinite = true ∧ (Flt.lit 100.0 : FP f).val = 100 := by
  have e : (Flt.lit 100.0 : FP f) = FP.fin ((100 : ℕ) : ℚ) (FP.isRep_nat 100 h) := by
    rw [← FP.lit_nat 100 h (by norm_num)]
    show FP.lit _ = FP.lit _
    norm_num
  rw [e]
  exact ⟨rfl, by norm_num [FP.val]⟩

/-! ## Evaluating conversion matrices stage by stage -/

/-- evaluate the components once -/
def XYZ.force {f : Fmt} {β : Type} (v : XYZ (FP f)) (k : XYZ (FP f) → β) : β :=
  v.x.force fun x => v.y.force fun y => v.z.force fun z => k ⟨x, y, z⟩

theorem XYZ.force_eq {f : Fmt} {β : Type} (v : XYZ (FP f)) (k : XYZ (FP f) → β) :
    v.force k = k v := by
  simp only [XYZ.force, FP.force_eq]

/-- product of matrices by the fast operations -/
def mmE {f : Fmt} [Libm f] (a b : Matrix33 (FP f)) : Matrix33 (FP f) :=
  letI := FP.fastAdd f
  letI := FP.fastMul f
  a * b

theorem mmE_eq {f : Fmt} [Libm f] (a b : Matrix33 (FP f)) : mmE a b = a * b := by
  have h : ∀ (A A' : Add (FP f)) (M M' : Mul (FP f)), A = A' → M = M' →
      (letI := A; letI := M; a * b) = (letI := A'; letI := M'; a * b) := by
    rintro _ _ _ _ rfl rfl; rfl
  exact h _ _ _ _ (FP.fastAdd_eq f) (FP.fastMul_eq f)

/-- matrix times vector by the fast operations -/
def mvE {f : Fmt} (a : Matrix33 (FP f)) (b : XYZ (FP f)) : XYZ (FP f) :=
  letI := FP.fastAdd f
  letI := FP.fastMul f
  a * b

theorem mvE_eq {f : Fmt} (a : Matrix33 (FP f)) (b : XYZ (FP f)) : mvE a b = a * b := by
  have h : ∀ (A A' : Add (FP f)) (M M' : Mul (FP f)), A = A' → M = M' →
      (letI := A; letI := M; a * b) = (letI := A'; letI := M'; a * b) := by
    rintro _ _ _ _ rfl rfl; rfl
  exact h _ _ _ _ (FP.fastAdd_eq f) (FP.fastMul_eq f)

/-- `catWith` with the inverse cone matrix given -/
def fastCat {f : Fmt} [Libm f] (MAi MA : Matrix33 (FP f)) (src dst : XYZ (FP f))
    (k : Matrix33 (FP f) → Bool) : Bool :=
  if XYZ.eqb src dst then k Matrix33.identity
  else (mvE MA src).force fun a => (mvE MA dst).force fun b =>
    (wpScale a b).force fun s => (mmE MAi s).force fun m => (mmE m MA).force k

theorem fastCat_sound {f : Fmt} [Libm f] {MAi MA : Matrix33 (FP f)} (h : MA.inverse = some MAi)
    {src dst : XYZ (FP f)} {k : Matrix33 (FP f) → Bool} (hk : fastCat MAi MA src dst k = true) :
    ∃ c, catWith MA src dst = .ok c ∧ k c = true := by
  unfold fastCat at hk
  unfold catWith
  by_cases he : XYZ.eqb src dst = true
  · rw [if_pos he] at hk
    exact ⟨_, by rw [if_pos he], hk⟩
  · rw [if_neg he] at hk
    simp only [XYZ.force_eq, Matrix33.force_eq, mvE_eq, mmE_eq] at hk
    refine ⟨_, ?_, hk⟩
    rw [if_neg he, h]
    rfl

/-- run a check with the CAT02 matrix and its inverse evaluated -/
def withCat02 {f : Fmt} [Libm f] (k : Matrix33 (FP f) → Matrix33 (FP f) → Bool) : Bool :=
  (cat02M : Matrix33 (FP f)).force fun MA =>
    match MA.inverse with
    | some MAi => MAi.force fun MAi => k MAi MA
    | none => false

theorem withCat02_sound {f : Fmt} [Libm f] {k : Matrix33 (FP f) → Matrix33 (FP f) → Bool}
    (h : withCat02 k = true) : ∃ MAi, (cat02M : Matrix33 (FP f)).inverse = some MAi ∧
      k MAi cat02M = true := by
  unfold withCat02 at h
  rw [Matrix33.force_eq] at h
  cases hi : (cat02M : Matrix33 (FP f)).inverse with
  | none => simp [hi] at h
  | some MAi =>
    simp only [hi, Matrix33.force_eq] at h
    exact ⟨MAi, rfl, h⟩

/-- run a check on the matrices of `xyz_to_rgb_matrix` and `rgb_to_xyz_matrix` -/
def fastXyz {f : Fmt} [Libm f] (MAi MA : Matrix33 (FP f)) (w : XYY (FP f)) (cs : ColorSpaceRGB (FP f))
    (k : Matrix33 (FP f) → Matrix33 (FP f) → Bool) : Bool :=
  (XYZ.fromChromaticity w).force fun a => (XYZ.fromChromaticity cs.white).force fun b =>
  fastCat MAi MA a b fun c => fastCat MAi MA b a fun c' =>
  (mmE cs.xf_xyz_to_rgb c).force fun A => (mmE c' cs.xf_rgb_to_xyz).force fun B => k A B

theorem fastXyz_sound {f : Fmt} [Libm f] {MAi : Matrix33 (FP f)}
    (h : (cat02M : Matrix33 (FP f)).inverse = some MAi) {w : XYY (FP f)} {cs : ColorSpaceRGB (FP f)}
    {k : Matrix33 (FP f) → Matrix33 (FP f) → Bool} (hk : fastXyz MAi cat02M w cs k = true) :
    ∃ A B, xyzToRgbMatrix w cs = .ok A ∧ rgbToXyzMatrix w cs = .ok B ∧ k A B = true := by
  unfold fastXyz at hk
  simp only [XYZ.force_eq, Matrix33.force_eq, mmE_eq] at hk
  obtain ⟨c, hc, hk⟩ := fastCat_sound h hk
  obtain ⟨c', hc', hk⟩ := fastCat_sound h hk
  refine ⟨_, _, ?_, ?_, hk⟩
  · unfold xyzToRgbMatrix cat02
    rw [hc]; rfl
  · unfold rgbToXyzMatrix cat02
    rw [hc']; rfl

/-- run a check on the matrices of `rgb_to_rgb_matrix` both ways -/
def fastRgb {f : Fmt} [Libm f] (MAi MA : Matrix33 (FP f)) (a b : ColorSpaceRGB (FP f))
    (k : Matrix33 (FP f) → Matrix33 (FP f) → Bool) : Bool :=
  (XYZ.fromChromaticity a.white).force fun wa => (XYZ.fromChromaticity b.white).force fun wb =>
  fastCat MAi MA wa wb fun c => fastCat MAi MA wb wa fun c' =>
  (mmE b.xf_xyz_to_rgb c).force fun A => (mmE a.xf_xyz_to_rgb c').force fun B =>
  (mmE A a.xf_rgb_to_xyz).force fun A => (mmE B b.xf_rgb_to_xyz).force fun B => k A B

theorem fastRgb_sound {f : Fmt} [Libm f] {MAi : Matrix33 (FP f)}
    (h : (cat02M : Matrix33 (FP f)).inverse = some MAi) {a b : ColorSpaceRGB (FP f)}
    {k : Matrix33 (FP f) → Matrix33 (FP f) → Bool} (hk : fastRgb MAi cat02M a b k = true) :
    ∃ A B, rgbToRgbMatrix a b = .ok A ∧ rgbToRgbMatrix b a = .ok B ∧ k A B = true := by
  unfold fastRgb at hk
  simp only [XYZ.force_eq, Matrix33.force_eq, mmE_eq] at hk
  obtain ⟨c, hc, hk⟩ := fastCat_sound h hk
  obtain ⟨c', hc', hk⟩ := fastCat_sound h hk
  refine ⟨_, _, ?_, ?_, hk⟩
  · unfold rgbToRgbMatrix cat02
    rw [hc]; rfl
  · unfold rgbToRgbMatrix cat02
    rw [hc']; rfl

/-! ## Independence of the mathematical library

The matrices use only the basic operations, so they may be evaluated with any `Libm`; the kernel
evaluates fastest without free variables. -/

/-- a library that answers nothing -/
def noLibm (f : Fmt) : Libm f where
  powf _ _ := .nan
  powi _ _ := .nan
  sqrt _ := .nan
  hypot _ _ := .nan
  atan2 _ _ := .nan
  sin _ := .nan
  cos _ := .nan
  exp _ := .nan
  log10 _ := .nan
  toDeg _ := .nan
  toRad _ := .nan
  ulps2 _ _ := false

theorem withCat02_libm {f : Fmt} (L : Libm f) : @withCat02 f L = @withCat02 f (noLibm f) := by
  funext k; rfl

theorem fastXyz_libm {f : Fmt} (L : Libm f) : @fastXyz f L = @fastXyz f (noLibm f) := by
  funext a b w cs k; rfl

theorem fastRgb_libm {f : Fmt} (L : Libm f) : @fastRgb f L = @fastRgb f (noLibm f) := by
  funext a b w cs k; rfl

/-- the second construction succeeding implies that the first does, with the same matrices and white
point -/
def SameData {f : Fmt} (r r0 : Res (ColorSpaceRGB (FP f))) : Prop :=
  ∀ c0, r0 = .ok c0 → ∃ c, r = .ok c ∧ c.xf_xyz_to_rgb = c0.xf_xyz_to_rgb ∧
    c.xf_rgb_to_xyz = c0.xf_rgb_to_xyz ∧ c.white = c0.white

theorem inverse_libm {f : Fmt} (L : Libm f) (m : Matrix33 (FP f)) :
    m.inverse = @Matrix33.inverse (FP f) _ _ _ _ _ (@instFltFPOfLibm f (noLibm f)) m := rfl

theorem build_libm {f : Fmt} (L : Libm f) (r g b w : XYY (FP f)) :
    buildXyzToRgbMatrix r g b w
      = @buildXyzToRgbMatrix (FP f) _ _ _ _ (@instFltFPOfLibm f (noLibm f)) r g b w := rfl

theorem new_same {f : Fmt} (L : Libm f) (r g b w : XYY (FP f)) (o e o' e' : RGBf (FP f) → RGBf (FP f)) :
    SameData (ColorSpaceRGB.new r g b w o e)
      (@ColorSpaceRGB.new (FP f) _ _ _ _ _ (@instFltFPOfLibm f (noLibm f)) r g b w o' e') := by
  intro c0 h0
  unfold ColorSpaceRGB.new at h0 ⊢
  dsimp only at h0 ⊢
  rw [← build_libm L, ← inverse_libm L] at h0
  cases hi : (buildXyzToRgbMatrix r g b w).inverse with
  | none => rw [hi] at h0; cases h0
  | some mi =>
    rw [hi] at h0
    cases h0
    exact ⟨_, rfl, rfl, rfl, rfl⟩

theorem published_same {f : Fmt} (r g b w : XYY (FP f)) (m mi : Matrix33 (FP f))
    (o e o' e' : RGBf (FP f) → RGBf (FP f)) :
    SameData (.ok (ColorSpaceRGB.newWithMatrices r g b w m mi o e))
      (.ok (ColorSpaceRGB.newWithMatrices r g b w m mi o' e')) := by
  intro c0 h0
  cases h0
  exact ⟨_, rfl, rfl, rfl, rfl⟩

end CS

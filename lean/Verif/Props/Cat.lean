import Verif.Lemmas.Cat
import Verif.Lemmas.FPOrder
import Verif.Num.KRefl

/-!
# xyY and chromatic adaptation (C14 - C18)
-/

namespace CS
open Spec

/-! ## C14 -/

/-- C14 [R]: xyY -> XYZ -> xyY is the identity for `y ≠ 0`, `Y ≠ 0`. -/
theorem C14_xyy_roundtrip (c : XYY ℝ) (hy : c.y ≠ 0) (hY : c.Y ≠ 0) :
    XYY.fromXyz (XYZ.fromChromaticity c) = c := by
  have hs : c.x * c.Y / c.y + c.Y + (1 - c.x - c.y) * c.Y / c.y = c.Y / c.y := by
    field_simp; ring
  have : XYY.fromXyz (XYZ.fromChromaticity c) =
      ⟨c.x * c.Y / c.y / (c.Y / c.y), c.Y / (c.Y / c.y), c.Y⟩ := by
    simp only [XYY.fromXyz, XYZ.fromChromaticity, XYZ.sdiv_x, XYZ.sdiv_y, XYZ.sdiv_z, XYZ.smul_x,
      XYZ.smul_y, XYZ.smul_z, flt_lit, Flt.one]
    push_cast
    rw [mul_div_cancel_right₀ _ (by norm_num : (100:ℝ) ≠ 0),
      mul_div_cancel_right₀ _ (by norm_num : (100:ℝ) ≠ 0),
      mul_div_cancel_right₀ _ (by norm_num : (100:ℝ) ≠ 0), hs]
  rw [this]
  ext <;> simp only <;> field_simp

/-- C14 [R]: XYZ -> xyY -> XYZ is the identity for `y ≠ 0`, `x + y + z ≠ 0`. -/
theorem C14_xyz_roundtrip (v : XYZ ℝ) (hy : v.y ≠ 0) (hs : v.x + v.y + v.z ≠ 0) :
    XYZ.fromChromaticity (XYY.fromXyz v) = v := by
  have hs' : v.x / 100 + v.y / 100 + v.z / 100 ≠ 0 := by
    intro e; apply hs; linarith
  simp only [XYY.fromXyz, XYZ.fromChromaticity, XYZ.sdiv_x, XYZ.sdiv_y, XYZ.sdiv_z, flt_lit,
    Flt.one]
  push_cast
  obtain ⟨s, hse⟩ : ∃ s, v.x / 100 + v.y / 100 + v.z / 100 = s := ⟨_, rfl⟩
  rw [hse] at hs' ⊢
  ext <;> simp only [XYZ.smul_x, XYZ.smul_y, XYZ.smul_z]
  · field_simp
  · ring
  · field_simp; linear_combination (-100) * hse

/-- C14 [G]: the luminance `Y` becomes XYZ `y = Y * 100`, so `Y = 1` is `y = 100`. -/
theorem C14_luminance {T : Type} [Add T] [Sub T] [Mul T] [Div T] [Neg T] [Flt T] (c : XYY T) :
    (XYZ.fromChromaticity c).y = c.Y * Flt.lit 100 := rfl

/-- C14 [R]: the three channels are X = 100 xY/y, Y = 100 Y, Z = 100 (1-x-y)Y/y. -/
theorem C14_formula (c : XYY ℝ) : XYZ.fromChromaticity c =
    ⟨100 * (c.x * c.Y / c.y), 100 * c.Y, 100 * ((1 - c.x - c.y) * c.Y / c.y)⟩ := by
  simp only [XYZ.fromChromaticity, flt_lit, Flt.one]
  push_cast
  ext <;> simp only [XYZ.smul_x, XYZ.smul_y, XYZ.smul_z] <;> ring

/-- C14 [R]: a chromaticity given by x and y alone has luminance 1: converted to XYZ it has `y = 100` and the
chromaticity it was made from. -/
theorem C14_xy (x y : ℝ) (hy : y ≠ 0) :
    (XYZ.fromChromaticity (XYY.xy x y)).y = 100 ∧ (XYZ.fromXy x y).y = 100 ∧
    XYY.fromXyz (XYZ.fromXy x y) = ⟨x, y, 1⟩ ∧ XYZ.fromXy x y = XYZ.fromChromaticity (XYY.xy x y) := by
  have e : XYZ.fromXy x y = XYZ.fromChromaticity (⟨x, y, 1⟩ : XYY ℝ) := by
    simp [XYZ.fromXy, Flt.one]
  have e' : (XYY.xy x y : XYY ℝ) = ⟨x, y, 1⟩ := by simp [XYY.xy, Flt.one]
  rw [e, e', C14_xyy_roundtrip ⟨x, y, 1⟩ hy one_ne_zero, C14_formula]
  norm_num

/-- Not vacuous: the D65 white. -/
example : ∃ c : XYY ℝ, c.y ≠ 0 ∧ c.Y ≠ 0 ∧ XYY.fromXyz (XYZ.fromChromaticity c) = c :=
  ⟨⟨0.3127, 0.3290, 1⟩, by norm_num, by norm_num,
    C14_xyy_roundtrip _ (by norm_num) (by norm_num)⟩
example : XYY.fromXyz (XYZ.fromXy 0.3127 0.3290) = (⟨0.3127, 0.3290, 1⟩ : XYY ℝ) :=
  (C14_xy _ _ (by norm_num)).2.2.1
example : ∃ v : XYZ ℝ, v.y ≠ 0 ∧ v.x + v.y + v.z ≠ 0 := ⟨⟨95, 100, 108⟩, by norm_num, by norm_num⟩

/-! ## C15 -/

/-- C15 [G]: whites whose XYZ compare equal give exactly the identity, in every arithmetic. -/
theorem C15_equal_whites {T : Type} [Add T] [Sub T] [Mul T] [Div T] [Neg T] [Flt T]
    (src dst : XYZ T)
    (h : Flt.eqb src.x dst.x = true ∧ Flt.eqb src.y dst.y = true ∧ Flt.eqb src.z dst.z = true) :
    cat02 src dst = .ok Matrix33.identity ∧ bradford src dst = .ok Matrix33.identity ∧
      vonKries src dst = Matrix33.identity := by
  have h' : XYZ.eqb src dst = true := by simp [XYZ.eqb, h]
  exact ⟨if_pos h', if_pos h', if_pos h'⟩

/-- C15 [F]: in particular for any white without NaN and itself. -/
theorem C15_same_white_ieee {f : Fmt} [Libm f] (w : XYZ (FP f))
    (hx : w.x.isNaN = false) (hy : w.y.isNaN = false) (hz : w.z.isNaN = false) :
    cat02 w w = .ok Matrix33.identity ∧ bradford w w = .ok Matrix33.identity ∧
      vonKries w w = Matrix33.identity := by
  have key : ∀ a : FP f, a.isNaN = false → Flt.eqb a a = true := by
    intro a ha
    show FP.eqb a a = true
    cases a <;> simp_all [FP.eqb, FP.ext, FP.isNaN]
  exact C15_equal_whites w w ⟨key _ hx, key _ hy, key _ hz⟩

/-- C15 [R]: over the reals the identity is returned for equal whites. -/
theorem C15_equal_whites_real (w : XYZ ℝ) : cat02 w w = .ok Matrix33.identity ∧
    bradford w w = .ok Matrix33.identity ∧ vonKries w w = Matrix33.identity :=
  C15_equal_whites w w (by simp)

/-! ## C16 -/

theorem catWith_white {MA MAi : Matrix33 ℝ} (h : GoodCone MA MAi) (src dst : XYZ ℝ)
    (hs : ConeNonzero MA src) : ∃ m, catWith MA src dst = .ok m ∧ m * src = dst := by
  refine ⟨_, catWith_eq h src dst hs, ?_⟩
  rw [m33_mul_mulX, m33_mul_mulX, wpScale_mulX hs.1 hs.2.1 hs.2.2, ← m33_mul_mulX,
    ((isInverse_iff _ _).1 h.inv).2, m33_one_mulX]

/-- C16 [R]: CAT02 sends the source white exactly to the destination white. -/
theorem C16_cat02_white (src dst : XYZ ℝ)
    (hL : 0.7328 * src.x + 0.4296 * src.y - 0.1624 * src.z ≠ 0)
    (hM : -0.7036 * src.x + 1.6975 * src.y + 0.0061 * src.z ≠ 0)
    (hS : 0.0030 * src.x + 0.0136 * src.y + 0.9834 * src.z ≠ 0) :
    ∃ m, cat02 src dst = .ok m ∧ m * src = dst := by
  obtain ⟨MAi, h⟩ := goodCone_cat02
  refine catWith_white h src dst ⟨?_, ?_, ?_⟩
  · convert hL using 1
    simp only [mulX_def, cat02M, flt_lit]; push_cast; ring
  · convert hM using 1
    simp only [mulX_def, cat02M, flt_lit]; push_cast; ring
  · convert hS using 1
    simp only [mulX_def, cat02M, flt_lit]; push_cast; ring

/-- C16 [R]: Bradford sends the source white exactly to the destination white. -/
theorem C16_bradford_white (src dst : XYZ ℝ)
    (hL : 0.8951 * src.x + 0.2664 * src.y - 0.1614 * src.z ≠ 0)
    (hM : -0.7502 * src.x + 1.7135 * src.y + 0.0367 * src.z ≠ 0)
    (hS : 0.0389 * src.x - 0.0685 * src.y + 1.0296 * src.z ≠ 0) :
    ∃ m, bradford src dst = .ok m ∧ m * src = dst := by
  obtain ⟨MAi, h⟩ := goodCone_bradford
  refine catWith_white h src dst ⟨?_, ?_, ?_⟩
  · convert hL using 1
    simp only [mulX_def, bradfordM, flt_lit]; push_cast; ring
  · convert hM using 1
    simp only [mulX_def, bradfordM, flt_lit]; push_cast; ring
  · convert hS using 1
    simp only [mulX_def, bradfordM, flt_lit]; push_cast; ring

/-- C16 [R]: Von Kries, which ships an inverse rounded to seven decimals, misses the destination
white by at most 4e-8 of the sum of its components. -/
theorem C16_vonKries_white (src dst : XYZ ℝ)
    (hL : 0.40024 * src.x + 0.7076 * src.y - 0.08081 * src.z ≠ 0)
    (hM : -0.2263 * src.x + 1.16532 * src.y + 0.0457 * src.z ≠ 0)
    (hS : 0.91822 * src.z ≠ 0) :
    |(vonKries src dst * src).x - dst.x| ≤ 4e-8 * (|dst.x| + |dst.y| + |dst.z|) ∧
    |(vonKries src dst * src).y - dst.y| ≤ 4e-8 * (|dst.x| + |dst.y| + |dst.z|) ∧
    |(vonKries src dst * src).z - dst.z| ≤ 4e-8 * (|dst.x| + |dst.y| + |dst.z|) := by
  have hbx := abs_nonneg dst.x
  have hby := abs_nonneg dst.y
  have hbz := abs_nonneg dst.z
  by_cases e : XYZ.eqb src dst = true
  · have hv : vonKries src dst = Matrix33.identity := if_pos e
    rw [hv, m33_one_mulX, (xyz_eqb_iff _ _).1 e]
    simp only [sub_self, abs_zero]
    refine ⟨?_, ?_, ?_⟩ <;> positivity
  · have hv : vonKries src dst = (vonKriesMInv : Matrix33 ℝ) *
        wpScale ((vonKriesM : Matrix33 ℝ) * src) ((vonKriesM : Matrix33 ℝ) * dst)
        * (vonKriesM : Matrix33 ℝ) := if_neg e
    rw [hv, m33_mul_mulX, m33_mul_mulX, wpScale_mulX (a := (vonKriesM : Matrix33 ℝ) * src)]
    rotate_left
    · convert hL using 1
      simp only [mulX_def, vonKriesM, flt_lit]; push_cast; ring
    · convert hM using 1
      simp only [mulX_def, vonKriesM, flt_lit]; push_cast; ring
    · convert hS using 1
      simp only [mulX_def, vonKriesM, flt_lit]; norm_num
    simp only [mulX_def, vonKriesM, vonKriesMInv, flt_lit]
    push_cast
    have a1 := le_abs_self dst.x; have a2 := neg_abs_le dst.x
    have b1 := le_abs_self dst.y; have b2 := neg_abs_le dst.y
    have c1 := le_abs_self dst.z; have c2 := neg_abs_le dst.z
    refine ⟨?_, ?_, ?_⟩ <;> rw [abs_le] <;> constructor <;> linarith

/-- Not vacuous: the D50 white meets all three sets of hypotheses. -/
example : ∃ s : XYZ ℝ, (0.7328 * s.x + 0.4296 * s.y - 0.1624 * s.z ≠ 0 ∧
    -0.7036 * s.x + 1.6975 * s.y + 0.0061 * s.z ≠ 0 ∧
    0.0030 * s.x + 0.0136 * s.y + 0.9834 * s.z ≠ 0) ∧
    (0.8951 * s.x + 0.2664 * s.y - 0.1614 * s.z ≠ 0 ∧
    -0.7502 * s.x + 1.7135 * s.y + 0.0367 * s.z ≠ 0 ∧
    0.0389 * s.x - 0.0685 * s.y + 1.0296 * s.z ≠ 0) ∧
    (0.40024 * s.x + 0.7076 * s.y - 0.08081 * s.z ≠ 0 ∧
    -0.2263 * s.x + 1.16532 * s.y + 0.0457 * s.z ≠ 0 ∧ 0.91822 * s.z ≠ 0) :=
  ⟨⟨96.42, 100, 82.51⟩, by norm_num, by norm_num, by norm_num⟩

/-! ## C17 -/

theorem catWith_trans {MA MAi : Matrix33 ℝ} (h : GoodCone MA MAi) (a b c : XYZ ℝ)
    (ha : ConeNonzero MA a) (hb : ConeNonzero MA b) :
    ∃ ab bc ac, catWith MA a b = .ok ab ∧ catWith MA b c = .ok bc ∧ catWith MA a c = .ok ac ∧
      bc * ab = ac := by
  refine ⟨_, _, _, catWith_eq h a b ha, catWith_eq h b c hb, catWith_eq h a c ha, ?_⟩
  have hi := ((isInverse_iff _ _).1 h.inv).1
  calc MAi * wpScale (MA * b) (MA * c) * MA * (MAi * wpScale (MA * a) (MA * b) * MA)
      = MAi * wpScale (MA * b) (MA * c) * (MA * MAi) * wpScale (MA * a) (MA * b) * MA := by
        simp only [m33_mul_assoc]
    _ = MAi * (wpScale (MA * b) (MA * c) * wpScale (MA * a) (MA * b)) * MA := by
        rw [hi, m33_mul_one, m33_mul_assoc MAi]
    _ = _ := by rw [wpScale_mul hb.1 hb.2.1 hb.2.2]

/-- the cone responses of CAT02 / Bradford to a white do not vanish -/
def Cat02NonDegenerate (s : XYZ ℝ) : Prop :=
  0.7328 * s.x + 0.4296 * s.y - 0.1624 * s.z ≠ 0 ∧
    -0.7036 * s.x + 1.6975 * s.y + 0.0061 * s.z ≠ 0 ∧
    0.0030 * s.x + 0.0136 * s.y + 0.9834 * s.z ≠ 0
def BradfordNonDegenerate (s : XYZ ℝ) : Prop :=
  0.8951 * s.x + 0.2664 * s.y - 0.1614 * s.z ≠ 0 ∧
    -0.7502 * s.x + 1.7135 * s.y + 0.0367 * s.z ≠ 0 ∧
    0.0389 * s.x - 0.0685 * s.y + 1.0296 * s.z ≠ 0

theorem cat02_cone {s : XYZ ℝ} : Cat02NonDegenerate s ↔ ConeNonzero cat02M s := by
  unfold Cat02NonDegenerate ConeNonzero
  simp only [mulX_def, cat02M, flt_lit]; push_cast
  rw [show (0.7328:ℝ) * s.x + 0.4296 * s.y - 0.1624 * s.z =
    0.7328 * s.x + 0.4296 * s.y + -0.1624 * s.z by ring]
theorem bradford_cone {s : XYZ ℝ} : BradfordNonDegenerate s ↔ ConeNonzero bradfordM s := by
  unfold BradfordNonDegenerate ConeNonzero
  simp only [mulX_def, bradfordM, flt_lit]; push_cast
  rw [show (0.8951:ℝ) * s.x + 0.2664 * s.y - 0.1614 * s.z =
    0.8951 * s.x + 0.2664 * s.y + -0.1614 * s.z by ring,
    show (0.0389:ℝ) * s.x - 0.0685 * s.y + 1.0296 * s.z =
    0.0389 * s.x + -0.0685 * s.y + 1.0296 * s.z by ring]
  norm_num

/-- C17 [R]: adapting a -> b -> c is adapting a -> c (CAT02). -/
theorem C17_cat02_transitive (a b c : XYZ ℝ) (ha : Cat02NonDegenerate a)
    (hb : Cat02NonDegenerate b) :
    ∃ ab bc ac, cat02 a b = .ok ab ∧ cat02 b c = .ok bc ∧ cat02 a c = .ok ac ∧ bc * ab = ac := by
  obtain ⟨MAi, h⟩ := goodCone_cat02
  exact catWith_trans h a b c (cat02_cone.1 ha) (cat02_cone.1 hb)

/-- C17 [R]: adapting a -> b -> c is adapting a -> c (Bradford). -/
theorem C17_bradford_transitive (a b c : XYZ ℝ) (ha : BradfordNonDegenerate a)
    (hb : BradfordNonDegenerate b) :
    ∃ ab bc ac, bradford a b = .ok ab ∧ bradford b c = .ok bc ∧ bradford a c = .ok ac ∧
      bc * ab = ac := by
  obtain ⟨MAi, h⟩ := goodCone_bradford
  exact catWith_trans h a b c (bradford_cone.1 ha) (bradford_cone.1 hb)

/-- C17 [R]: adapting there and back is the identity (CAT02). -/
theorem C17_cat02_inverse (a b : XYZ ℝ) (ha : Cat02NonDegenerate a) (hb : Cat02NonDegenerate b) :
    ∃ ab ba, cat02 a b = .ok ab ∧ cat02 b a = .ok ba ∧ ba * ab = Matrix33.identity := by
  obtain ⟨ab, ba, aa, h1, h2, h3, h4⟩ := C17_cat02_transitive a b a ha hb
  rw [(C15_equal_whites_real a).1] at h3
  cases h3
  exact ⟨ab, ba, h1, h2, h4⟩

/-- C17 [R]: adapting there and back is the identity (Bradford). -/
theorem C17_bradford_inverse (a b : XYZ ℝ) (ha : BradfordNonDegenerate a)
    (hb : BradfordNonDegenerate b) :
    ∃ ab ba, bradford a b = .ok ab ∧ bradford b a = .ok ba ∧ ba * ab = Matrix33.identity := by
  obtain ⟨ab, ba, aa, h1, h2, h3, h4⟩ := C17_bradford_transitive a b a ha hb
  rw [(C15_equal_whites_real a).2.1] at h3
  cases h3
  exact ⟨ab, ba, h1, h2, h4⟩

/-- Not vacuous: the D65 and D50 whites are non-degenerate for both. -/
example : Cat02NonDegenerate ⟨95.05, 100, 108.9⟩ ∧ Cat02NonDegenerate ⟨96.42, 100, 82.51⟩ ∧
    BradfordNonDegenerate ⟨95.05, 100, 108.9⟩ ∧ BradfordNonDegenerate ⟨96.42, 100, 82.51⟩ := by
  unfold Cat02NonDegenerate BradfordNonDegenerate; norm_num

/-! ## C18 -/

/-- C18 [F]: in binary32 and binary64, with all roundings, neither transform panics, whatever the
whites (including zero, infinite and NaN ones). -/
theorem C18_no_panic_ieee [Libm Fmt.b32] [Libm Fmt.b64] :
    (∀ a b : XYZ (FP Fmt.b32), (∃ m, cat02 a b = .ok m) ∧ ∃ m, bradford a b = .ok m) ∧
    (∀ a b : XYZ (FP Fmt.b64), (∃ m, cat02 a b = .ok m) ∧ ∃ m, bradford a b = .ok m) := by
  have h1 : (cat02M : Matrix33 (FP Fmt.b32)).inverse.isSome = true := by krefl
  have h2 : (bradfordM : Matrix33 (FP Fmt.b32)).inverse.isSome = true := by krefl
  have h3 : (cat02M : Matrix33 (FP Fmt.b64)).inverse.isSome = true := by krefl
  have h4 : (bradfordM : Matrix33 (FP Fmt.b64)).inverse.isSome = true := by krefl
  exact ⟨fun a b => ⟨catWith_ok h1 a b, catWith_ok h2 a b⟩,
    fun a b => ⟨catWith_ok h3 a b, catWith_ok h4 a b⟩⟩

/-- C18 [R]: the same in exact arithmetic. -/
theorem C18_no_panic_real (a b : XYZ ℝ) :
    (∃ m, cat02 a b = .ok m) ∧ ∃ m, bradford a b = .ok m := by
  obtain ⟨i1, h1⟩ := goodCone_cat02
  obtain ⟨i2, h2⟩ := goodCone_bradford
  exact ⟨catWith_ok (by rw [h1.eq]; rfl) a b, catWith_ok (by rw [h2.eq]; rfl) a b⟩

end CS

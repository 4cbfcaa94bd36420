import Verif.Props.Lab

/-!
# Colour differences and daylight colours against their published definitions (C78, C79)
-/

namespace CS

/-! ## The published definitions -/

namespace Spec
open Real

/-- The CIELAB companding in the form of CIE 15, with `δ = 6/29`. -/
noncomputable def labF (t : ℝ) : ℝ :=
  if (6 / 29) ^ 3 < t then t ^ ((1:ℝ) / 3) else t / (3 * (6 / 29) ^ 2) + 4 / 29

/-- chroma -/
noncomputable def chroma (a b : ℝ) : ℝ := √(a ^ 2 + b ^ 2)

/-- cosine of an angle in degrees -/
noncomputable def cosd (h : ℝ) : ℝ := Real.cos (h * π / 180)

/-- sine of an angle in degrees -/
noncomputable def sind (h : ℝ) : ℝ := Real.sin (h * π / 180)

/-- `h` is a polar angle, in degrees, of the point `(a, b)`; every angle is one of the origin. -/
def IsHue (a b h : ℝ) : Prop := a = chroma a b * cosd h ∧ b = chroma a b * sind h

/-- the representative in [0, 360) of an angle in degrees -/
noncomputable def wrap (h : ℝ) : ℝ := h - 360 * ⌊h / 360⌋

/-- The factor by which CIEDE2000 stretches `a`, for a mean chroma `C`. -/
noncomputable def stretch (C : ℝ) : ℝ := 1 + (1 - √(C ^ 7 / (C ^ 7 + 25 ^ 7))) / 2

/-- The CIEDE2000 difference of two colours given by lightness, modified chroma and hue, the two
hue angles being taken on the shorter arc. -/
noncomputable def ciede2000 (L₁ C₁ h₁ L₂ C₂ h₂ : ℝ) : ℝ :=
  let L := (L₁ + L₂) / 2
  let C := (C₁ + C₂) / 2
  let h := wrap ((h₁ + h₂) / 2)
  let ΔL := L₂ - L₁
  let ΔC := C₂ - C₁
  let ΔH := 2 * √(C₁ * C₂) * sind ((h₂ - h₁) / 2)
  let t := 1 - 0.17 * cosd (h - 30) + 0.24 * cosd (2 * h) + 0.32 * cosd (3 * h + 6)
    - 0.20 * cosd (4 * h - 63)
  let S_L := 1 + 0.015 * (L - 50) ^ 2 / √(20 + (L - 50) ^ 2)
  let S_C := 1 + 0.045 * C
  let S_H := 1 + 0.015 * C * t
  let Δθ := 30 * exp (-((h - 275) / 25) ^ 2)
  let R_T := -(2 * √(C ^ 7 / (C ^ 7 + 25 ^ 7))) * sind (2 * Δθ)
  √((ΔL / S_L) ^ 2 + (ΔC / S_C) ^ 2 + (ΔH / S_H) ^ 2 + R_T * (ΔC / S_C) * (ΔH / S_H))

end Spec

/-! ## C78 -/

/-- C78 [R]: `xyz_to_lab` is CIELAB as CIE 15 states it, with `δ = 6/29`. -/
theorem C78_cielab (v w : XYZ ℝ) :
    (xyzToLab v w).L = 116 * Spec.labF (v.y / w.y) - 16 ∧
    (xyzToLab v w).a = 500 * (Spec.labF (v.x / w.x) - Spec.labF (v.y / w.y)) ∧
    (xyzToLab v w).b = 200 * (Spec.labF (v.y / w.y) - Spec.labF (v.z / w.z)) := by
  have h : ∀ t : ℝ, labF t = Spec.labF t := by
    intro t
    rw [labF_eq, Spec.labF]
    norm_num only
    split
    · rfl
    · ring
  simp only [xyzToLab_eq, h, and_self]

theorem wrap_shift {x : ℝ} (h0 : 0 ≤ x) (h1 : x < 360) (k : ℤ) : Spec.wrap (x + 360 * k) = x := by
  unfold Spec.wrap
  have : ⌊(x + 360 * k) / 360⌋ = k := by
    rw [Int.floor_eq_iff]
    constructor
    · rw [le_div_iff₀ (by norm_num)]; linarith
    · rw [div_lt_iff₀ (by norm_num)]; linarith
  rw [this]; ring

theorem hypot_chroma (a b : ℝ) : (Flt.hypot a b : ℝ) = Spec.chroma a b := rfl

/-- two polar angles of a point other than the origin differ by full turns -/
theorem isHue_unique {a b h k : ℝ} (hne : Spec.chroma a b ≠ 0) (h1 : Spec.IsHue a b h)
    (h2 : Spec.IsHue a b k) : ∃ m : ℤ, h = k + 360 * m := by
  have hc : Real.cos (h * Real.pi / 180) = Real.cos (k * Real.pi / 180) :=
    mul_left_cancel₀ hne (h1.1.symm.trans h2.1)
  have hs : Real.sin (h * Real.pi / 180) = Real.sin (k * Real.pi / 180) :=
    mul_left_cancel₀ hne (h1.2.symm.trans h2.2)
  obtain ⟨m, hm⟩ := Real.Angle.angle_eq_iff_two_pi_dvd_sub.1 (Real.Angle.cos_sin_inj hc hs)
  refine ⟨m, ?_⟩
  have hpi := Real.pi_pos
  have : (h - k - 360 * m) * Real.pi = 0 := by linarith
  rcases mul_eq_zero.1 this with h | h
  · linarith
  · exact absurd h hpi.ne'

/-- the hue computed by the code is a polar angle -/
theorem isHue_hueDeg (a b : ℝ) : Spec.IsHue a b (hueDeg b a) := by
  obtain ⟨k, hk, e, -, -⟩ := hueDeg_spec b a
  have hpi := Real.pi_ne_zero
  have hn : Spec.chroma a b = ‖(⟨a, b⟩ : ℂ)‖ := by rw [← hypot_chroma, hypot_abs]
  have hcs : Real.cos (hueDeg b a * Real.pi / 180) = Real.cos (Complex.arg ⟨a, b⟩) ∧
      Real.sin (hueDeg b a * Real.pi / 180) = Real.sin (Complex.arg ⟨a, b⟩) := by
    rcases hk with rfl | rfl
    · have : hueDeg b a * Real.pi / 180 = Complex.arg ⟨a, b⟩ := by rw [e]; field_simp; ring
      rw [this]; exact ⟨rfl, rfl⟩
    · have : hueDeg b a * Real.pi / 180 = Complex.arg ⟨a, b⟩ + 2 * Real.pi := by
        rw [e]; field_simp; ring
      rw [this]; exact ⟨Real.cos_add_two_pi _, Real.sin_add_two_pi _⟩
  unfold Spec.IsHue Spec.cosd Spec.sind
  rw [hcs.1, hcs.2, hn]
  exact ⟨(Complex.norm_mul_cos_arg ⟨a, b⟩).symm, (Complex.norm_mul_sin_arg ⟨a, b⟩).symm⟩

/-- the two hue branches of the code: the difference and mean along the shorter arc -/
theorem hue_branches {p q h k h' k' : ℝ} (hpq : p * q ≠ 0) (hh : 0 ≤ h ∧ h < 360)
    (hk : 0 ≤ k ∧ k < 360) {m n : ℤ} (eh : h' = h + 360 * m) (ek : k' = k + 360 * n)
    (near : |k' - h'| < 180 ∨
      |k' - h'| = 180 ∧ (0 ≤ h' ∧ h' < 360) ∧ 0 ≤ k' ∧ k' < 360) :
    deltaHue p q h k = k' - h' ∧ meanHue p q h k = Spec.wrap ((h' + k') / 2) := by
  simp only [deltaHue, meanHue, Flt.gt, flt_lit, flt_lt, flt_le, flt_eqb, flt_abs,
    decide_eq_true_eq]
  norm_num only [Rat.cast_ofNat, Rat.cast_zero]
  rw [if_neg hpq, if_neg hpq, abs_sub_comm h k]
  have zero : ∀ j : ℤ, -1 < (j:ℝ) → (j:ℝ) < 1 → j = 0 := by
    intro j h1 h2
    have a1 : -1 < j := by exact_mod_cast h1
    have a2 : j < 1 := by exact_mod_cast h2
    omega
  have split3 : (|k - h| ≤ 180 ∧ n = m) ∨ (180 < k - h ∧ n = m - 1) ∨
      (k - h < -180 ∧ n = m + 1) := by
    rcases near with hn | ⟨hn, hh', hk'⟩
    · have hb := abs_lt.1 hn
      rw [eh, ek] at hb
      rcases le_or_gt (|k - h|) 180 with hs | hs
      · left
        refine ⟨hs, ?_⟩
        have hs := abs_le.1 hs
        have := zero (n - m) (by push_cast; linarith) (by push_cast; linarith)
        omega
      · right
        rcases lt_abs.1 hs with hs | hs
        · left
          refine ⟨hs, ?_⟩
          have := zero (n - m + 1) (by push_cast; linarith) (by push_cast; linarith)
          omega
        · right
          refine ⟨by linarith, ?_⟩
          have := zero (n - m - 1) (by push_cast; linarith) (by push_cast; linarith)
          omega
    · left
      have m0 : m = 0 := zero m (by linarith) (by linarith)
      have n0 : n = 0 := zero n (by linarith) (by linarith)
      subst m0 n0
      have e1 : k' - h' = k - h := by rw [eh, ek]; push_cast; ring
      rw [e1] at hn
      exact ⟨hn.le, rfl⟩
  rcases split3 with ⟨hs, rfl⟩ | ⟨hs, rfl⟩ | ⟨hs, rfl⟩
  · rw [if_pos hs, if_pos hs]
    refine ⟨by rw [eh, ek]; ring, ?_⟩
    rw [show (h' + k') / 2 = (h + k) / 2 + 360 * (n:ℤ) by rw [eh, ek]; ring]
    exact (wrap_shift (by linarith) (by linarith) n).symm
  · have ha : ¬ |k - h| ≤ 180 := fun h => by have := (abs_le.1 h).2; linarith
    rw [if_neg ha, if_neg ha, if_pos hs]
    refine ⟨by rw [eh, ek]; push_cast; ring, ?_⟩
    by_cases hsum : h + k < 360
    · rw [if_pos hsum]
      rw [show (h' + k') / 2 = (h + k + 360) / 2 + 360 * ((m - 1 : ℤ) : ℝ) by
        rw [eh, ek]; push_cast; ring]
      exact (wrap_shift (by linarith) (by linarith) _).symm
    · rw [if_neg hsum]
      rw [show (h' + k') / 2 = (h + k - 360) / 2 + 360 * (m : ℝ) by
        rw [eh, ek]; push_cast; ring]
      exact (wrap_shift (by linarith) (by linarith) _).symm
  · have ha : ¬ |k - h| ≤ 180 := fun h => by have := (abs_le.1 h).1; linarith
    have hb : ¬ 180 < k - h := by linarith
    rw [if_neg ha, if_neg ha, if_neg hb]
    refine ⟨by rw [eh, ek]; push_cast; ring, ?_⟩
    by_cases hsum : h + k < 360
    · rw [if_pos hsum]
      rw [show (h' + k') / 2 = (h + k + 360) / 2 + 360 * (m : ℝ) by
        rw [eh, ek]; push_cast; ring]
      exact (wrap_shift (by linarith) (by linarith) _).symm
    · rw [if_neg hsum]
      rw [show (h' + k') / 2 = (h + k - 360) / 2 + 360 * ((m + 1 : ℤ) : ℝ) by
        rw [eh, ek]; push_cast; ring]
      exact (wrap_shift (by linarith) (by linarith) _).symm

/-- the code's final expression is the published one, given the hue difference and mean -/
theorem radicand_published (L₁ C₁ h₁ L₂ C₂ h₂ hb dh : ℝ) (e1 : dh = h₂ - h₁)
    (e2 : hb = Spec.wrap ((h₁ + h₂) / 2)) :
    Real.sqrt (ciedeRadicand ⟨L₂ - L₁, C₂ - C₁,
        2 * Real.sqrt (C₁ * C₂) * Real.sin (Flt.toRad (dh / 2)), (L₁ + L₂) / 2,
        (C₁ + C₂) / 2, hb⟩)
      = Spec.ciede2000 L₁ C₁ h₁ L₂ C₂ h₂ := by
  have er : ∀ x : ℝ, Flt.toRad x = x * Real.pi / 180 := fun x => by
    change x * (Real.pi / 180) = _; ring
  rw [radicand_form]
  subst e1 e2
  simp only [Spec.ciede2000, ciedeSL, ciedeSC, ciedeSH, ciedeRT, ciedeT, sqr, flt_lit, flt_powi,
    flt_sqrt, flt_sin, flt_cos, flt_exp, er, Spec.sind, Spec.cosd]
  norm_num only [Rat.cast_ofNat, Rat.cast_div]
  congr 1
  simp only [sq]
  ring

/-- C78 [R]: `delta_E_2000` is the published CIEDE2000 difference. The hues may be any polar
angles of the two stretched colours that are less than half a turn apart (exactly opposite hues are
taken in [0, 360)); a neutral colour takes the hue of the other. -/
theorem C78_ciede2000 (c d : Lab ℝ) (s h₁ h₂ : ℝ)
    (hs : s = Spec.stretch ((Spec.chroma c.a c.b + Spec.chroma d.a d.b) / 2))
    (hc : Spec.IsHue (s * c.a) c.b h₁) (hd : Spec.IsHue (s * d.a) d.b h₂)
    (near : |h₂ - h₁| < 180 ∨ |h₂ - h₁| = 180 ∧ (0 ≤ h₁ ∧ h₁ < 360) ∧ 0 ≤ h₂ ∧ h₂ < 360)
    (neutral : c.a = 0 ∧ c.b = 0 ∨ d.a = 0 ∧ d.b = 0 → h₁ = h₂) :
    deltaE2000 c d = Spec.ciede2000 c.L (Spec.chroma (s * c.a) c.b) h₁
      d.L (Spec.chroma (s * d.a) d.b) h₂ := by
  have hG : ∀ x : ℝ, 1 + ciedeG x = Spec.stretch x := by
    intro x
    simp only [ciedeG, Spec.stretch, flt_lit, flt_powi, flt_sqrt]
    norm_num only [Rat.cast_ofNat, Rat.cast_div, Rat.cast_one]
    ring
  have hs0 : 0 < s := by
    rw [hs, Spec.stretch]
    set C := (Spec.chroma c.a c.b + Spec.chroma d.a d.b) / 2
    have hC : 0 ≤ C := by
      have h1 : 0 ≤ Spec.chroma c.a c.b := Real.sqrt_nonneg _
      have h2 : 0 ≤ Spec.chroma d.a d.b := Real.sqrt_nonneg _
      positivity
    have : √(C ^ 7 / (C ^ 7 + 25 ^ 7)) ≤ 1 := by
      rw [Real.sqrt_le_one, div_le_one (by positivity)]
      linarith [pow_nonneg hC 7]
    linarith
  have hz : ∀ a b : ℝ, Spec.chroma (s * a) b = 0 ↔ a = 0 ∧ b = 0 := by
    intro a b
    rw [← hypot_chroma, hypot_eq_zero, mul_eq_zero_iff_left hs0.ne']
  have key : ciede c d =
      { dL := d.L - c.L, dC := Spec.chroma (s * d.a) d.b - Spec.chroma (s * c.a) c.b,
        Lbar := (c.L + d.L) / 2,
        cbar := (Spec.chroma (s * c.a) c.b + Spec.chroma (s * d.a) d.b) / 2,
        hbar := meanHue (Spec.chroma (s * c.a) c.b) (Spec.chroma (s * d.a) d.b)
          (hueDeg c.b (s * c.a)) (hueDeg d.b (s * d.a)),
        dH := 2 * Real.sqrt (Spec.chroma (s * c.a) c.b * Spec.chroma (s * d.a) d.b) *
          Real.sin (Flt.toRad (deltaHue (Spec.chroma (s * c.a) c.b) (Spec.chroma (s * d.a) d.b)
          (hueDeg c.b (s * c.a)) (hueDeg d.b (s * d.a)) / 2)) } := by
    have l1 : ((1.0:ℚ):ℝ) = 1 := by norm_num
    have l2 : ((2.0:ℚ):ℝ) = 2 := by norm_num
    simp only [ciede, flt_lit, flt_sqrt, flt_sin, hypot_chroma, l1, l2, hG, ← hs]
  unfold deltaE2000
  rw [flt_sqrt, key]
  set p := Spec.chroma (s * c.a) c.b with hp
  set q := Spec.chroma (s * d.a) d.b with hq
  by_cases hpq : p * q = 0
  · -- a neutral colour
    have hn : c.a = 0 ∧ c.b = 0 ∨ d.a = 0 ∧ d.b = 0 := by
      rcases mul_eq_zero.1 hpq with h | h
      · exact Or.inl ((hz _ _).1 h)
      · exact Or.inr ((hz _ _).1 h)
    have e12 := neutral hn
    have hdh : deltaHue p q (hueDeg c.b (s * c.a)) (hueDeg d.b (s * d.a)) = 0 := by
      simp only [deltaHue, flt_lit, flt_eqb, decide_eq_true_eq]
      norm_num only [Rat.cast_zero]
      rw [if_pos hpq]
    have hmh : meanHue p q (hueDeg c.b (s * c.a)) (hueDeg d.b (s * d.a))
        = hueDeg c.b (s * c.a) + hueDeg d.b (s * d.a) := by
      simp only [meanHue, flt_lit, flt_eqb, decide_eq_true_eq]
      norm_num only [Rat.cast_zero]
      rw [if_pos hpq]
    have h00 : hueDeg (0:ℝ) 0 = 0 := by
      obtain ⟨k, hk, e, -, h1⟩ := hueDeg_spec 0 0
      have ez : Complex.arg ⟨0, 0⟩ = 0 := Complex.arg_zero
      rw [ez, zero_mul, zero_add] at e
      rcases hk with rfl | rfl
      · exact e
      · have := (h1 rfl).2; linarith
    rw [hdh, hmh]
    by_cases hbar : p + q = 0
    · -- both neutral: the hue has no influence
      have hp0 : 0 ≤ p := Real.sqrt_nonneg _
      have hq0 : 0 ≤ q := Real.sqrt_nonneg _
      have p0 : p = 0 := by linarith
      have q0 : q = 0 := by linarith
      rw [p0, q0, radicand_form]
      simp only [Spec.ciede2000, ciedeSL, flt_lit, flt_powi, flt_sqrt]
      norm_num
    · refine radicand_published _ _ _ _ _ _ _ _ (by rw [e12]; ring) ?_
      rw [e12, add_self_div_two]
      rcases hn with ⟨ha, hb⟩ | ⟨ha, hb⟩
      · have p0 : p = 0 := (hz _ _).2 ⟨ha, hb⟩
        have q0 : q ≠ 0 := fun h => hbar (by rw [p0, h, add_zero])
        obtain ⟨m, hm⟩ := isHue_unique q0 hd (isHue_hueDeg (s * d.a) d.b)
        rw [ha, hb, mul_zero, h00, zero_add, hm]
        exact (wrap_shift (hueDeg_range _ _).1 (hueDeg_range _ _).2 m).symm
      · have q0 : q = 0 := (hz _ _).2 ⟨ha, hb⟩
        have p0 : p ≠ 0 := fun h => hbar (by rw [q0, h, add_zero])
        rw [e12] at hc
        obtain ⟨m, hm⟩ := isHue_unique p0 hc (isHue_hueDeg (s * c.a) c.b)
        rw [ha, hb, mul_zero, h00, add_zero, hm]
        exact (wrap_shift (hueDeg_range _ _).1 (hueDeg_range _ _).2 m).symm
  · obtain ⟨m, hm⟩ := isHue_unique (left_ne_zero_of_mul hpq) hc (isHue_hueDeg (s * c.a) c.b)
    obtain ⟨n, hn⟩ := isHue_unique (right_ne_zero_of_mul hpq) hd (isHue_hueDeg (s * d.a) d.b)
    obtain ⟨b1, b2⟩ := hue_branches hpq (hueDeg_range c.b (s * c.a)) (hueDeg_range d.b (s * d.a))
      hm hn near
    exact radicand_published _ _ _ _ _ _ _ _ b1 b2

/-- C78 [R]: hues as `C78_ciede2000` requires exist for every pair of colours. -/
theorem C78_hues_exist (c d : Lab ℝ) (s : ℝ) :
    ∃ h₁ h₂, Spec.IsHue (s * c.a) c.b h₁ ∧ Spec.IsHue (s * d.a) d.b h₂ ∧
    (|h₂ - h₁| < 180 ∨ |h₂ - h₁| = 180 ∧ (0 ≤ h₁ ∧ h₁ < 360) ∧ 0 ≤ h₂ ∧ h₂ < 360) ∧
    (c.a = 0 ∧ c.b = 0 ∨ d.a = 0 ∧ d.b = 0 → h₁ = h₂) := by
  have origin : ∀ h, Spec.IsHue (s * 0) 0 h := by
    intro h
    have : Spec.chroma (s * 0) 0 = 0 := by simp [Spec.chroma]
    unfold Spec.IsHue
    rw [this]; simp
  have turn : ∀ {a b h : ℝ}, Spec.IsHue a b h → Spec.IsHue a b (h + 360) := by
    intro a b h hh
    unfold Spec.IsHue Spec.cosd Spec.sind at *
    have e : (h + 360) * Real.pi / 180 = h * Real.pi / 180 + 2 * Real.pi := by ring
    rw [e, Real.cos_add_two_pi, Real.sin_add_two_pi]
    exact hh
  have h1 := isHue_hueDeg (s * c.a) c.b
  have h2 := isHue_hueDeg (s * d.a) d.b
  by_cases hc : c.a = 0 ∧ c.b = 0
  · refine ⟨hueDeg d.b (s * d.a), hueDeg d.b (s * d.a), ?_, h2, Or.inl (by norm_num), fun _ => rfl⟩
    rw [hc.1, hc.2]; exact origin _
  by_cases hd : d.a = 0 ∧ d.b = 0
  · refine ⟨hueDeg c.b (s * c.a), hueDeg c.b (s * c.a), h1, ?_, Or.inl (by norm_num), fun _ => rfl⟩
    rw [hd.1, hd.2]; exact origin _
  have r1 := hueDeg_range c.b (s * c.a)
  have r2 := hueDeg_range d.b (s * d.a)
  have no : c.a = 0 ∧ c.b = 0 ∨ d.a = 0 ∧ d.b = 0 → ∀ x y : ℝ, x = y :=
    fun h => absurd h (not_or.2 ⟨hc, hd⟩)
  rcases lt_trichotomy (|hueDeg d.b (s * d.a) - hueDeg c.b (s * c.a)|) 180 with h | h | h
  · exact ⟨_, _, h1, h2, Or.inl h, fun hn => no hn _ _⟩
  · exact ⟨_, _, h1, h2, Or.inr ⟨h, r1, r2⟩, fun hn => no hn _ _⟩
  · rcases lt_abs.1 h with h | h
    · exact ⟨_, _, turn h1, h2, Or.inl (abs_lt.2 ⟨by linarith, by linarith⟩), fun hn => no hn _ _⟩
    · exact ⟨_, _, h1, turn h2, Or.inl (abs_lt.2 ⟨by linarith, by linarith⟩), fun hn => no hn _ _⟩

/-- Not vacuous: a red and a yellow colour a quarter turn apart. -/
example (s : ℝ) (hs : 0 < s) : Spec.IsHue (s * 3) 0 0 ∧ Spec.IsHue (s * 0) 4 90 ∧
    |(90:ℝ) - 0| < 180 := by
  refine ⟨?_, ?_, by norm_num⟩
  · have : Spec.chroma (s * 3) 0 = s * 3 := by
      unfold Spec.chroma; rw [zero_pow two_ne_zero, add_zero]; exact Real.sqrt_sq (by positivity)
    unfold Spec.IsHue Spec.cosd Spec.sind
    rw [this]; simp
  · have : Spec.chroma (s * 0) 4 = 4 := by
      unfold Spec.chroma; rw [show (s * 0) ^ 2 + (4:ℝ) ^ 2 = 4 ^ 2 by ring]
      exact Real.sqrt_sq (by norm_num)
    unfold Spec.IsHue Spec.cosd Spec.sind
    rw [this, show (90:ℝ) * Real.pi / 180 = Real.pi / 2 by ring]; simp

/-- C78 [R]: for two neutral colours `delta_E_2000` is the lightness difference divided by its
weight. -/
theorem C78_neutral (L₁ L₂ : ℝ) : deltaE2000 (⟨L₁, 0, 0⟩ : Lab ℝ) ⟨L₂, 0, 0⟩ =
    |L₂ - L₁| / (1 + 0.015 * ((L₁ + L₂) / 2 - 50) ^ 2 / √(20 + ((L₁ + L₂) / 2 - 50) ^ 2)) := by
  obtain ⟨h₁, h₂, a1, a2, a3, a4⟩ := C78_hues_exist ⟨L₁, 0, 0⟩ ⟨L₂, 0, 0⟩ _
  rw [C78_ciede2000 _ _ _ h₁ h₂ rfl a1 a2 a3 a4]
  have hpos : 0 < 1 + 0.015 * ((L₁ + L₂) / 2 - 50) ^ 2 / √(20 + ((L₁ + L₂) / 2 - 50) ^ 2) := by
    positivity
  simp only [Spec.ciede2000, mul_zero]
  have : Spec.chroma 0 0 = 0 := by simp [Spec.chroma]
  rw [this]
  simp only [mul_zero, add_zero, zero_div, sub_zero, Real.sqrt_zero, zero_mul]
  rw [show ((L₂ - L₁) / (1 + 0.015 * ((L₁ + L₂) / 2 - 50) ^ 2 /
      √(20 + ((L₁ + L₂) / 2 - 50) ^ 2))) ^ 2 + 0 ^ 2 + 0 ^ 2
    = ((L₂ - L₁) / (1 + 0.015 * ((L₁ + L₂) / 2 - 50) ^ 2 /
      √(20 + ((L₁ + L₂) / 2 - 50) ^ 2))) ^ 2 by ring, Real.sqrt_sq_eq_abs, abs_div, abs_of_pos hpos]

/-! ## C79 -/

/-- CIE 15 daylight `x` chromaticity for a correlated colour temperature. -/
noncomputable def Spec.daylightX (t : ℝ) : ℝ :=
  if t ≤ 7000 then 0.244063 + 0.09911 * (10 ^ 3 / t) + 2.9678 * (10 ^ 6 / t ^ 2) - 4.6070 * (10 ^ 9 / t ^ 3)
  else 0.237040 + 0.24748 * (10 ^ 3 / t) + 1.9018 * (10 ^ 6 / t ^ 2) - 2.0064 * (10 ^ 9 / t ^ 3)

/-- C79 [R]: inside the documented range `cct` returns the CIE daylight chromaticity. -/
theorem C79_daylight (t : ℝ) (h0 : 4000 ≤ t) (h1 : t ≤ 25000) :
    ∃ p, cct t = some p ∧ p.x = Spec.daylightX t := by
  have ht : t ≠ 0 := by linarith
  have hb : ¬ (t < 4000 ∨ 25000 < t) := by push Not; exact ⟨h0, h1⟩
  simp only [cct, Flt.gt, flt_lit, flt_lt, flt_le, Bool.or_eq_true, decide_eq_true_eq]
  norm_num only [Rat.cast_ofNat, Rat.cast_div, Rat.cast_one]
  rw [if_neg hb]
  unfold Spec.daylightX
  by_cases h7 : t ≤ 7000
  · rw [if_pos h7, if_pos h7]
    refine ⟨_, rfl, ?_⟩
    field_simp
    ring
  · rw [if_neg h7, if_neg h7]
    refine ⟨_, rfl, ?_⟩
    field_simp
    ring

/-- a cubic in the reciprocal temperature decreases with temperature -/
theorem recip_cubic_lt {a b c d s t t0 : ℝ} (ht0 : 0 < t0) (ha : 0 ≤ a) (hb : 0 ≤ b)
    (hc : 0 < c) (hab : 3 * a ≤ 2 * b * t0) (h0 : t0 ≤ s) (hst : s < t) :
    d + c * (1 / t) + b * (1 / t) ^ 2 - a * (1 / t) ^ 3
      < d + c * (1 / s) + b * (1 / s) ^ 2 - a * (1 / s) ^ 3 := by
  have hs : 0 < s := lt_of_lt_of_le ht0 h0
  have ht : 0 < t := hs.trans hst
  have huv : 1 / t < 1 / s := one_div_lt_one_div_of_lt hs hst
  have hu : 0 < 1 / t := by positivity
  have hv : 1 / s ≤ 1 / t0 := one_div_le_one_div_of_le ht0 h0
  set u := 1 / t
  set v := 1 / s
  have hw : 3 * a * v ≤ 2 * b := by
    have : 3 * a * v ≤ 3 * a * (1 / t0) := by gcongr
    have e : 3 * a * (1 / t0) ≤ 2 * b := by
      rw [mul_one_div, div_le_iff₀ ht0]; exact hab
    linarith
  have hmain : 0 < (v - u) * (c + (b * (u + v) - a * (u ^ 2 + u * v + v ^ 2))) := by
    apply mul_pos (by linarith)
    have h1 : a * (u ^ 2 + u * v + v ^ 2) ≤ b * (u + v) := by
      have e1 : a * v * (u + v) ≤ 2 / 3 * b * (u + v) := by
        have : 0 ≤ u + v := by linarith
        nlinarith
      have e2 : a * u ^ 2 ≤ a * v * u := by
        have := mul_nonneg (mul_nonneg ha hu.le) (sub_nonneg.2 huv.le)
        nlinarith
      have e3 : a * v * u ≤ 2 / 3 * b * u := by nlinarith
      have e4 : 2 / 3 * b * u ≤ 1 / 3 * b * (u + v) := by nlinarith
      nlinarith
    linarith
  nlinarith

/-- C79 [R]: a hotter daylight is bluer: over the whole documented range, across the change of
formula at 7000 K, a higher temperature gives a strictly smaller x. -/
theorem C79_hotter_is_bluer (s t : ℝ) (h0 : 4000 ≤ s) (hst : s < t) (h1 : t ≤ 25000)
    (p q : XYY ℝ) (hp : cct s = some p) (hq : cct t = some q) : q.x < p.x := by
  obtain ⟨p', hp', ep⟩ := C79_daylight s h0 (by linarith)
  obtain ⟨q', hq', eq⟩ := C79_daylight t (by linarith) h1
  cases hp.symm.trans hp'
  cases hq.symm.trans hq'
  have low : ∀ x, Spec.daylightX x = if x ≤ 7000 then
      0.244063 + 0.09911 * 10 ^ 3 * (1 / x) + 2.9678 * 10 ^ 6 * (1 / x) ^ 2
        - 4.6070 * 10 ^ 9 * (1 / x) ^ 3
      else 0.237040 + 0.24748 * 10 ^ 3 * (1 / x) + 1.9018 * 10 ^ 6 * (1 / x) ^ 2
        - 2.0064 * 10 ^ 9 * (1 / x) ^ 3 := by
    intro x
    unfold Spec.daylightX
    split <;> · rw [one_div, div_eq_mul_inv, div_eq_mul_inv, div_eq_mul_inv, inv_pow, inv_pow]; ring
  rw [ep, eq, low, low]
  by_cases hs : s ≤ 7000
  · rw [if_pos hs]
    by_cases ht : t ≤ 7000
    · rw [if_pos ht]
      exact recip_cubic_lt (t0 := 4000) (by norm_num) (by norm_num) (by norm_num) (by norm_num)
        (by norm_num) h0 hst
    · rw [if_neg ht]
      push Not at ht
      have a1 := recip_cubic_lt (a := 2.0064 * 10 ^ 9) (b := 1.9018 * 10 ^ 6)
        (c := 0.24748 * 10 ^ 3) (d := 0.237040) (s := 7000) (t := t) (t0 := 7000) (by norm_num)
        (by norm_num) (by norm_num) (by norm_num) (by norm_num) le_rfl ht
      have a2 : (0.237040 + 0.24748 * 10 ^ 3 * (1 / 7000) + 1.9018 * 10 ^ 6 * (1 / 7000) ^ 2
          - 2.0064 * 10 ^ 9 * (1 / 7000) ^ 3 : ℝ) <
          0.244063 + 0.09911 * 10 ^ 3 * (1 / 7000) + 2.9678 * 10 ^ 6 * (1 / 7000) ^ 2
          - 4.6070 * 10 ^ 9 * (1 / 7000) ^ 3 := by norm_num
      rcases hs.lt_or_eq with hs' | rfl
      · have a3 := recip_cubic_lt (a := 4.6070 * 10 ^ 9) (b := 2.9678 * 10 ^ 6)
          (c := 0.09911 * 10 ^ 3) (d := 0.244063) (s := s) (t := 7000) (t0 := 4000) (by norm_num)
          (by norm_num) (by norm_num) (by norm_num) (by norm_num) h0 hs'
        exact a1.trans (a2.trans a3)
      · exact a1.trans a2
  · rw [if_neg hs, if_neg (by linarith)]
    push Not at hs
    exact recip_cubic_lt (t0 := 7000) (by norm_num) (by norm_num) (by norm_num) (by norm_num)
      (by norm_num) hs.le hst

/-- Not vacuous: 5000 K and 20000 K, on either side of the change of formula. -/
example : ∃ p q : XYY ℝ, cct (5000:ℝ) = some p ∧ cct (20000:ℝ) = some q ∧ q.x < p.x := by
  obtain ⟨p, hp, -⟩ := C79_daylight 5000 (by norm_num) (by norm_num)
  obtain ⟨q, hq, -⟩ := C79_daylight 20000 (by norm_num) (by norm_num)
  exact ⟨p, q, hp, hq, C79_hotter_is_bluer _ _ (by norm_num) (by norm_num) (by norm_num) p q hp hq⟩

end CS

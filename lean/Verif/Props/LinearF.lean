import Verif.Props.Image
import Verif.Lemmas.FPLinear
import Verif.Lemmas.FPLogCLin

/-!
# C97: encoding linear light and decoding it again, in floating point
-/

namespace CS

/-! ### specification -/

/-- every component is finite and in `[0,1]`, and is zero or not below `2^-17` -/
def Spec.LinearLight {f : Fmt} (c : RGBf (FP f)) : Prop :=
  ∀ i, (rgbVec c i).isFinite = true ∧ ((rgbVec c i).val = 0 ∨ 1 / 2 ^ 17 ≤ (rgbVec c i).val) ∧
    (rgbVec c i).val ≤ 1

/-- every component of `c'` is finite and within `δ` of that of `c` -/
def Spec.Returned {f : Fmt} (δ : ℝ) (c' c : RGBf (FP f)) : Prop :=
  ∀ i, (rgbVec c' i).isFinite = true ∧ |((rgbVec c' i).val : ℝ) - (rgbVec c i).val| ≤ δ

/-- the shipped spaces and how closely they return linear light -/
noncomputable def Spec.linearTolerance (f : Fmt) [Libm f] : List (Res (ColorSpaceRGB (FP f)) × ℝ) :=
  let l := FP.ofQ f false
  [(.ok (Shipped.srgb l), 75 * f.u + 6e-9), (Shipped.srgbDrv l, 75 * f.u + 6e-9),
   (Shipped.bt709 l, 75 * f.u), (Shipped.bt2020 l, 75 * f.u),
   (.ok (Shipped.adobeRgb1998 l), 63 * f.u), (Shipped.dciP3 l, 63 * f.u), (Shipped.dciP3D65 l, 63 * f.u),
   (.ok (Shipped.aces l), 0), (Shipped.acesCg l, 0), (.ok (Shipped.alexaWideGamut l), 2.2e-5)]

/-! ### seams, by evaluation -/

theorem lseam32 : ((FP.lit 0.0031308 : FP Fmt.b32) * FP.lit 12.92).val ≤ (FP.lit 0.040449936 : FP Fmt.b32).val :=
  of_decide_eq_true (by krefl)
theorem lseam64 : ((FP.lit 0.0031308 : FP Fmt.b64) * FP.lit 12.92).val ≤ (FP.lit 0.040449936 : FP Fmt.b64).val :=
  of_decide_eq_true (by krefl)
theorem four_half32 : (FP.lit 4.5 : FP Fmt.b32).val = 9 / 2 := of_decide_eq_true (by krefl)
theorem four_half64 : (FP.lit 4.5 : FP Fmt.b64).val = 9 / 2 := of_decide_eq_true (by krefl)

/-! ### curves -/

section
variable {f : Fmt} [Libm f]

theorem gamma_linear_all (hf : Std f) (hp : PowAccurate f) {g : ℚ} (hg1 : 2 ≤ g) (hg2 : g ≤ 27 / 10)
    {y : FP f} (hy : y.isFinite = true) (h : y.val = 0 ∨ 1 / 2 ^ 17 ≤ y.val) (h1 : y.val ≤ 1) :
    (Flt.powf (Flt.powf y (FP.ofQ f false 1.0 / FP.ofQ f false g)) (FP.ofQ f false g)).isFinite = true ∧
    |((Flt.powf (Flt.powf y (FP.ofQ f false 1.0 / FP.ofQ f false g)) (FP.ofQ f false g)).val : ℝ)
      - y.val| ≤ 63 * f.u := by
  obtain ⟨u1, u2, _⟩ := u_tiny hf
  rcases h with h | h
  · have g1 : (2:ℝ) ≤ g := by exact_mod_cast hg1
    have g2 : (g:ℝ) ≤ 27 / 10 := by qcast hg2
    have hgi : (1:ℝ) / g ≤ 1 / 2 := one_div_le_one_div_of_le (by norm_num) g1
    have hgi2 : (10:ℝ) / 27 ≤ 1 / g := by
      rw [le_div_iff₀ (by linarith)]; linarith
    have a0 := RelF.ofQ hf (q := g) (le_trans (by norm_num) hg1) (le_trans hg2 (by norm_num))
    have a2 := (RelF.ofQ_one (f := f)).div hf a0
      (by norm_num) (by norm_num) (by norm_num) (le_trans (by norm_num) hgi2) (le_trans hgi (by norm_num))
    obtain ⟨z1, z2⟩ := hp.zero y _ hy a2.fin h (by exact_mod_cast a2.err.xpos)
    obtain ⟨z3, z4⟩ := hp.zero _ _ z1 a0.fin z2 (by exact_mod_cast a0.err.xpos)
    refine ⟨z3, ?_⟩
    rw [z4, h]
    norm_num
    exact_mod_cast u2.le
  · obtain ⟨a, b⟩ := gamma_linear hf hp hg1 hg2 hy h h1
    refine ⟨a, b.trans ?_⟩
    have h1r : (y.val : ℝ) ≤ 1 := by exact_mod_cast h1
    calc 63 * (f.u : ℝ) * y.val ≤ 63 * f.u * 1 := mul_le_mul_of_nonneg_left h1r (by positivity)
      _ = _ := by ring

/-- the component curves -/
theorem within_of {f : Fmt} {δ : ℝ} {c : RGBf (FP f)} (hc : Spec.LinearLight c) (enc dec : FP f → FP f)
    (h : ∀ x : FP f, x.isFinite = true → 0 ≤ x.val → (x.val = 0 ∨ 1 / 2 ^ 17 ≤ x.val) → x.val ≤ 1 →
      (dec (enc x)).isFinite = true ∧ |((dec (enc x)).val : ℝ) - x.val| ≤ δ) :
    Spec.Returned δ ((c.mapc enc).mapc dec) c := by
  intro i
  obtain ⟨a, b, d⟩ := hc i
  have := h _ a (by rcases b with b | b; exacts [b.ge, le_trans (by positivity) b]) b d
  fin_cases i <;> exact this

end

/-! ## C97 -/

/-- C97 [F]: encoding a colour with components in `[0,1]` and decoding it gives it back, in f32 and f64:
within 75 roundings for BT.709 and BT.2020, within 75 roundings and 6e-9 (the step between the two branches
of the curve) for sRGB, and for LogC, with components up to 50, within 2e-5 of the component plus a tenth. -/
theorem C97_curves {f : Fmt} (hb : f = Fmt.b32 ∨ f = Fmt.b64) [Libm f] (hp : PowAccurate f)
    (hl : LogAccurate f) (c : RGBf (FP f)) (hc : ∀ i, (rgbVec c i).isFinite = true ∧ 0 ≤ (rgbVec c i).val) :
    ((∀ i, (rgbVec c i).val ≤ 1) →
      Spec.Returned (75 * f.u + 6e-9) (decode.srgb (encode.srgb c)) c ∧
      Spec.Returned (75 * f.u) (decode.bt709 (encode.bt709 c)) c ∧
      Spec.Returned (75 * f.u) (decode.bt2020 (encode.bt2020 c)) c ∧
      decode.linear (encode.linear c) = c) ∧
    ((∀ i, (rgbVec c i).val ≤ 50) → ∀ i,
      (rgbVec (decode.alexa_logc_v3 (encode.alexa_logc_v3 c)) i).isFinite = true ∧
      |((rgbVec (decode.alexa_logc_v3 (encode.alexa_logc_v3 c)) i).val : ℝ) - (rgbVec c i).val| ≤
        2e-5 * ((rgbVec c i).val + 0.1)) := by
  have hf : Std f := by rcases hb with rfl | rfl; exacts [std_b32, std_b64]
  have hs : ((FP.lit 0.0031308 : FP f) * FP.lit 12.92).val ≤ (FP.lit 0.040449936 : FP f).val := by
    rcases hb with rfl | rfl; exacts [lseam32, lseam64]
  have h45 : (FP.lit 4.5 : FP f).val = 9 / 2 := by
    rcases hb with rfl | rfl; exacts [four_half32, four_half64]
  refine ⟨fun h1 => ⟨fun i => ?_, fun i => ?_, fun i => ?_, rfl⟩, fun h1 i => ?_⟩
  · have := srgb_linear hf hp hs (hc i).1 (hc i).2 (h1 i)
    have e : (6:ℝ) / 10 ^ 9 = 6e-9 := by norm_num
    rw [e] at this
    fin_cases i <;> exact this
  · have := bt709_linear hf hp (hc i).1 (hc i).2 (h1 i)
    have := And.intro this.fin this.err
    fin_cases i <;> exact this
  · have := bt2020_linear hf hp h45 (hc i).1 (hc i).2 (h1 i)
    have := And.intro this.fin this.err
    fin_cases i <;> exact this
  · have := logc_linear hf hp hl (hc i).1 (hc i).2 (h1 i)
    rw [show (2:ℝ) / 10 ^ 5 = 2e-5 by norm_num, show (1:ℝ) / 10 = 0.1 by norm_num] at this
    fin_cases i <;> exact this

/-- C97 [F]: each shipped space exists and returns linear light to within its tolerance, in f32 and f64. -/
theorem C97_spaces {f : Fmt} (hb : f = Fmt.b32 ∨ f = Fmt.b64) [Libm f] (hp : PowAccurate f)
    (hl : LogAccurate f) : ∀ e ∈ Spec.linearTolerance f, ∃ cs, e.1 = .ok cs ∧
      ∀ c, Spec.LinearLight c → Spec.Returned e.2 (cs.decode (cs.encode c)) c := by
  have hf : Std f := by rcases hb with rfl | rfl; exacts [std_b32, std_b64]
  have nn : ∀ {c : RGBf (FP f)}, Spec.LinearLight c → ∀ i, (rgbVec c i).isFinite = true ∧ 0 ≤ (rgbVec c i).val :=
    fun hc i => ⟨(hc i).1, by rcases (hc i).2.1 with b | b; exacts [b.ge, le_trans (by positivity) b]⟩
  have ex : ∀ r, r ∈ Spec.gapless f ∨ r ∈ Spec.gapped f → ∃ cs, r = .ok cs := by
    rcases hb with rfl | rfl
    exacts [fun r => exists32, fun r => exists64]
  have gm : ∀ (g : ℚ) (cs : ColorSpaceRGB (FP f)), 2 ≤ g → g ≤ 27 / 10 →
      cs.oetf = (fun c => c.powf (FP.ofQ f false 1.0 / FP.ofQ f false g)) →
      cs.eotf = (fun c => c.powf (FP.ofQ f false g)) → ∀ c, Spec.LinearLight c →
      Spec.Returned (63 * f.u) (cs.decode (cs.encode c)) c := by
    intro g cs g1 g2 h1 h2 c hc
    unfold ColorSpaceRGB.encode ColorSpaceRGB.decode
    rw [h1, h2]
    exact within_of hc (fun x => Flt.powf x (FP.ofQ f false 1.0 / FP.ofQ f false g))
      (fun y => Flt.powf y (FP.ofQ f false g)) fun x hx _ h h1 => gamma_linear_all hf hp g1 g2 hx h h1
  intro e he
  simp only [Spec.linearTolerance, List.mem_cons, List.not_mem_nil, or_false] at he
  rcases he with rfl | rfl | rfl | rfl | rfl | rfl | rfl | rfl | rfl | rfl
  · exact ⟨_, rfl, fun c hc => ((C97_curves hb hp hl c (nn hc)).1 fun i => (hc i).2.2).1⟩
  · obtain ⟨cs, e⟩ := ex (Shipped.srgbDrv (FP.ofQ f false)) (.inl (by simp [Spec.gapless]))
    refine ⟨cs, e, fun c hc => ?_⟩
    obtain ⟨a, b⟩ := new_curves e
    unfold ColorSpaceRGB.encode ColorSpaceRGB.decode
    rw [a, b]
    exact ((C97_curves hb hp hl c (nn hc)).1 fun i => (hc i).2.2).1
  · obtain ⟨cs, e⟩ := ex (Shipped.bt709 (FP.ofQ f false)) (.inr (by simp [Spec.gapped]))
    refine ⟨cs, e, fun c hc => ?_⟩
    obtain ⟨a, b⟩ := new_curves e
    unfold ColorSpaceRGB.encode ColorSpaceRGB.decode
    rw [a, b]
    exact ((C97_curves hb hp hl c (nn hc)).1 fun i => (hc i).2.2).2.1
  · obtain ⟨cs, e⟩ := ex (Shipped.bt2020 (FP.ofQ f false)) (.inr (by simp [Spec.gapped]))
    refine ⟨cs, e, fun c hc => ?_⟩
    obtain ⟨a, b⟩ := new_curves e
    unfold ColorSpaceRGB.encode ColorSpaceRGB.decode
    rw [a, b]
    exact ((C97_curves hb hp hl c (nn hc)).1 fun i => (hc i).2.2).2.2.1
  · exact ⟨_, rfl, gm 2.19921875 _ (by norm_num) (by norm_num) rfl rfl⟩
  · obtain ⟨cs, e⟩ := ex (Shipped.dciP3 (FP.ofQ f false)) (.inl (by simp [Spec.gapless]))
    obtain ⟨a, b⟩ := new_curves e
    exact ⟨cs, e, gm 2.6 _ (by norm_num) (by norm_num) a b⟩
  · obtain ⟨cs, e⟩ := ex (Shipped.dciP3D65 (FP.ofQ f false)) (.inl (by simp [Spec.gapless]))
    obtain ⟨a, b⟩ := new_curves e
    exact ⟨cs, e, gm 2.6 _ (by norm_num) (by norm_num) a b⟩
  · refine ⟨_, rfl, fun c hc i => ?_⟩
    have := And.intro (hc i).1 (show |((rgbVec c i).val : ℝ) - (rgbVec c i).val| ≤ 0 by simp)
    fin_cases i <;> exact this
  · obtain ⟨cs, e⟩ := ex (Shipped.acesCg (FP.ofQ f false)) (.inl (by simp [Spec.gapless]))
    obtain ⟨a, b⟩ := new_curves e
    refine ⟨cs, e, fun c hc i => ?_⟩
    unfold ColorSpaceRGB.encode ColorSpaceRGB.decode
    rw [a, b]
    have := And.intro (hc i).1 (show |((rgbVec c i).val : ℝ) - (rgbVec c i).val| ≤ 0 by simp)
    fin_cases i <;> exact this
  · refine ⟨_, rfl, fun c hc i => ?_⟩
    obtain ⟨a, b⟩ := (C97_curves hb hp hl c (nn hc)).2 (fun i => (hc i).2.2.trans (by norm_num)) i
    refine ⟨a, b.trans ?_⟩
    have h1 : ((rgbVec c i).val : ℝ) ≤ 1 := by exact_mod_cast (hc i).2.2
    norm_num at h1 ⊢
    linarith

/-- Not vacuous: a library meeting the assumptions exists, and a colour from black to white qualifies. -/
example : (@PowAccurate Fmt.b32 (idealLibm Fmt.b32) ∧ @LogAccurate Fmt.b32 (idealLibm Fmt.b32)) ∧
    Spec.LinearLight (⟨FP.ofQ Fmt.b32 false 0, FP.ofQ Fmt.b32 false (1 / 4), FP.ofQ Fmt.b32 false 1⟩ : RGBf (FP Fmt.b32)) := by
  refine ⟨⟨ideal_pow std_b32, ideal_log std_b32⟩, fun i => ?_⟩
  fin_cases i <;> exact of_decide_eq_true (by krefl)

end CS

import Verif.Lemmas.Transfer
import Verif.Lemmas.ColorOps
import Verif.Model.Shipped

/-!
# Transfer functions (C26 - C30), in exact arithmetic
-/

namespace CS

-- bounds on the LogC seam compare powers with exponents up to 1945
set_option exponentiation.threshold 2000

/-! ## C26: sRGB -/

/-- the sRGB power branch clears the decoding threshold above the seam -/
theorem srgb_above {x : ℝ} (h : 0.003130803 ≤ x) :
    0.040449936 < 1.055 * x ^ (((5:ℕ):ℝ)/((12:ℕ):ℝ)) - 0.055 := by
  have hx : (0:ℝ) ≤ x := by linarith
  have := (rpow_lt_iff hx (c := 0.095449936 / 1.055) (by norm_num) 5 12 (by norm_num)).2
    (lt_of_lt_of_le (by norm_num) (pow_le_pow_left₀ (by norm_num) h 5))
  linarith

theorem srgb_decode_power {x : ℝ} (hx : 0 ≤ x)
    (h : 0.040449936 < 1.055 * x ^ (((5:ℕ):ℝ)/((12:ℕ):ℝ)) - 0.055) :
    decode.srgb_t (1.055 * x ^ (((5:ℕ):ℝ)/((12:ℕ):ℝ)) - 0.055) = x := by
  rw [dec_srgb, if_neg (not_le.2 h), sub_add_cancel, mul_div_cancel_left₀ _ (by norm_num),
    rpow_inv_cancel hx 5 12 (by norm_num) (by norm_num)]

/-- C26 [R]: decoding the encoded value gives it back, except in a seam 3e-9 wide above the
threshold 0.0031308, where it is off by at most 1e-8. -/
theorem C26_decode_encode (x : ℝ) :
    (¬ (0.0031308 < x ∧ x < 0.003130803) → decode.srgb_t (encode.srgb_t x) = x) ∧
    |decode.srgb_t (encode.srgb_t x) - x| ≤ 1e-8 := by
  rw [enc_srgb]
  by_cases h : x ≤ 0.0031308
  · rw [if_pos h, dec_srgb, if_pos (by linarith), mul_div_cancel_right₀ _ (by norm_num)]
    simp only [implies_true, sub_self, abs_zero, true_and]; norm_num
  · rw [if_neg h]
    push Not at h
    have hx : (0:ℝ) ≤ x := by linarith
    by_cases h2 : 0.003130803 ≤ x
    · rw [srgb_decode_power hx (srgb_above h2)]
      simp only [implies_true, sub_self, abs_zero, true_and]; norm_num
    · push Not at h2
      refine ⟨fun hc => absurd ⟨h, h2⟩ hc, ?_⟩
      by_cases h3 : 0.040449936 < 1.055 * x ^ (((5:ℕ):ℝ)/((12:ℕ):ℝ)) - 0.055
      · rw [srgb_decode_power hx h3, sub_self, abs_zero]; norm_num
      · have hlow := (rpow_lt_iff hx (c := 0.0954499 / 1.055) (by norm_num) 5 12 (by norm_num)).2
          (lt_of_lt_of_le (by norm_num) (pow_le_pow_left₀ (by norm_num) h.le 5))
        push Not at h3
        rw [dec_srgb, if_pos h3]
        set y := x ^ (((5:ℕ):ℝ)/((12:ℕ):ℝ))
        have e : (1.055 * y - 0.055) / 12.92 = (1.055 * y - 0.055) * (1 / 12.92) := by ring
        have hy : 0.0954499 < 1.055 * y := by
          have := (div_lt_iff₀ (by norm_num : (0:ℝ) < 1.055)).1 hlow
          linarith
        rw [abs_le]
        constructor
        · have : (0.0404499:ℝ) / 12.92 ≤ (1.055 * y - 0.055) / 12.92 := by gcongr; linarith
          have h0 : (0.00313079:ℝ) + 0.000000007 ≤ 0.0404499 / 12.92 := by norm_num
          linarith
        · have : (1.055 * y - 0.055) / 12.92 ≤ 0.040449936 / 12.92 := by gcongr
          have h0 : (0.040449936:ℝ) / 12.92 = 0.0031308 := by norm_num
          linarith

/-- C26 [R]: in the other direction there is no seam: encoding the decoded value is exact. -/
theorem C26_encode_decode (f : ℝ) : encode.srgb_t (decode.srgb_t f) = f := by
  rw [dec_srgb]
  by_cases h : f ≤ 0.040449936
  · have h1 : f / 12.92 ≤ 0.0031308 := by
      rw [div_le_iff₀ (by norm_num)]; linarith
    rw [if_pos h, enc_srgb, if_pos h1, div_mul_cancel₀ _ (by norm_num)]
  · rw [if_neg h]
    push Not at h
    have hu : (0.095449936 / 1.055 : ℝ) ≤ (f + 0.055) / 1.055 := by gcongr; linarith
    have hu0 : (0:ℝ) ≤ (f + 0.055) / 1.055 := le_trans (by norm_num) hu
    have := (rpow_lt_iff hu0 (c := 0.0031308) (by norm_num) 12 5 (by norm_num)).2
      (lt_of_lt_of_le (by norm_num) (pow_le_pow_left₀ (by norm_num) hu 12))
    rw [enc_srgb, if_neg (not_le.2 this), rpow_inv_cancel hu0 12 5 (by norm_num) (by norm_num)]
    field_simp; ring

/-- C26 [R]: the seam is real: 0.003130801 does not survive encoding and decoding. -/
theorem C26_seam_counterexample : decode.srgb_t (encode.srgb_t (0.003130801 : ℝ)) ≠ 0.003130801 := by
  have hx : (0:ℝ) ≤ 0.003130801 := by norm_num
  have h := (rpow_le_iff hx (c := 0.095449936 / 1.055) (by norm_num) 5 12 (by norm_num)).2
    (by norm_num)
  rw [le_div_iff₀ (by norm_num)] at h
  rw [enc_srgb, if_neg (by norm_num), dec_srgb, if_pos (by linarith)]
  intro hc
  rw [div_eq_iff (by norm_num)] at hc
  linarith

/-- C26 [R]: on colours, component by component. -/
theorem C26_colour (c : RGBf ℝ) :
    (decode.srgb (encode.srgb c)).r = decode.srgb_t (encode.srgb_t c.r) ∧
    (decode.srgb (encode.srgb c)).g = decode.srgb_t (encode.srgb_t c.g) ∧
    (decode.srgb (encode.srgb c)).b = decode.srgb_t (encode.srgb_t c.b) ∧
    encode.srgb (decode.srgb c) = c ∧
    ((∀ v ∈ [c.r, c.g, c.b], ¬ (0.0031308 < v ∧ v < 0.003130803)) →
      decode.srgb (encode.srgb c) = c) := by
  refine ⟨rfl, rfl, rfl, ?_, fun h => ?_⟩
  · ext <;> exact C26_encode_decode _
  · simp only [List.mem_cons, List.not_mem_nil, or_false, forall_eq_or_imp, forall_eq] at h
    ext
    · exact (C26_decode_encode _).1 h.1
    · exact (C26_decode_encode _).1 h.2.1
    · exact (C26_decode_encode _).1 h.2.2

/-! ## C27: BT.709 and BT.2020 -/

theorem bt_above {x : ℝ} (h : 0.018 ≤ x) :
    0.081 < 1.099 * x ^ (((9:ℕ):ℝ)/((20:ℕ):ℝ)) - 0.099 := by
  have hx : (0:ℝ) ≤ x := by linarith
  have := (rpow_lt_iff hx (c := 0.18 / 1.099) (by norm_num) 9 20 (by norm_num)).2
    (lt_of_lt_of_le (by norm_num) (pow_le_pow_left₀ (by norm_num) h 9))
  linarith

/-- C27 [R]: decoding inverts encoding for every real, for both curves. -/
theorem C27_decode_encode (x : ℝ) :
    decode.bt709_t (encode.bt709_t x) = x ∧ decode.bt2020_t (encode.bt2020_t x) = x := by
  constructor
  · rw [enc_bt709]
    by_cases h : x ≤ 0.018
    · rw [if_pos h, dec_bt709, if_pos (by linarith), mul_div_cancel_right₀ _ (by norm_num)]
    · push Not at h
      have h2 := bt_above h.le
      rw [if_neg (not_le.2 h), dec_bt709, if_neg (not_le.2 h2), sub_add_cancel,
        mul_div_cancel_left₀ _ (by norm_num),
        rpow_inv_cancel (by linarith) 9 20 (by norm_num) (by norm_num)]
  · rw [enc_bt2020]
    by_cases h : x < 0.018
    · rw [if_pos h, dec_bt2020, if_pos (by linarith), mul_div_cancel_right₀ _ (by norm_num)]
    · push Not at h
      have h2 := bt_above h
      rw [if_neg (not_lt.2 h), dec_bt2020, if_neg (not_lt.2 h2.le), sub_add_cancel,
        mul_div_cancel_left₀ _ (by norm_num),
        rpow_inv_cancel (by linarith) 9 20 (by norm_num) (by norm_num)]

/-- C27 [R]: encoding inverts decoding outside the seam `(0.081, 0.08125)` (for BT.2020 the seam
includes 0.081). -/
theorem C27_encode_decode (f : ℝ) :
    (¬ (0.081 < f ∧ f < 0.08125) → encode.bt709_t (decode.bt709_t f) = f) ∧
    (¬ (0.081 ≤ f ∧ f < 0.08125) → encode.bt2020_t (decode.bt2020_t f) = f) := by
  have key : 0.08125 ≤ f → (0:ℝ) ≤ (f + 0.099) / 1.099 ∧
      0.018 < ((f + 0.099) / 1.099) ^ (((20:ℕ):ℝ)/((9:ℕ):ℝ)) := by
    intro h
    have hu : (0.18025 / 1.099 : ℝ) ≤ (f + 0.099) / 1.099 := by gcongr; linarith
    have hu0 : (0:ℝ) ≤ (f + 0.099) / 1.099 := le_trans (by norm_num) hu
    exact ⟨hu0, (rpow_lt_iff hu0 (c := 0.018) (by norm_num) 20 9 (by norm_num)).2
      (lt_of_lt_of_le (by norm_num) (pow_le_pow_left₀ (by norm_num) hu 20))⟩
  constructor
  · intro hs
    rw [dec_bt709]
    by_cases h : f ≤ 0.081
    · have h1 : f / 4.5 ≤ 0.018 := by rw [div_le_iff₀ (by norm_num)]; linarith
      rw [if_pos h, enc_bt709, if_pos h1, div_mul_cancel₀ _ (by norm_num)]
    · push Not at h hs
      obtain ⟨hu0, hk⟩ := key (hs h)
      rw [if_neg (not_le.2 h), enc_bt709, if_neg (not_le.2 hk),
        rpow_inv_cancel hu0 20 9 (by norm_num) (by norm_num)]
      field_simp; ring
  · intro hs
    rw [dec_bt2020]
    by_cases h : f < 0.081
    · have h1 : f / 4.5 < 0.018 := by rw [div_lt_iff₀ (by norm_num)]; linarith
      rw [if_pos h, enc_bt2020, if_pos h1, div_mul_cancel₀ _ (by norm_num)]
    · push Not at h hs
      obtain ⟨hu0, hk⟩ := key (hs h)
      rw [if_neg (not_lt.2 h), enc_bt2020, if_neg (not_lt.2 hk.le),
        rpow_inv_cancel hu0 20 9 (by norm_num) (by norm_num)]
      field_simp; ring

/-- C27 [R]: in the seam it fails, e.g. at 0.0811. -/
theorem C27_seam_counterexample :
    encode.bt709_t (decode.bt709_t (0.0811 : ℝ)) ≠ 0.0811 ∧
    encode.bt2020_t (decode.bt2020_t (0.0811 : ℝ)) ≠ 0.0811 := by
  have hu0 : (0:ℝ) ≤ (0.0811 + 0.099) / 1.099 := by norm_num
  have h := (rpow_le_iff hu0 (c := 0.01797) (by norm_num) 20 9 (by norm_num)).2 (by norm_num)
  constructor
  · rw [dec_bt709, if_neg (by norm_num), enc_bt709, if_pos (by linarith)]
    intro hc; linarith
  · rw [dec_bt2020, if_neg (by norm_num), enc_bt2020, if_pos (by linarith)]
    intro hc; linarith

/-! ## C28: Alexa LogC -/

theorem alexa_above {x : ℝ} (h : 0.0105911 ≤ x) :
    0.149658 < 0.247190 * Real.logb 10 (5.555556 * x + 0.052272) + 0.385537 := by
  have h0 : (0:ℝ) < 5.555556 * 0.0105911 + 0.052272 := by norm_num
  have h1 := lt_log10 h0 1856 1945 (by norm_num) (by norm_num)
  have h2 : Real.logb 10 (5.555556 * 0.0105911 + 0.052272)
      ≤ Real.logb 10 (5.555556 * x + 0.052272) :=
    Real.logb_le_logb_of_le (by norm_num) h0 (by linarith)
  have h3 : (-0.235879 / 0.247190 : ℝ) < -((1856:ℕ):ℝ)/((1945:ℕ):ℝ) := by norm_num
  rw [← neg_div] at h1
  have h4 := lt_trans h3 (lt_of_lt_of_le h1 h2)
  rw [div_lt_iff₀ (by norm_num)] at h4
  linarith

theorem alexa_decode_log {x : ℝ} (hx : 0 ≤ x)
    (h : 0.149658 < 0.247190 * Real.logb 10 (5.555556 * x + 0.052272) + 0.385537) :
    decode.alexa_logc_v3_t (0.247190 * Real.logb 10 (5.555556 * x + 0.052272) + 0.385537) = x := by
  have h0 : 0 < 5.555556 * x + 0.052272 := by linarith
  rw [dec_alexa, if_pos h, add_sub_cancel_right, mul_div_cancel_left₀ _ (by norm_num),
    Real.rpow_logb (by norm_num) (by norm_num) h0, add_sub_cancel_right,
    mul_div_cancel_left₀ _ (by norm_num)]

theorem alexa_at_cut :
    0.14965753 < 0.247190 * Real.logb 10 (5.555556 * (0.010591 : ℝ) + 0.052272) + 0.385537 := by
  have h0 : (0:ℝ) < 5.555556 * 0.010591 + 0.052272 := by norm_num
  have h1 := lt_log10 h0 1293 1355 (by norm_num) (by norm_num)
  have h3 : (-0.23587947 / 0.247190 : ℝ) < -((1293:ℕ):ℝ)/((1355:ℕ):ℝ) := by norm_num
  rw [← neg_div] at h1
  have h4 := lt_trans h3 h1
  rw [div_lt_iff₀ (by norm_num)] at h4
  linarith

/-- C28 [R]: decoding the encoded value gives it back, except in a seam 1e-7 wide above the cut
0.010591, where it is off by at most 2e-7. -/
theorem C28_decode_encode (x : ℝ) :
    (¬ (0.010591 < x ∧ x < 0.0105911) →
      decode.alexa_logc_v3_t (encode.alexa_logc_v3_t x) = x) ∧
    |decode.alexa_logc_v3_t (encode.alexa_logc_v3_t x) - x| ≤ 2e-7 := by
  rw [enc_alexa]
  by_cases h : 0.010591 < x
  · rw [if_pos h]
    have hx : (0:ℝ) ≤ x := by linarith
    by_cases h2 : 0.0105911 ≤ x
    · rw [alexa_decode_log hx (alexa_above h2)]
      simp only [implies_true, sub_self, abs_zero, true_and]; norm_num
    · push Not at h2
      refine ⟨fun hc => absurd ⟨h, h2⟩ hc, ?_⟩
      by_cases h3 : 0.149658 < 0.247190 * Real.logb 10 (5.555556 * x + 0.052272) + 0.385537
      · rw [alexa_decode_log hx h3, sub_self, abs_zero]; norm_num
      · have hle : Real.logb 10 (5.555556 * 0.010591 + 0.052272)
            ≤ Real.logb 10 (5.555556 * x + 0.052272) :=
          Real.logb_le_logb_of_le (by norm_num) (by norm_num) (by linarith)
        have hc := alexa_at_cut
        rw [dec_alexa, if_neg h3]
        push Not at h3
        set y := Real.logb 10 (5.555556 * x + 0.052272)
        rw [abs_le]
        constructor
        · have : (0.14965753 - 0.092809 : ℝ) / 5.367655
              ≤ (0.247190 * y + 0.385537 - 0.092809) / 5.367655 := by gcongr; linarith
          have h0 : (0.0105909:ℝ) ≤ (0.14965753 - 0.092809) / 5.367655 := by norm_num
          linarith
        · have : (0.247190 * y + 0.385537 - 0.092809) / 5.367655
              ≤ (0.149658 - 0.092809 : ℝ) / 5.367655 := by gcongr
          have h0 : (0.149658 - 0.092809 : ℝ) / 5.367655 ≤ 0.01059104 := by norm_num
          linarith
  · rw [if_neg h]
    push Not at h
    have e : (5.367655 * x + 0.092809 - 0.092809) / 5.367655 = x := by
      rw [add_sub_cancel_right, mul_div_cancel_left₀ _ (by norm_num)]
    rw [dec_alexa, if_neg (by linarith), e]
    simp only [implies_true, sub_self, abs_zero, true_and]; norm_num

/-- C28 [R]: the seam is real: the exact cut is recovered, the point just above it is not. -/
theorem C28_seam_counterexample :
    decode.alexa_logc_v3_t (encode.alexa_logc_v3_t (0.01059101 : ℝ)) ≠ 0.01059101 := by
  have h0 : (0:ℝ) < 5.555556 * 0.01059101 + 0.052272 := by norm_num
  have h1 := log10_lt h0 1147 1202 (by norm_num) (by norm_num)
  have h3 : -((1147:ℕ):ℝ)/((1202:ℕ):ℝ) < (-0.2358793 / 0.247190 : ℝ) := by norm_num
  rw [← neg_div] at h1
  have h4 := lt_trans h1 h3
  rw [lt_div_iff₀ (by norm_num)] at h4
  rw [enc_alexa, if_pos (by norm_num), dec_alexa, if_neg (by linarith)]
  intro hc
  rw [div_eq_iff (by norm_num)] at hc
  linarith

/-- C28 [R]: the other direction is exact outside the seam `(0.1496578, 0.149658]`, in particular
above the threshold and below the value of the cut. -/
theorem C28_encode_decode (t : ℝ) (ht : ¬ (0.1496578 < t ∧ t ≤ 0.149658)) :
    encode.alexa_logc_v3_t (decode.alexa_logc_v3_t t) = t := by
  rw [dec_alexa]
  by_cases h : 0.149658 < t
  · have hp : (0:ℝ) < (10:ℝ) ^ ((t - 0.385537) / 0.247190) := Real.rpow_pos_of_pos (by norm_num) _
    -- 10^((t-d)/c) > 10^(-1001/1049) > 5.555556 * 0.010591 + 0.052272
    have h1 : (5.555556 * 0.010591 + 0.052272 : ℝ) < (10:ℝ) ^ ((t - 0.385537) / 0.247190) := by
      have h0 : (0:ℝ) < 5.555556 * 0.010591 + 0.052272 := by norm_num
      have h2 := log10_lt h0 1001 1049 (by norm_num) (by norm_num)
      have h3 : -((1001:ℕ):ℝ)/((1049:ℕ):ℝ) < (t - 0.385537) / 0.247190 := by
        rw [lt_div_iff₀ (by norm_num)]
        have : -((1001:ℕ):ℝ)/((1049:ℕ):ℝ) * 0.247190 < 0.149658 - 0.385537 := by norm_num
        linarith
      rw [← neg_div] at h2
      exact (Real.logb_lt_iff_lt_rpow (by norm_num) h0).1 (lt_trans h2 h3)
    rw [if_pos h, enc_alexa, if_pos (by rw [lt_div_iff₀ (by norm_num)]; linarith),
      mul_div_cancel₀ _ (by norm_num), sub_add_cancel, Real.logb_rpow (by norm_num) (by norm_num)]
    field_simp; ring
  · push Not at h ht
    have h2 : t ≤ 0.1496578 := by
      by_contra hc
      push Not at hc
      linarith [ht hc]
    have h3 : (t - 0.092809) / 5.367655 ≤ 0.010591 := by
      rw [div_le_iff₀ (by norm_num)]; linarith
    rw [if_neg (not_lt.2 h), enc_alexa, if_neg (not_lt.2 h3), mul_div_cancel₀ _ (by norm_num),
      sub_add_cancel]

/-! ## C29: power-law and linear spaces -/

/-- C29 [R]: gamma pairs `1/g`, `g` invert each other on non-negative components. -/
theorem C29_power_roundtrip (g : ℝ) (hg : g ≠ 0) (c : RGBf ℝ) (hr : 0 ≤ c.r) (hG : 0 ≤ c.g)
    (hb : 0 ≤ c.b) :
    (c.powf (1 / g)).powf g = c ∧ (c.powf g).powf (1 / g) = c := by
  have key : ∀ x : ℝ, 0 ≤ x → (x ^ (1 / g)) ^ g = x ∧ (x ^ g) ^ (1 / g) = x := by
    intro x hx
    rw [← Real.rpow_mul hx, ← Real.rpow_mul hx, one_div, inv_mul_cancel₀ hg, mul_inv_cancel₀ hg,
      Real.rpow_one]
    exact ⟨rfl, rfl⟩
  constructor <;> ext
  · exact (key _ hr).1
  · exact (key _ hG).1
  · exact (key _ hb).1
  · exact (key _ hr).2
  · exact (key _ hG).2
  · exact (key _ hb).2

theorem new_transfer {T : Type} [Add T] [Sub T] [Mul T] [Div T] [Neg T] [Flt T]
    {cs : ColorSpaceRGB T} (r g b w : XYY T) (o e : RGBf T → RGBf T)
    (h : ColorSpaceRGB.new r g b w o e = .ok cs) : cs.oetf = o ∧ cs.eotf = e := by
  unfold ColorSpaceRGB.new at h
  dsimp only at h
  cases hi : (buildXyzToRgbMatrix r g b w).inverse with
  | none => rw [hi] at h; cases h
  | some n => rw [hi] at h; cases h; exact ⟨rfl, rfl⟩

/-- C29 [R]: the shipped power-law spaces (DCI-P3, P3-D65, Adobe RGB 1998). -/
theorem C29_shipped (cs : ColorSpaceRGB ℝ)
    (h : Shipped.dciP3 (fun q => (q:ℝ)) = .ok cs ∨ Shipped.dciP3D65 (fun q => (q:ℝ)) = .ok cs ∨
      cs = Shipped.adobeRgb1998 (fun q => (q:ℝ)))
    (c : RGBf ℝ) (hr : 0 ≤ c.r) (hG : 0 ≤ c.g) (hb : 0 ≤ c.b) :
    cs.decode (cs.encode c) = c ∧ cs.encode (cs.decode c) = c := by
  unfold ColorSpaceRGB.decode ColorSpaceRGB.encode
  rcases h with h | h | h
  · obtain ⟨h1, h2⟩ := new_transfer _ _ _ _ _ _ h
    rw [h1, h2]
    have := C29_power_roundtrip ((2.6:ℚ):ℝ) (by norm_num) c hr hG hb
    norm_num only [Rat.cast_ofNat, Rat.cast_div] at this ⊢
    exact this
  · obtain ⟨h1, h2⟩ := new_transfer _ _ _ _ _ _ h
    rw [h1, h2]
    have := C29_power_roundtrip ((2.6:ℚ):ℝ) (by norm_num) c hr hG hb
    norm_num only [Rat.cast_ofNat, Rat.cast_div] at this ⊢
    exact this
  · subst h
    have := C29_power_roundtrip ((2.19921875:ℚ):ℝ) (by norm_num) c hr hG hb
    simp only [Shipped.adobeRgb1998, ColorSpaceRGB.newWithMatrices]
    norm_num only [Rat.cast_ofNat, Rat.cast_div] at this ⊢
    exact this

/-- C29 [G]: the linear (ACES) transfer functions return every colour unchanged, in any arithmetic. -/
theorem C29_linear {T : Type} (c : RGBf T) :
    encode.linear c = c ∧ decode.linear c = c := ⟨rfl, rfl⟩

/-- C29 [G]: the two ACES spaces use the linear transfer functions. -/
theorem C29_aces {T : Type} [Add T] [Sub T] [Mul T] [Div T] [Neg T] [Flt T] (l : ℚ → T)
    (cs : ColorSpaceRGB T) (h : cs = Shipped.aces l ∨ Shipped.acesCg l = .ok cs) (c : RGBf T) :
    cs.encode c = c ∧ cs.decode c = c := by
  rcases h with rfl | h
  · exact ⟨rfl, rfl⟩
  · obtain ⟨h1, h2⟩ := new_transfer _ _ _ _ _ _ h
    unfold ColorSpaceRGB.decode ColorSpaceRGB.encode
    rw [h1, h2]
    exact ⟨rfl, rfl⟩

/-- C26 - C28 [R]: what this means for the shipped spaces: their `encode` and `decode` methods
round-trip colours (sRGB: encode after decode, always; BT.709 and BT.2020: decode after encode,
always; Alexa: decode after encode outside the seam). -/
theorem C27_shipped (cs : ColorSpaceRGB ℝ) (c : RGBf ℝ) :
    (cs = Shipped.srgb (fun q => (q:ℝ)) ∨ Shipped.srgbDrv (fun q => (q:ℝ)) = .ok cs →
      cs.encode (cs.decode c) = c) ∧
    (Shipped.bt709 (fun q => (q:ℝ)) = .ok cs ∨ Shipped.bt2020 (fun q => (q:ℝ)) = .ok cs →
      cs.decode (cs.encode c) = c) ∧
    (cs = Shipped.alexaWideGamut (fun q => (q:ℝ)) →
      (∀ v ∈ [c.r, c.g, c.b], ¬ (0.010591 < v ∧ v < 0.0105911)) → cs.decode (cs.encode c) = c) := by
  unfold ColorSpaceRGB.decode ColorSpaceRGB.encode
  refine ⟨?_, ?_, ?_⟩
  · rintro (rfl | h)
    · exact (C26_colour c).2.2.2.1
    · obtain ⟨h1, h2⟩ := new_transfer _ _ _ _ _ _ h
      rw [h1, h2]
      exact (C26_colour c).2.2.2.1
  · rintro (h | h) <;> obtain ⟨h1, h2⟩ := new_transfer _ _ _ _ _ _ h <;> rw [h1, h2] <;> ext
    · exact (C27_decode_encode _).1
    · exact (C27_decode_encode _).1
    · exact (C27_decode_encode _).1
    · exact (C27_decode_encode _).2
    · exact (C27_decode_encode _).2
    · exact (C27_decode_encode _).2
  · rintro rfl h
    simp only [List.mem_cons, List.not_mem_nil, or_false, forall_eq_or_imp, forall_eq] at h
    ext
    · exact (C28_decode_encode _).1 h.1
    · exact (C28_decode_encode _).1 h.2.1
    · exact (C28_decode_encode _).1 h.2.2

/-! ## C30: black, white and order -/

/-- C30 [R]: black stays black, white stays white. -/
theorem C30_black_white :
    encode.srgb_t (0:ℝ) = 0 ∧ decode.srgb_t (0:ℝ) = 0 ∧ encode.srgb_t (1:ℝ) = 1 ∧
    decode.srgb_t (1:ℝ) = 1 ∧
    encode.bt709_t (0:ℝ) = 0 ∧ decode.bt709_t (0:ℝ) = 0 ∧ encode.bt709_t (1:ℝ) = 1 ∧
    decode.bt709_t (1:ℝ) = 1 ∧
    encode.bt2020_t (0:ℝ) = 0 ∧ decode.bt2020_t (0:ℝ) = 0 ∧ encode.bt2020_t (1:ℝ) = 1 ∧
    decode.bt2020_t (1:ℝ) = 1 := by
  simp only [enc_srgb, dec_srgb, enc_bt709, dec_bt709, enc_bt2020, dec_bt2020]
  norm_num

/-- two increasing pieces joined at `s` without a drop give an increasing function -/
theorem strictMono_le_pieces {s : ℝ} {g h : ℝ → ℝ} (hg : ∀ x y, x < y → y ≤ s → g x < g y)
    (hh : ∀ x y, s ≤ x → x < y → h x < h y) (hs : g s ≤ h s) :
    StrictMono (fun x => if x ≤ s then g x else h x) := by
  intro x y hxy
  simp only
  by_cases hx : x ≤ s <;> by_cases hy : y ≤ s
  · rw [if_pos hx, if_pos hy]; exact hg x y hxy hy
  · rw [if_pos hx, if_neg hy]
    push Not at hy
    have h1 := hh s y le_rfl hy
    rcases hx.eq_or_lt with rfl | hlt
    · linarith
    · linarith [hg x s hlt le_rfl]
  · exact absurd (hxy.le.trans hy) hx
  · rw [if_neg hx, if_neg hy]; exact hh x y (not_le.1 hx).le hxy

theorem strictMono_lt_pieces {s : ℝ} {g h : ℝ → ℝ} (hg : ∀ x y, x < y → y ≤ s → g x < g y)
    (hh : ∀ x y, s ≤ x → x < y → h x < h y) (hs : g s ≤ h s) :
    StrictMono (fun x => if x < s then g x else h x) := by
  intro x y hxy
  simp only
  by_cases hx : x < s <;> by_cases hy : y < s
  · rw [if_pos hx, if_pos hy]; exact hg x y hxy hy.le
  · rw [if_pos hx, if_neg hy]
    push Not at hy
    have h1 := hg x s hx le_rfl
    rcases hy.eq_or_lt with rfl | hlt
    · linarith
    · linarith [hh s y le_rfl hlt]
  · exact absurd (hxy.trans hy) hx
  · rw [if_neg hx, if_neg hy]; exact hh x y (not_lt.1 hx) hxy

/-- two increasing pieces whose second starts at most `δ` lower -/
theorem nearMono_le_pieces {s δ : ℝ} {g h : ℝ → ℝ} (hg : ∀ x y, x < y → y ≤ s → g x < g y)
    (hh : ∀ x y, s ≤ x → x < y → h x < h y) (hs : g s - δ < h s) (hδ : 0 ≤ δ) (x y : ℝ)
    (hxy : x ≤ y) :
    (if x ≤ s then g x else h x) - δ ≤ (if y ≤ s then g y else h y) := by
  rcases hxy.eq_or_lt with rfl | hxy
  · linarith
  by_cases hx : x ≤ s <;> by_cases hy : y ≤ s
  · rw [if_pos hx, if_pos hy]; linarith [hg x y hxy hy]
  · rw [if_pos hx, if_neg hy]
    push Not at hy
    have h1 := hh s y le_rfl hy
    rcases hx.eq_or_lt with rfl | hlt
    · linarith
    · linarith [hg x s hlt le_rfl]
  · exact absurd (hxy.le.trans hy) hx
  · rw [if_neg hx, if_neg hy]; linarith [hh x y (not_le.1 hx).le hxy]

theorem nearMono_lt_pieces {s δ : ℝ} {g h : ℝ → ℝ} (hg : ∀ x y, x < y → y ≤ s → g x < g y)
    (hh : ∀ x y, s ≤ x → x < y → h x < h y) (hs : g s - δ < h s) (hδ : 0 ≤ δ) (x y : ℝ)
    (hxy : x ≤ y) :
    (if x < s then g x else h x) - δ ≤ (if y < s then g y else h y) := by
  rcases hxy.eq_or_lt with rfl | hxy
  · linarith
  by_cases hx : x < s <;> by_cases hy : y < s
  · rw [if_pos hx, if_pos hy]; linarith [hg x y hxy hy.le]
  · rw [if_pos hx, if_neg hy]
    push Not at hy
    have h1 := hg x s hx le_rfl
    rcases hy.eq_or_lt with rfl | hlt
    · linarith
    · linarith [hh s y le_rfl hlt]
  · exact absurd (hxy.trans hy) hx
  · rw [if_neg hx, if_neg hy]; linarith [hh x y (not_lt.1 hx) hxy]

theorem srgb_power_mono (x y : ℝ) (hx : 0 ≤ x) (h : x < y) :
    1.055 * x ^ (((5:ℕ):ℝ)/((12:ℕ):ℝ)) - 0.055 < 1.055 * y ^ (((5:ℕ):ℝ)/((12:ℕ):ℝ)) - 0.055 := by
  have := rpow_strict hx h 5 12 (by norm_num) (by norm_num)
  linarith

theorem bt_power_mono (x y : ℝ) (hx : 0 ≤ x) (h : x < y) :
    1.099 * x ^ (((9:ℕ):ℝ)/((20:ℕ):ℝ)) - 0.099 < 1.099 * y ^ (((9:ℕ):ℝ)/((20:ℕ):ℝ)) - 0.099 := by
  have := rpow_strict hx h 9 20 (by norm_num) (by norm_num)
  linarith

theorem bt_decode_power_mono (x y : ℝ) (hx : 0 ≤ x) (h : x < y) :
    ((x + 0.099) / 1.099) ^ (((20:ℕ):ℝ)/((9:ℕ):ℝ)) <
      ((y + 0.099) / 1.099) ^ (((20:ℕ):ℝ)/((9:ℕ):ℝ)) := by
  apply rpow_strict (by positivity) _ 20 9 (by norm_num) (by norm_num)
  gcongr

theorem alexa_log_mono (x y : ℝ) (hx : 0 ≤ x) (h : x < y) :
    0.247190 * Real.logb 10 (5.555556 * x + 0.052272) + 0.385537 <
      0.247190 * Real.logb 10 (5.555556 * y + 0.052272) + 0.385537 := by
  have : Real.logb 10 (5.555556 * x + 0.052272) < Real.logb 10 (5.555556 * y + 0.052272) :=
    Real.logb_lt_logb (by norm_num) (by positivity) (by linarith)
  linarith

/-- C30 [R]: the sRGB and LogC decoders and the BT.709 and BT.2020 encoders are strictly
increasing on the whole line. -/
theorem C30_strictly_increasing :
    StrictMono (decode.srgb_t : ℝ → ℝ) ∧ StrictMono (decode.alexa_logc_v3_t : ℝ → ℝ) ∧
    StrictMono (encode.bt709_t : ℝ → ℝ) ∧ StrictMono (encode.bt2020_t : ℝ → ℝ) := by
  refine ⟨?_, ?_, ?_, ?_⟩
  · rw [show (decode.srgb_t : ℝ → ℝ) = _ from funext dec_srgb]
    refine strictMono_le_pieces (fun x y h _ => by gcongr) (fun x y hx h => ?_) ?_
    · apply rpow_strict (div_nonneg (by linarith) (by norm_num)) _ 12 5 (by norm_num) (by norm_num)
      gcongr
    · have := (rpow_lt_iff (x := (0.040449936 + 0.055) / 1.055) (by norm_num)
        (c := 0.040449936 / 12.92) (by norm_num) 12 5 (by norm_num)).2 (by norm_num)
      exact this.le
  · rw [show (decode.alexa_logc_v3_t : ℝ → ℝ) = _ from funext dec_alexa]
    have e : (fun t : ℝ => if 0.149658 < t then
        ((10:ℝ) ^ ((t - 0.385537) / 0.247190) - 0.052272) / 5.555556
        else (t - 0.092809) / 5.367655) = fun t => if t ≤ 0.149658 then (t - 0.092809) / 5.367655
        else ((10:ℝ) ^ ((t - 0.385537) / 0.247190) - 0.052272) / 5.555556 := by
      funext t
      by_cases h : t ≤ 0.149658
      · rw [if_pos h, if_neg (not_lt.2 h)]
      · rw [if_neg h, if_pos (not_le.1 h)]
    rw [e]
    refine strictMono_le_pieces (fun x y h _ => by gcongr) (fun x y hx h => ?_) ?_
    · have : (10:ℝ) ^ ((x - 0.385537) / 0.247190) < (10:ℝ) ^ ((y - 0.385537) / 0.247190) :=
        Real.rpow_lt_rpow_of_exponent_lt (by norm_num) (by gcongr)
      gcongr
    · have h0 : (0:ℝ) < 5.555556 * ((0.149658 - 0.092809) / 5.367655) + 0.052272 := by norm_num
      have h2 := log10_lt h0 1001 1049 (by norm_num) (by norm_num)
      have h3 : -((1001:ℕ):ℝ)/((1049:ℕ):ℝ) < (0.149658 - 0.385537) / 0.247190 := by norm_num
      rw [← neg_div] at h2
      have := (Real.logb_lt_iff_lt_rpow (by norm_num) h0).1 (lt_trans h2 h3)
      rw [le_div_iff₀ (by norm_num)]
      linarith
  · rw [show (encode.bt709_t : ℝ → ℝ) = _ from funext enc_bt709]
    refine strictMono_le_pieces (fun x y h _ => by gcongr)
      (fun x y hx h => bt_power_mono x y (by linarith) h) ?_
    have := bt_above (x := 0.018) le_rfl
    linarith
  · rw [show (encode.bt2020_t : ℝ → ℝ) = _ from funext enc_bt2020]
    refine strictMono_lt_pieces (fun x y h _ => by gcongr)
      (fun x y hx h => bt_power_mono x y (by linarith) h) ?_
    have := bt_above (x := 0.018) le_rfl
    linarith

/-- C30 [R]: the other four curves are increasing up to a drop at their seam of at most 3e-8 (sRGB
encoder), 3.1e-7 (LogC encoder) and 6e-5 (BT.709 and BT.2020 decoders). -/
theorem C30_nearly_increasing (x y : ℝ) (h : x ≤ y) :
    encode.srgb_t x - 3e-8 ≤ encode.srgb_t y ∧
    encode.alexa_logc_v3_t x - 3.1e-7 ≤ encode.alexa_logc_v3_t y ∧
    decode.bt709_t x - 6e-5 ≤ decode.bt709_t y ∧
    decode.bt2020_t x - 6e-5 ≤ decode.bt2020_t y := by
  have hbt : (0.081:ℝ) / 4.5 - 6e-5 < ((0.081 + 0.099) / 1.099) ^ (((20:ℕ):ℝ)/((9:ℕ):ℝ)) :=
    (rpow_lt_iff (by norm_num) (by norm_num) 20 9 (by norm_num)).2 (by norm_num)
  refine ⟨?_, ?_, ?_, ?_⟩
  · rw [enc_srgb, enc_srgb]
    refine nearMono_le_pieces (δ := 3e-8) (g := fun x => x * 12.92) (fun x y h _ => by gcongr)
      (fun x y hx h => srgb_power_mono x y (by linarith) h) ?_ (by norm_num) x y h
    have := (rpow_lt_iff (x := 0.0031308) (by norm_num)
      (c := (0.0031308 * 12.92 - 3e-8 + 0.055) / 1.055) (by norm_num) 5 12 (by norm_num)).2
      (by norm_num)
    rw [div_lt_iff₀ (by norm_num)] at this
    linarith
  · have e : ∀ x : ℝ, encode.alexa_logc_v3_t x = if x ≤ 0.010591 then 5.367655 * x + 0.092809
        else 0.247190 * Real.logb 10 (5.555556 * x + 0.052272) + 0.385537 := by
      intro x
      rw [enc_alexa]
      by_cases h : x ≤ 0.010591
      · rw [if_pos h, if_neg (not_lt.2 h)]
      · rw [if_neg h, if_pos (not_le.1 h)]
    rw [e, e]
    refine nearMono_le_pieces (δ := 3.1e-7) (g := fun x => 5.367655 * x + 0.092809)
      (fun x y h _ => by gcongr)
      (fun x y hx h => alexa_log_mono x y (by linarith) h) ?_ (by norm_num) x y h
    have := alexa_at_cut
    norm_num at this ⊢
    linarith
  · rw [dec_bt709, dec_bt709]
    exact nearMono_le_pieces (δ := 6e-5) (g := fun x => x / 4.5) (fun x y h _ => by gcongr)
      (fun x y hx h => bt_decode_power_mono x y (by linarith) h) hbt (by norm_num) x y h
  · rw [dec_bt2020, dec_bt2020]
    exact nearMono_lt_pieces (δ := 6e-5) (g := fun x => x / 4.5) (fun x y h _ => by gcongr)
      (fun x y hx h => bt_decode_power_mono x y (by linarith) h) hbt (by norm_num) x y h

/-- C30 [R]: those four curves do drop. -/
theorem C30_drop_counterexample :
    (∃ x y : ℝ, x < y ∧ encode.srgb_t y < encode.srgb_t x) ∧
    (∃ x y : ℝ, x < y ∧ encode.alexa_logc_v3_t y < encode.alexa_logc_v3_t x) ∧
    (∃ x y : ℝ, x < y ∧ decode.bt709_t y < decode.bt709_t x) ∧
    (∃ x y : ℝ, x < y ∧ decode.bt2020_t y < decode.bt2020_t x) := by
  refine ⟨⟨0.0031308, 0.003130801, by norm_num, ?_⟩, ⟨0.010591, 0.01059101, by norm_num, ?_⟩,
    ⟨0.081, 0.08101, by norm_num, ?_⟩, ⟨0.08099, 0.081, by norm_num, ?_⟩⟩
  · rw [enc_srgb, enc_srgb, if_neg (by norm_num), if_pos le_rfl]
    have := (rpow_le_iff (x := 0.003130801) (by norm_num) (c := 0.09544993 / 1.055) (by norm_num)
      5 12 (by norm_num)).2 (by norm_num)
    rw [le_div_iff₀ (by norm_num)] at this
    linarith
  · rw [enc_alexa, enc_alexa, if_pos (by norm_num), if_neg (by norm_num)]
    have h0 : (0:ℝ) < 5.555556 * 0.01059101 + 0.052272 := by norm_num
    have h1 := log10_lt h0 1147 1202 (by norm_num) (by norm_num)
    have h3 : -((1147:ℕ):ℝ)/((1202:ℕ):ℝ) < (5.367655 * 0.010591 + 0.092809 - 0.385537) / 0.247190 := by
      norm_num
    rw [← neg_div] at h1
    have h4 := lt_trans h1 h3
    rw [lt_div_iff₀ (by norm_num)] at h4
    linarith
  · rw [dec_bt709, dec_bt709, if_neg (by norm_num), if_pos le_rfl]
    have := (rpow_le_iff (x := (0.08101 + 0.099) / 1.099) (by norm_num) (c := 0.01799)
      (by norm_num) 20 9 (by norm_num)).2 (by norm_num)
    refine lt_of_le_of_lt this (by norm_num)
  · rw [dec_bt2020, dec_bt2020, if_neg (by norm_num), if_pos (by norm_num)]
    have := (rpow_le_iff (x := (0.081 + 0.099) / 1.099) (by norm_num) (c := 0.01799)
      (by norm_num) 20 9 (by norm_num)).2 (by norm_num)
    refine lt_of_le_of_lt this (by norm_num)

end CS

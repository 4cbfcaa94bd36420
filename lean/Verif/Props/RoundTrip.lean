import Verif.Props.Spectra
import Verif.Lemmas.UpliftEval

/-!
# RGB to spectrum and back (C72)
-/

namespace CS

/-- the uplifted spectrum on the 5 nm grid -/
theorem uplift_resampled {rgb : RGBf ℝ} {s : VSPD ℝ} (h : upliftMy rgb = .ok s) :
    Spans s 360 780 5 ∧ ∀ k : ℕ, k < 85 → resampled s (360 + k * 5) =
      ((Tables.myR.getD (k - 4) 0 : ℚ) : ℝ) * rgb.r + ((Tables.myG.getD (k - 4) 0 : ℚ) : ℝ) * rgb.g +
        ((Tables.myB.getD (k - 4) 0 : ℚ) : ℝ) * rgb.b := by
  obtain ⟨h1, h2, h3⟩ := uplift_unique h
  have hasc : s.wavelengths.Pairwise (· < ·) := by
    rw [VSPD.wavelengths, List.pairwise_iff_getElem]
    intro i j hi hj hij
    simp only [List.length_map] at hi hj
    have e1 := h3 i (by omega)
    have e2 := h3 j (by omega)
    rw [List.getElem?_eq_getElem (by omega), Option.some.injEq] at e1 e2
    simp only [List.getElem_map, e1, e2]
    have : (i:ℝ) < j := by exact_mod_cast hij
    linarith
  constructor
  · refine ⟨by omega, hasc, ?_, ?_, ?_, Or.inr ⟨4, ?_⟩, Or.inl ?_⟩
    · rw [List.head?_eq_getElem?, h3 0 (by norm_num), h1]
      simp [SpdShape.new]
    · rw [List.getLast?_eq_getElem?, h2, h3 80 (by norm_num), h1]
      simp only [Option.map_some, SpdShape.new]
      norm_num
    · rw [h1]; norm_num [SpdShape.new]
    · rw [h1]; norm_num [SpdShape.new]
    · rw [h1]; norm_num [SpdShape.new]
  · intro k hk
    have hk4 := h3 (k - 4) (by omega)
    have hp := C40_passes_samples s (by omega) hasc _ (List.mem_iff_getElem?.2 ⟨_, hk4⟩)
    unfold resampled
    have hx : max s.shape.start (min (360 + (k:ℝ) * 5) s.shape.end) = 380 + ((k - 4 : ℕ) : ℝ) * 5 := by
      have hk' : (k:ℝ) ≤ 84 := by exact_mod_cast (by omega : k ≤ 84)
      rw [h1]
      show max (380:ℝ) (min _ 780) = _
      rw [min_eq_left (by linarith)]
      rcases Nat.lt_or_ge k 4 with h4 | h4
      · have : (k:ℝ) ≤ 4 := by exact_mod_cast h4.le
        rw [Nat.sub_eq_zero_of_le h4.le, max_eq_left (by linarith)]; simp
      · have : (4:ℝ) ≤ k := by exact_mod_cast h4
        rw [Nat.cast_sub h4, max_eq_right (by linarith)]; push_cast; ring
    rw [hx, hp]
    rfl

theorem up_sum (il c : VSPD ℝ) (t : List (ℚ × ℚ)) (b1 b2 b3 : List ℚ) (p q w : ℝ)
    (hil : ∀ k : ℕ, k < 421 → resampled il (360 + k) = ((dQ (Spectra.d65.map Prod.snd) k : ℚ) : ℝ))
    (hc : ∀ k : ℕ, k < 421 → resampled c (360 + k) = (((t.map Prod.snd).getD k 0 : ℚ) : ℝ)) (R : ℕ → ℝ)
    (hR : ∀ k : ℕ, k < 85 → R k = ((b1.getD (k - 4) 0 : ℚ) : ℝ) * p + ((b2.getD (k - 4) 0 : ℚ) : ℝ) * q +
      ((b3.getD (k - 4) 0 : ℚ) : ℝ) * w) :
    ∑ k ∈ Finset.range 85, R k * resampled il (360 + k * 5) * resampled c (360 + k * 5) =
      ((upQ b1 t : ℚ) : ℝ) * p + ((upQ b2 t : ℚ) : ℝ) * q + ((upQ b3 t : ℚ) : ℝ) * w := by
  have key : ∀ b : List ℚ, ((upQ b t : ℚ) : ℝ) = ∑ k ∈ Finset.range 85, ((b.getD (k - 4) 0 : ℚ) : ℝ) *
      resampled il (360 + k * 5) * resampled c (360 + k * 5) := by
    intro b
    unfold upQ
    rw [← sum_range_list]
    refine Finset.sum_congr rfl fun k hk => ?_
    have hk := Finset.mem_range.1 hk
    have e1 := hil (k * 5) (by omega)
    have e2 := hc (k * 5) (by omega)
    push_cast at e1 e2 ⊢
    rw [e1, e2]
  rw [key, key, key, Finset.sum_mul, Finset.sum_mul, Finset.sum_mul, ← Finset.sum_add_distrib,
    ← Finset.sum_add_distrib]
  refine Finset.sum_congr rfl fun k hk => ?_
  rw [hR k (Finset.mem_range.1 hk)]
  ring

theorem within_real {q d e : ℚ} (h : withinQ q d e = true) : |(q:ℝ) - d| ≤ e := by
  simp only [withinQ, Bool.and_eq_true, decide_eq_true_eq] at h
  exact_mod_cast abs_le.2 h

theorem near_combine (a b c p q w m ea eb ec : ℝ) (da db dc : ℝ) (h1 : |a - da| ≤ ea) (h2 : |b - db| ≤ eb)
    (h3 : |c - dc| ≤ ec) (hp : |p| ≤ m) (hq : |q| ≤ m) (hw : |w| ≤ m) :
    |a * p + b * q + c * w - (da * p + db * q + dc * w)| ≤ (ea + eb + ec) * m := by
  have hm : 0 ≤ m := (abs_nonneg p).trans hp
  have e : a * p + b * q + c * w - (da * p + db * q + dc * w) = (a - da) * p + (b - db) * q + (c - dc) * w := by
    ring
  rw [e]
  have t1 : |(a - da) * p| ≤ ea * m := by
    rw [abs_mul]; exact mul_le_mul h1 hp (abs_nonneg _) ((abs_nonneg _).trans h1)
  have t2 : |(b - db) * q| ≤ eb * m := by
    rw [abs_mul]; exact mul_le_mul h2 hq (abs_nonneg _) ((abs_nonneg _).trans h2)
  have t3 : |(c - dc) * w| ≤ ec * m := by
    rw [abs_mul]; exact mul_le_mul h3 hw (abs_nonneg _) ((abs_nonneg _).trans h3)
  have := abs_add_three ((a - da) * p) ((b - db) * q) ((c - dc) * w)
  linarith

/-- C72 [R]: uplifting any linear sRGB colour to a spectrum and converting that back, with the shipped D65
illuminant, the CIE 1931 observer and the sRGB matrix, recovers the colour: within 1.1e-4 of the largest
component in red and green, 3.4e-4 in blue. -/
theorem C72_uplift_round_trip (rgb : RGBf ℝ) (m : ℝ) (hr : |rgb.r| ≤ m) (hg : |rgb.g| ≤ m) (hb : |rgb.b| ≤ m)
    (il : VSPD ℝ) (cmf : CMF ℝ) (hil : Spectra.vspd Spectra.d65 = .ok il) (hc : Spectra.cie1931 = .ok cmf)
    (s : VSPD ℝ) (hs : upliftMy rgb = .ok s) :
    ∃ N, ∀ fuel, N ≤ fuel → ∃ xyz M, s.toXyz fuel il cmf = .ok xyz ∧
      xyzToRgbMatrix (Shipped.srgb ratLit).white (Shipped.srgb ratLit) = .ok M ∧
      |(xyzToRgb M xyz).r - rgb.r| ≤ 1.1e-4 * m ∧ |(xyzToRgb M xyz).g - rgb.g| ≤ 1.1e-4 * m ∧
      |(xyzToRgb M xyz).b - rgb.b| ≤ 3.4e-4 * m := by
  have hd : (Spectra.d65, (0.31270 : ℚ), (0.32900 : ℚ)) ∈ dSeriesQ := by simp [dSeriesQ]
  obtain ⟨hgr, hn⟩ := dSeries_grid _ hd
  have hl := loaded Spectra.d65 hgr hn il cmf hil hc
  obtain ⟨hsp, hR⟩ := uplift_resampled hs
  obtain ⟨N, h⟩ := C69_five_nm s il cmf hl.tables hsp 5 (by rw [(uplift_unique hs).1]; rfl) (by norm_num)
  refine ⟨N, fun fuel hf => ⟨_, (Shipped.srgb ratLit).xf_xyz_to_rgb, h fuel hf, ?_, ?_⟩⟩
  · unfold xyzToRgbMatrix
    rw [(C15_equal_whites_real _).1]
    show Except.ok _ = _
    rw [m33_mul_one]
  have hm : 0 ≤ m := (abs_nonneg _).trans hr
  have sY := white_sum Spectra.d65 Spectra.yBar il cmf.yBar 5 85 (by norm_num) hl.il hl.y
  have tX := up_sum il cmf.xBar Spectra.xBar _ _ _ _ _ _ hl.il hl.x _ hR
  have tY := up_sum il cmf.yBar Spectra.yBar _ _ _ _ _ _ hl.il hl.y _ hR
  have tZ := up_sum il cmf.zBar Spectra.zBar _ _ _ _ _ _ hl.il hl.z _ hR
  have hW := (dSeries_white _ hd (5, 85) (by simp) _ _ _ rfl rfl rfl).1
  have hu := up_near
  simp only [List.all_cons, List.all_nil, Bool.and_true, Bool.and_eq_true, Bool.and_assoc] at hu
  obtain ⟨a1, a2, a3, b1, b2, b3, c1, c2, c3⟩ := hu
  have a1 := within_real a1
  have a2 := within_real a2
  have a3 := within_real a3
  have b1 := within_real b1
  have b2 := within_real b2
  have b3 := within_real b3
  have c1 := within_real c1
  have c2 := within_real c2
  have c3 := within_real c3
  unfold upRow at a1 a2 a3 b1 b2 b3 c1 c2 c3
  dsimp only at hW a1 a2 a3 b1 b2 b3 c1 c2 c3
  simp only [Nat.cast_ofNat] at sY
  have h100 : (Flt.lit 100.0 : ℝ) = 100 := by norm_num
  simp only [xyzToRgb, Spec.xyz, Spec.tristimulus, tX, tY, tZ, sY, h100]
  generalize upQ Tables.myR Spectra.xBar = Xr at *
  generalize upQ Tables.myR Spectra.yBar = Yr at *
  generalize upQ Tables.myR Spectra.zBar = Zr at *
  generalize upQ Tables.myG Spectra.xBar = Xg at *
  generalize upQ Tables.myG Spectra.yBar = Yg at *
  generalize upQ Tables.myG Spectra.zBar = Zg at *
  generalize upQ Tables.myB Spectra.xBar = Xb at *
  generalize upQ Tables.myB Spectra.yBar = Yb at *
  generalize upQ Tables.myB Spectra.zBar = Zb at *
  generalize whiteQ Spectra.d65 Spectra.yBar 5 85 = W at *
  have hW' : (W:ℝ) ≠ 0 := by exact_mod_cast hW.ne'
  rw [mulX_def]
  have hdiv : ∀ a b c : ℝ, (⟨a, b, c⟩ : XYZ ℝ) / XYZ.fromScalar (100:ℝ) = ⟨a / 100, b / 100, c / 100⟩ :=
    fun a b c => rfl
  rw [hdiv]
  simp only [Shipped.srgb, ColorSpaceRGB.newWithMatrices]
  push_cast at a1 a2 a3 b1 b2 b3 c1 c2 c3
  have n1 := near_combine _ _ _ rgb.r rgb.g rgb.b m _ _ _ _ _ _ a1 b1 c1 hr hg hb
  have n2 := near_combine _ _ _ rgb.r rgb.g rgb.b m _ _ _ _ _ _ a2 b2 c2 hr hg hb
  have n3 := near_combine _ _ _ rgb.r rgb.g rgb.b m _ _ _ _ _ _ a3 b3 c3 hr hg hb
  have key : ∀ A e E u v : ℝ, |A| ≤ e * m → u - v = A → e ≤ E → |u - v| ≤ E * m := fun A e E u v h1 h2 h3 =>
    h2 ▸ h1.trans (mul_le_mul_of_nonneg_right h3 hm)
  refine ⟨key _ _ _ _ _ n1 ?_ (by norm_num), key _ _ _ _ _ n2 ?_ (by norm_num),
    key _ _ _ _ _ n3 ?_ (by norm_num)⟩
  all_goals
    simp only [ratLit]
    push_cast
    field_simp
    ring

/-- Not vacuous: the spectra load and every colour can be uplifted; an orange comes back within 3.4e-4. -/
example : ∃ il cmf s, Spectra.vspd (T := ℝ) Spectra.d65 = .ok il ∧ Spectra.cie1931 = .ok cmf ∧
    upliftMy (⟨1, 0.5, 0⟩ : RGBf ℝ) = .ok s ∧ ∃ N, ∀ fuel, N ≤ fuel → ∃ xyz M,
      s.toXyz fuel il cmf = .ok xyz ∧
      xyzToRgbMatrix (Shipped.srgb ratLit).white (Shipped.srgb ratLit) = .ok M ∧
      |(xyzToRgb M xyz).g - 0.5| ≤ 1.1e-4 := by
  have hd := C70_loads_real ⟨Spectra.d65, 300, 780, 5⟩ (by simp [Spec.shipped])
  obtain ⟨s, hs, -⟩ := C59_samples ⟨1, 0.5, 0⟩
  obtain ⟨N, h⟩ := C72_uplift_round_trip ⟨1, 0.5, 0⟩ 1 (by norm_num) (by norm_num [abs_le]) (by norm_num) _ _ hd
    cie1931_ok s hs
  refine ⟨_, _, s, hd, cie1931_ok, hs, N, fun fuel hf => ?_⟩
  obtain ⟨xyz, M, h1, h2, -, h3, -⟩ := h fuel hf
  exact ⟨xyz, M, h1, h2, by simpa using h3⟩

end CS

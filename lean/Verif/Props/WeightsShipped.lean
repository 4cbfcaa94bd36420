import Verif.Props.WeightsF
import Verif.Props.ToXyzShipped

/-!
# 10 nm spectra to XYZ in f64 with the shipped illuminants, observer and colour checker (C92)
-/

namespace CS

/-- C92 [F]: in f64, with a shipped D-series illuminant and the shipped observer, `to_xyz` of any 10 nm
reflectance on the grid 360 + 10k with values up to `V` is finite and within `1.5e-8 V + 1.5e-10 |exact|` of
the exact result in every channel. -/
theorem C92_shipped [Libm Fmt.b64] (hp : PowiAccurate Fmt.b64) (e : Spec.Listing) (he : e ∈ Spec.daylights)
    (il : VSPD (FP Fmt.b64)) (hil : Spectra.vspd e.table = .ok il) (IL : VSPD ℝ)
    (hIL : Spectra.vspd e.table = .ok IL) (cmf : CMF (FP Fmt.b64)) (CM : CMF ℝ)
    (hcmf : Spectra.cie1931 = .ok cmf) (hCM : Spectra.cie1931 = .ok CM)
    (V : ℝ) (hV : 1 / 2 ^ 16 ≤ V) (hV' : V ≤ 2 ^ 16) (s : VSPD (FP Fmt.b64)) (S : VSPD ℝ)
    (hs : Spec.Tracks (4 * Fmt.b64.u * V) s S) (hb : ∀ p ∈ S.samples, |p.v| ≤ V)
    (hi : S.shape.interval = .uniform 10) (a : ℤ)
    (hu : ∀ (k : ℕ) (p : Sample ℝ), S.samples[k]? = some p → p.nm = 360 + (a + k) * 10)
    (hlo : a ≤ 42) (hhi : 0 < a + S.samples.length) (hne : 0 < S.samples.length) :
    ∃ (N : ℕ) (R : XYZ ℝ), ∀ fuel, N ≤ fuel → S.toXyz fuel IL CM = .ok R ∧
      ∃ r, s.toXyz fuel il cmf = .ok r ∧
        Spec.CloseTo (1.5e-8 * V + 1.5e-10 * |R.x|) r.x R.x ∧
        Spec.CloseTo (1.5e-8 * V + 1.5e-10 * |R.y|) r.y R.y ∧
        Spec.CloseTo (1.5e-8 * V + 1.5e-10 * |R.z|) r.z R.z := by
  obtain ⟨ll, lx, ly, lz, hsum⟩ := daylight_ready e he il hil IL hIL cmf CM hcmf hCM
  obtain ⟨N, R, hN⟩ := C92_ten_nm (κ := 12) std_b64 hp s il cmf S IL CM hV hV' hs hb ll lx ly lz hi a hu hlo hhi hne
    (by norm_num) (by simpa using hsum 1 421 (by simp)) (by norm_num) (by rw [u_b64]; norm_num)
  refine ⟨N, R, fun fuel hfuel => ?_⟩
  obtain ⟨a, r, b, c⟩ := hN fuel hfuel
  have V0 : 0 < V := lt_of_lt_of_le (by positivity) hV
  have hB : ∀ X : ℝ, (1.1e7 * V + 1.1e5 * |X|) * 12 * (Fmt.b64.u : ℝ) ≤ 1.5e-8 * V + 1.5e-10 * |X| := by
    intro X
    have := abs_nonneg X
    rw [u_b64]
    norm_num
    linarith
  exact ⟨a, r, b, ⟨c.x.1, c.x.2.trans (hB _)⟩, ⟨c.y.1, c.y.2.trans (hB _)⟩, ⟨c.z.1, c.z.2.trans (hB _)⟩⟩

theorem checker_bound : (Spectra.checker.all fun e => e.2.all fun p => decide (|p.2| ≤ 1)) = true := by
  decide +kernel

theorem checker_grid : ∀ e ∈ Spectra.checker, OnGrid e.2 380 10 36 := by decide +kernel

/-- C92 [F]: every shipped colour-checker patch under every shipped D-series illuminant, in f64: `to_xyz` is
finite and within 1.5e-8 of the exact result, up to a relative 1.5e-10, in every channel. -/
theorem C92_patches [Libm Fmt.b64] (hp : PowiAccurate Fmt.b64) (e : Spec.Listing) (he : e ∈ Spec.daylights)
    (il : VSPD (FP Fmt.b64)) (hil : Spectra.vspd e.table = .ok il) (IL : VSPD ℝ)
    (hIL : Spectra.vspd e.table = .ok IL) (cmf : CMF (FP Fmt.b64)) (CM : CMF ℝ)
    (hcmf : Spectra.cie1931 = .ok cmf) (hCM : Spectra.cie1931 = .ok CM)
    (c : String × List (ℚ × ℚ)) (hc : c ∈ Spectra.checker) (s : VSPD (FP Fmt.b64)) (hs : Spectra.vspd c.2 = .ok s)
    (S : VSPD ℝ) (hS : Spectra.vspd c.2 = .ok S) :
    ∃ (N : ℕ) (R : XYZ ℝ), ∀ fuel, N ≤ fuel → S.toXyz fuel IL CM = .ok R ∧
      ∃ r, s.toXyz fuel il cmf = .ok r ∧
        Spec.CloseTo (1.5e-8 + 1.5e-10 * |R.x|) r.x R.x ∧
        Spec.CloseTo (1.5e-8 + 1.5e-10 * |R.y|) r.y R.y ∧
        Spec.CloseTo (1.5e-8 + 1.5e-10 * |R.z|) r.z R.z := by
  have hship : (⟨c.2, 380, 730, 10⟩ : Spec.Listing) ∈ Spec.shipped := by
    unfold Spec.shipped
    exact List.mem_append_right _ (List.mem_map.2 ⟨c, hc, rfl⟩)
  have hb : ∀ p ∈ c.2, |p.2| ≤ 1 := fun p hp =>
    of_decide_eq_true (List.all_eq_true.1 (List.all_eq_true.1 checker_bound c hc) p hp)
  have ls := shipped_loaded ⟨c.2, 380, 730, 10⟩ hship s hs S hS 1 (by norm_num) (by norm_num) hb (by norm_num)
    (by norm_num) (by norm_num)
  have hg := checker_grid c hc
  have hlen : c.2.length = 36 := hg.length
  rw [C70_loads_real _ hship] at hS
  cases hS
  have := C92_shipped hp e he il hil IL hIL cmf CM hcmf hCM 1 (by norm_num) (by norm_num) s _
    (by have := ls.tracks; rwa [Rat.cast_one] at this) (by have := ls.bound; rwa [Rat.cast_one] at this)
    (by simp [SpdShape.new]) 2
    (by
      intro k p hk
      rw [Spec.rows, List.getElem?_map, Option.map_eq_some_iff] at hk
      obtain ⟨q, hq, rfl⟩ := hk
      have h1 : (c.2.map Prod.fst)[k]? = some q.1 := by rw [List.getElem?_map, hq]; rfl
      rw [hg, List.getElem?_map, Option.map_eq_some_iff] at h1
      obtain ⟨j, hj, hq1⟩ := h1
      obtain ⟨hk36, rfl⟩ := List.getElem?_eq_some_iff.1 hj
      simp only [List.getElem_range] at hq1
      simp only [flt_lit, ← hq1]
      push_cast
      ring)
    (by norm_num) (by simp only [Spec.rows, List.length_map, hlen]; norm_num)
    (by simp only [Spec.rows, List.length_map, hlen]; norm_num)
  simpa using this

/-- Not vacuous: there are 24 patches, and `white_95` loads in f64 and under D65. -/
example : Spectra.checker.length = 24 := rfl

example : letI := idealLibm Fmt.b64
    ∃ (s il : VSPD (FP Fmt.b64)) (S IL : VSPD ℝ) (cmf : CMF (FP Fmt.b64)) (CM : CMF ℝ) (N : ℕ) (R : XYZ ℝ),
      Spectra.vspd Spectra.ccWhite95 = .ok s ∧ Spectra.vspd Spectra.ccWhite95 = .ok S ∧
      Spectra.vspd Spectra.d65 = .ok il ∧ Spectra.vspd Spectra.d65 = .ok IL ∧
      Spectra.cie1931 = .ok cmf ∧ Spectra.cie1931 = .ok CM ∧
      ∀ fuel, N ≤ fuel → S.toXyz fuel IL CM = .ok R ∧ ∃ r, s.toXyz fuel il cmf = .ok r ∧
        Spec.CloseTo (1.5e-8 + 1.5e-10 * |R.y|) r.y R.y := by
  letI := idealLibm Fmt.b64
  have hc : ("white_95", Spectra.ccWhite95) ∈ Spectra.checker := by simp [Spectra.checker]
  have hW : (⟨Spectra.ccWhite95, 380, 730, 10⟩ : Spec.Listing) ∈ Spec.shipped := by
    unfold Spec.shipped
    exact List.mem_append_right _ (List.mem_map.2 ⟨_, hc, rfl⟩)
  have hX : (⟨Spectra.xBar, 360, 830, 1⟩ : Spec.Listing) ∈ Spec.shipped := by simp [Spec.shipped]
  have hY : (⟨Spectra.yBar, 360, 830, 1⟩ : Spec.Listing) ∈ Spec.shipped := by simp [Spec.shipped]
  have hZ : (⟨Spectra.zBar, 360, 830, 1⟩ : Spec.Listing) ∈ Spec.shipped := by simp [Spec.shipped]
  have hD : (⟨Spectra.d65, 300, 780, 5⟩ : Spec.Listing) ∈ Spec.shipped := by simp [Spec.shipped]
  have w1 := C70_loads_ieee (f := Fmt.b64) (by simp [Fmt.b64]) _ hW
  have x1 := C70_loads_ieee (f := Fmt.b64) (by simp [Fmt.b64]) _ hX
  have y1 := C70_loads_ieee (f := Fmt.b64) (by simp [Fmt.b64]) _ hY
  have z1 := C70_loads_ieee (f := Fmt.b64) (by simp [Fmt.b64]) _ hZ
  have d1 := C70_loads_ieee (f := Fmt.b64) (by simp [Fmt.b64]) _ hD
  have w2 := C70_loads_real _ hW
  have d2 := C70_loads_real _ hD
  have c1 : ∃ cmf : CMF (FP Fmt.b64), Spectra.cie1931 = .ok cmf := by
    unfold Spectra.cie1931
    dsimp only at x1 y1 z1
    rw [x1, y1, z1]
    exact ⟨_, rfl⟩
  obtain ⟨cmf, c1⟩ := c1
  obtain ⟨N, R, hN⟩ := C92_patches (ideal_powi std_b64) ⟨Spectra.d65, 300, 780, 5⟩ (by simp [Spec.daylights]) _ d1 _ d2
    cmf _ c1 cie1931_ok _ hc _ w1 _ w2
  refine ⟨_, _, _, _, cmf, _, N, R, w1, w2, d1, d2, c1, cie1931_ok, fun fuel hf => ?_⟩
  obtain ⟨a, r, b, -, c, -⟩ := hN fuel hf
  exact ⟨a, r, b, c⟩

end CS

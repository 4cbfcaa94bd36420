import Verif.Props.ToXyzF
import Verif.Props.GridShipped

/-!
# Spectrum to XYZ in f64 with the shipped illuminants and observer (C91)
-/

namespace CS

/-- the shipped D-series illuminants -/
def Spec.daylights : List Spec.Listing :=
  [⟨Spectra.d50, 300, 780, 5⟩, ⟨Spectra.d55, 300, 780, 5⟩, ⟨Spectra.d60, 300, 830, 5⟩, ⟨Spectra.d65, 300, 780, 5⟩]

theorem daylights_grid : ∀ e ∈ Spec.daylights, OnGrid e.table 300 5 e.table.length ∧ 97 ≤ e.table.length := by
  decide +kernel

/-- the three curves of the observer -/
theorem cie_curves {T : Type} [Add T] [Sub T] [Mul T] [Div T] [Neg T] [Flt T] {c : CMF T}
    (h : Spectra.cie1931 = .ok c) : Spectra.vspd Spectra.xBar = .ok c.xBar ∧
      Spectra.vspd Spectra.yBar = .ok c.yBar ∧ Spectra.vspd Spectra.zBar = .ok c.zBar := by
  unfold Spectra.cie1931 at h
  cases hx : (Spectra.vspd Spectra.xBar : Res (VSPD T)) with
  | error p => rw [hx] at h; cases h
  | ok x =>
    cases hy : (Spectra.vspd Spectra.yBar : Res (VSPD T)) with
    | error p => rw [hx, hy] at h; cases h
    | ok y =>
      cases hz : (Spectra.vspd Spectra.zBar : Res (VSPD T)) with
      | error p => rw [hx, hy, hz] at h; cases h
      | ok z =>
        rw [hx, hy, hz] at h
        cases h
        exact ⟨rfl, rfl, rfl⟩

theorem daylights_bound : (Spec.daylights.all fun e => e.table.all fun p => decide (|p.2| ≤ 120)) = true := by
  decide +kernel

theorem bars_bound : ([Spectra.xBar, Spectra.yBar, Spectra.zBar].all fun t =>
    t.all fun p => decide (|p.2| ≤ 2)) = true := by decide +kernel

/-- the mean of illuminant times y-bar is at least a twelfth of 120 * 2 -/
theorem daylights_sum : (Spec.daylights.all fun e => ([(1, 421), (5, 85)] : List (ℕ × ℕ)).all fun mn =>
    decide (((mn.2 : ℕ) : ℚ) * 240 ≤ 12 * whiteQ e.table Spectra.yBar mn.1 mn.2)) = true := by decide +kernel

/-- a shipped listing loads with values off by a few roundings -/
theorem shipped_loaded [Libm Fmt.b64] (e : Spec.Listing) (he : e ∈ Spec.shipped) (s : VSPD (FP Fmt.b64))
    (hs : Spectra.vspd e.table = .ok s) (S : VSPD ℝ) (hS : Spectra.vspd e.table = .ok S)
    (V : ℚ) (hV : 1 / 2 ^ 16 ≤ V) (hV' : V ≤ 2 ^ 16) (hv : ∀ p ∈ e.table, |p.2| ≤ V)
    (h1 : e.start ≤ 780) (h2 : 360 ≤ e.stop) (h3 : e.start ≤ e.stop) : Spec.Loaded (V : ℝ) s S := by
  obtain ⟨t, w⟩ := C90_shipped e he s hs S hS V (hV.trans' (by norm_num)) (hV'.trans (by norm_num)) hv
  have hV0 : (0:ℝ) < V := by
    have : (0:ℚ) < V := lt_of_lt_of_le (by norm_num) hV
    exact_mod_cast this
  rw [C70_loads_real e he] at hS
  cases hS
  have hle : (V : ℝ) / 2 ^ 52 ≤ 4 * (Fmt.b64.u : ℝ) * V := by
    rw [u_b64]
    norm_num
    linarith
  refine ⟨by qcast hV, by qcast hV', ⟨t.samples.imp fun p q h => ⟨h.1, h.2, h.3, h.4.trans hle⟩, t.shape⟩, w, ?_, ?_⟩
  · intro p hp
    obtain ⟨q, hq, rfl⟩ := List.mem_map.1 hp
    simp only [flt_lit]
    exact_mod_cast hv q hq
  · simp only [SpdShape.new]
    have a1 : (e.start : ℝ) ≤ 780 := by exact_mod_cast h1
    have a2 : (360 : ℝ) ≤ e.stop := by exact_mod_cast h2
    have a3 : (e.start : ℝ) ≤ e.stop := by exact_mod_cast h3
    exact max_le (le_min (by norm_num) a2) (le_min a1 a3)

/-- a shipped illuminant and the shipped observer, ready for the floating-point theorems with `κ = 12` -/
theorem daylight_ready [Libm Fmt.b64] (e : Spec.Listing) (he : e ∈ Spec.daylights)
    (il : VSPD (FP Fmt.b64)) (hil : Spectra.vspd e.table = .ok il) (IL : VSPD ℝ)
    (hIL : Spectra.vspd e.table = .ok IL) (cmf : CMF (FP Fmt.b64)) (CM : CMF ℝ)
    (hcmf : Spectra.cie1931 = .ok cmf) (hCM : Spectra.cie1931 = .ok CM) :
    Spec.Loaded 120 il IL ∧ Spec.Loaded 2 cmf.xBar CM.xBar ∧ Spec.Loaded 2 cmf.yBar CM.yBar ∧
    Spec.Loaded 2 cmf.zBar CM.zBar ∧ ∀ m n : ℕ, (m, n) ∈ [(1, 421), (5, 85)] →
      (n : ℝ) * (120 * 2) ≤ 12 * ∑ k ∈ Finset.range n, resampled IL (360 + k * m) * resampled CM.yBar (360 + k * m) := by
  obtain ⟨hx, hy, hz⟩ := cie_curves hcmf
  obtain ⟨hX, hY, hZ⟩ := cie_curves hCM
  obtain ⟨g1, g2⟩ := daylights_grid e he
  have hld := loaded e.table g1 g2 IL CM hIL hCM
  have hship : e ∈ Spec.shipped := by
    simp only [Spec.daylights, List.mem_cons, List.not_mem_nil, or_false] at he
    rcases he with rfl | rfl | rfl | rfl <;> simp [Spec.shipped]
  have hst : e.start ≤ 780 ∧ 360 ≤ e.stop ∧ e.start ≤ e.stop := by
    simp only [Spec.daylights, List.mem_cons, List.not_mem_nil, or_false] at he
    rcases he with rfl | rfl | rfl | rfl <;> norm_num
  have hbb : ∀ t ∈ [Spectra.xBar, Spectra.yBar, Spectra.zBar], ∀ p ∈ t, |p.2| ≤ 2 := fun t ht p hp =>
    of_decide_eq_true (List.all_eq_true.1 (List.all_eq_true.1 bars_bound t ht) p hp)
  have ll := shipped_loaded e hship il hil IL hIL 120 (by norm_num) (by norm_num)
    (fun p hp => of_decide_eq_true (List.all_eq_true.1 (List.all_eq_true.1 daylights_bound e he) p hp))
    hst.1 hst.2.1 hst.2.2
  have lx := shipped_loaded ⟨Spectra.xBar, 360, 830, 1⟩ (by simp [Spec.shipped]) _ hx _ hX 2 (by norm_num)
    (by norm_num) (hbb _ (by simp)) (by norm_num) (by norm_num) (by norm_num)
  have ly := shipped_loaded ⟨Spectra.yBar, 360, 830, 1⟩ (by simp [Spec.shipped]) _ hy _ hY 2 (by norm_num)
    (by norm_num) (hbb _ (by simp)) (by norm_num) (by norm_num) (by norm_num)
  have lz := shipped_loaded ⟨Spectra.zBar, 360, 830, 1⟩ (by simp [Spec.shipped]) _ hz _ hZ 2 (by norm_num)
    (by norm_num) (hbb _ (by simp)) (by norm_num) (by norm_num) (by norm_num)
  simp only [Rat.cast_ofNat] at ll lx ly lz
  refine ⟨ll, lx, ly, lz, fun m n hmem => ?_⟩
  have hmn' : (n - 1) * m < 421 := by
    simp only [List.mem_cons, Prod.mk.injEq, List.not_mem_nil, or_false] at hmem
    rcases hmem with ⟨rfl, rfl⟩ | ⟨rfl, rfl⟩ <;> norm_num
  have hsum := of_decide_eq_true (List.all_eq_true.1 (List.all_eq_true.1 daylights_sum e he) (m, n) hmem)
  have hsum' : (n : ℝ) * 240 ≤ 12 * ((whiteQ e.table Spectra.yBar m n : ℚ) : ℝ) := by exact_mod_cast hsum
  rw [white_sum e.table Spectra.yBar IL CM.yBar m n hmn' hld.il hld.y]
  refine le_trans (le_of_eq ?_) hsum'
  ring

/-- C91 [F]: in f64, with a shipped D-series illuminant and the shipped observer, `to_xyz` of any reflectance
with values up to `V` at whole wavelengths and a whole interval other than 10 nm is finite and within
`2e-8 V + 1.1e-10 |exact|` of the exact result in every channel. -/
theorem C91_shipped [Libm Fmt.b64] (hp : PowiAccurate Fmt.b64) (e : Spec.Listing) (he : e ∈ Spec.daylights)
    (il : VSPD (FP Fmt.b64)) (hil : Spectra.vspd e.table = .ok il) (IL : VSPD ℝ)
    (hIL : Spectra.vspd e.table = .ok IL) (cmf : CMF (FP Fmt.b64)) (CM : CMF ℝ)
    (hcmf : Spectra.cie1931 = .ok cmf) (hCM : Spectra.cie1931 = .ok CM)
    (V : ℝ) (s : VSPD (FP Fmt.b64)) (S : VSPD ℝ) (hs : Spec.Loaded V s S) (i : ℕ)
    (hi : S.shape.interval = .uniform (i : ℝ)) (hi' : i ≤ 2 ^ 20) (h10 : i ≠ 10) :
    ∃ (N : ℕ) (R : XYZ ℝ), ∀ fuel, N ≤ fuel → S.toXyz fuel IL CM = .ok R ∧
      ∃ r, s.toXyz fuel il cmf = .ok r ∧
        Spec.CloseTo (2e-8 * V + 1.1e-10 * |R.x|) r.x R.x ∧ Spec.CloseTo (2e-8 * V + 1.1e-10 * |R.y|) r.y R.y ∧
        Spec.CloseTo (2e-8 * V + 1.1e-10 * |R.z|) r.z R.z := by
  obtain ⟨ll, lx, ly, lz, hsum⟩ := daylight_ready e he il hil IL hIL cmf CM hcmf hCM
  obtain ⟨m, n, hmn⟩ : ∃ m n : ℕ, (m, n) = if i = 5 then (5, 85) else (1, 421) := by
    split
    · exact ⟨5, 85, rfl⟩
    · exact ⟨1, 421, rfl⟩
  have hmem : (m, n) ∈ [(1, 421), (5, 85)] := by
    rw [hmn]; split <;> simp
  obtain ⟨N, R, hN⟩ := C91_to_xyz (κ := 12) std_b64 hp s il cmf S IL CM hs ll lx ly lz i m n hi hi' h10 hmn
    (by norm_num) (hsum m n hmem) (by norm_num) (by rw [u_b64]; norm_num)
  refine ⟨N, R, fun fuel hfuel => ?_⟩
  obtain ⟨a, r, b, c⟩ := hN fuel hfuel
  have V0 : 0 < V := lt_of_lt_of_le (by positivity) hs.lo
  have hB : ∀ X : ℝ, (1.4e7 * V + 8e4 * |X|) * 12 * (Fmt.b64.u : ℝ) ≤ 2e-8 * V + 1.1e-10 * |X| := by
    intro X
    have := abs_nonneg X
    rw [u_b64]
    norm_num
    linarith
  exact ⟨a, r, b, ⟨c.x.1, c.x.2.trans (hB _)⟩, ⟨c.y.1, c.y.2.trans (hB _)⟩, ⟨c.z.1, c.z.2.trans (hB _)⟩⟩

/-- Not vacuous: the shipped y-bar curve as a reflectance under D65 in f64. -/
example : letI := idealLibm Fmt.b64
    ∃ (s il : VSPD (FP Fmt.b64)) (S IL : VSPD ℝ) (cmf : CMF (FP Fmt.b64)) (CM : CMF ℝ) (N : ℕ) (R : XYZ ℝ),
      Spectra.vspd Spectra.yBar = .ok s ∧ Spectra.vspd Spectra.yBar = .ok S ∧
      Spectra.vspd Spectra.d65 = .ok il ∧ Spectra.vspd Spectra.d65 = .ok IL ∧
      Spectra.cie1931 = .ok cmf ∧ Spectra.cie1931 = .ok CM ∧
      ∀ fuel, N ≤ fuel → S.toXyz fuel IL CM = .ok R ∧ ∃ r, s.toXyz fuel il cmf = .ok r ∧
        Spec.CloseTo (4e-8 + 1.1e-10 * |R.y|) r.y R.y := by
  letI := idealLibm Fmt.b64
  have hX : (⟨Spectra.xBar, 360, 830, 1⟩ : Spec.Listing) ∈ Spec.shipped := by simp [Spec.shipped]
  have hY : (⟨Spectra.yBar, 360, 830, 1⟩ : Spec.Listing) ∈ Spec.shipped := by simp [Spec.shipped]
  have hZ : (⟨Spectra.zBar, 360, 830, 1⟩ : Spec.Listing) ∈ Spec.shipped := by simp [Spec.shipped]
  have hD : (⟨Spectra.d65, 300, 780, 5⟩ : Spec.Listing) ∈ Spec.shipped := by simp [Spec.shipped]
  have x1 := C70_loads_ieee (f := Fmt.b64) (by simp [Fmt.b64]) _ hX
  have y1 := C70_loads_ieee (f := Fmt.b64) (by simp [Fmt.b64]) _ hY
  have z1 := C70_loads_ieee (f := Fmt.b64) (by simp [Fmt.b64]) _ hZ
  have d1 := C70_loads_ieee (f := Fmt.b64) (by simp [Fmt.b64]) _ hD
  have y2 := C70_loads_real _ hY
  have d2 := C70_loads_real _ hD
  have c1 : ∃ cmf : CMF (FP Fmt.b64), Spectra.cie1931 = .ok cmf := by
    unfold Spectra.cie1931
    dsimp only at x1 y1 z1
    rw [x1, y1, z1]
    exact ⟨_, rfl⟩
  obtain ⟨cmf, c1⟩ := c1
  have hb : ∀ p ∈ Spectra.yBar, |p.2| ≤ 2 := fun p hp => of_decide_eq_true
    (List.all_eq_true.1 (List.all_eq_true.1 bars_bound Spectra.yBar (by simp)) p hp)
  have hs := shipped_loaded ⟨Spectra.yBar, 360, 830, 1⟩ hY _ y1 _ y2 2 (by norm_num) (by norm_num) hb
    (by norm_num) (by norm_num) (by norm_num)
  obtain ⟨N, R, hN⟩ := C91_shipped (ideal_powi std_b64) ⟨Spectra.d65, 300, 780, 5⟩ (by simp [Spec.daylights]) _ d1 _ d2
    cmf _ c1 cie1931_ok _ _ _ hs 1 rfl (by norm_num) (by norm_num)
  refine ⟨_, _, _, _, cmf, _, N, R, y1, y2, d1, d2, c1, cie1931_ok, fun fuel hf => ?_⟩
  obtain ⟨a, r, b, -, c, -⟩ := hN fuel hf
  refine ⟨a, r, b, c.1, c.2.trans (le_of_eq ?_)⟩
  push_cast; ring

end CS

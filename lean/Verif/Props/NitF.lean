import Verif.Props.ToXyzShipped
import Verif.Props.Nit
import Verif.Props.OffGrid
import Verif.Lemmas.FPNear

/-!
# Luminance of a spectrum in floating point (C104)
-/

namespace CS

section
variable {f : Fmt} [Libm f]

omit [Libm f] in
theorem big_abs (hf : Std f) {q : ℚ} (h : |(q : ℝ)| ≤ 2 ^ 100) : |q| ≤ 2 ^ f.emax := by
  have h' : |q| ≤ 2 ^ 100 := by exact_mod_cast h
  have := hf.wide.hmax
  norm_num at this h' ⊢
  linarith

/-- scaling a sum by 683 over the number of samples -/
theorem nit_scale (hf : Std f) {s : FP f} {G A k : ℝ} {n : ℕ} (hs : s.isFinite = true) (hn0 : 0 < n)
    (hn : n ≤ 1024) (hk : 0 ≤ k) (hk' : k ≤ 10 ^ 5) (hA : 1 / 2 ^ 40 ≤ A) (hA' : A ≤ 2 ^ 40)
    (h1 : |(s.val : ℝ) - G| ≤ n * (k * (f.u * A))) (h2 : |G| ≤ n * (1.4 * A)) :
    (s * Flt.lit 683.0 / Flt.ofNat n).isFinite = true ∧
    |((s * Flt.lit 683.0 / Flt.ofNat n).val : ℝ) - G * 683 / n| ≤ 683 * (k + 3) * f.u * A := by
  obtain ⟨u0, u1, e1, e0⟩ := u_facts hf
  obtain ⟨l1, l2⟩ := lit_natural hf 683 (by norm_num) (by norm_num) 683.0 (by norm_num)
  have hw := Whole.ofNat hf n (hn.trans (by norm_num))
  have n1 : (1:ℝ) ≤ n := by exact_mod_cast hn0
  have n2 : (n:ℝ) ≤ 1024 := by exact_mod_cast hn
  have n0 : (0:ℝ) < n := by linarith
  have A0 : 0 < A := lt_of_lt_of_le (by positivity) hA
  have uA : f.u * A ≤ 1 / 2 ^ 24 * A := mul_le_mul_of_nonneg_right u1 A0.le
  have uA0 : 0 < f.u * A := by positivity
  have hku : k * (f.u * A) ≤ 0.006 * A := by
    calc k * (f.u * A) ≤ 10 ^ 5 * (1 / 2 ^ 24 * A) := mul_le_mul hk' uA uA0.le (by norm_num)
      _ ≤ _ := by norm_num; linarith
  have hsv : |(s.val : ℝ)| ≤ n * (1.406 * A) := by
    have t := abs_sub_abs_le_abs_sub (s.val : ℝ) G
    have : (n:ℝ) * (k * (f.u * A)) ≤ n * (0.006 * A) := mul_le_mul_of_nonneg_left hku n0.le
    have e : (n:ℝ) * (1.406 * A) = n * (1.4 * A) + n * (0.006 * A) := by ring
    rw [e]; linarith
  have big : |(s.val : ℝ) * 683| ≤ n * (961 * A) := by
    rw [abs_mul, abs_of_pos (by norm_num : (0:ℝ) < 683)]
    have : (0:ℝ) < n * A := by positivity
    norm_num at hsv ⊢
    linarith
  obtain ⟨m1, m2⟩ := FP.mul_err hs l1 (by
    have : |((s.val * (Flt.lit 683.0 : FP f).val : ℚ) : ℝ)| ≤ 2 ^ 100 := by
      push_cast
      rw [show (Flt.lit 683.0 : FP f).val = 683 from l2]
      push_cast
      refine big.trans ?_
      calc (n:ℝ) * (961 * A) ≤ 1024 * (961 * 2 ^ 40) := mul_le_mul n2 (by linarith) (by positivity) (by norm_num)
        _ ≤ _ := by norm_num
    exact big_abs hf this)
  rw [l2] at m2
  have m2' : |((s * Flt.lit 683.0).val : ℝ) - s.val * 683| ≤ |(s.val : ℝ) * 683| * f.u + f.eta := by
    exact_mod_cast m2
  have etaA : 2 * f.eta ≤ 100 * (f.u * A) := by
    have : f.u * (1 / 2 ^ 40) ≤ f.u * A := mul_le_mul_of_nonneg_left hA u0.le
    norm_num at this e1 ⊢
    linarith
  have m3 : |((s * Flt.lit 683.0).val : ℝ) - s.val * 683| ≤ n * (961 * A * f.u) + f.eta := by
    have := mul_le_mul_of_nonneg_right big u0.le
    have e : (n:ℝ) * (961 * A) * f.u = n * (961 * A * f.u) := by ring
    rw [e] at this
    linarith
  have hT : |((s * Flt.lit 683.0).val : ℝ)| ≤ n * (962 * A) := by
    have t := abs_sub_abs_le_abs_sub ((s * Flt.lit 683.0).val : ℝ) (s.val * 683)
    have h3 : (n:ℝ) * (961 * A * f.u) ≤ n * (0.5 * A) :=
      mul_le_mul_of_nonneg_left (by norm_num at uA ⊢; linarith) n0.le
    have h4 : (f.eta : ℝ) ≤ n * (0.1 * A) := by
      have : 0.1 * A ≤ n * (0.1 * A) := le_mul_of_one_le_left (by positivity) n1
      norm_num at uA this ⊢
      linarith
    have e : (n:ℝ) * (962 * A) = n * (961 * A) + n * (0.5 * A) + n * (0.1 * A) + n * (0.4 * A) := by ring
    have : 0 ≤ (n:ℝ) * (0.4 * A) := by positivity
    rw [e]
    linarith
  have hQ : |((s * Flt.lit 683.0).val : ℝ) / n| ≤ 962 * A := by
    rw [abs_div, abs_of_pos n0, div_le_iff₀ n0, mul_comm]; exact hT
  have hv : (Flt.ofNat n : FP f).val = n := hw.val
  obtain ⟨d1, d2⟩ := FP.div_err m1 hw.fin (by rw [hv]; exact_mod_cast hn0.ne') (by
    refine big_abs hf ?_
    rw [hv]
    push_cast
    exact hQ.trans (by norm_num at hA' ⊢; linarith))
  refine ⟨d1, ?_⟩
  rw [hv] at d2
  have d2' : |((s * Flt.lit 683.0 / Flt.ofNat n).val : ℝ) - (s * Flt.lit 683.0).val / n|
      ≤ |((s * Flt.lit 683.0).val : ℝ) / n| * f.u + f.eta := by exact_mod_cast d2
  have d3 := d2'.trans (add_le_add_left (mul_le_mul_of_nonneg_right hQ u0.le) _)
  have q1 : |((s * Flt.lit 683.0).val : ℝ) / n - s.val * 683 / n| ≤ 961 * A * f.u + f.eta := by
    rw [← sub_div, abs_div, abs_of_pos n0, div_le_iff₀ n0]
    have : (f.eta : ℝ) ≤ n * f.eta := le_mul_of_one_le_left e0.le n1
    linarith
  have q2 : |(s.val : ℝ) * 683 / n - G * 683 / n| ≤ 683 * (k * (f.u * A)) := by
    rw [← sub_div, ← sub_mul, abs_div, abs_of_pos n0, div_le_iff₀ n0, abs_mul,
      abs_of_pos (by norm_num : (0:ℝ) < 683)]
    linarith
  have t1 := abs_sub_le ((s * Flt.lit 683.0 / Flt.ofNat n).val : ℝ) ((s * Flt.lit 683.0).val / n) (s.val * 683 / n)
  have t2 := abs_sub_le ((s * Flt.lit 683.0 / Flt.ofNat n).val : ℝ) (s.val * 683 / n) (G * 683 / n)
  have e : 683 * (k + 3) * f.u * A = 683 * (k * (f.u * A)) + 2049 * (f.u * A) := by ring
  rw [e]
  linarith

/-! ## C104 -/

/-- C104 [F]: the luminance of a spectrum sampled at whole wavelengths (up to 1024 of them), with the observer
resampled to it, is the exact luminance of the exact spectrum within `683 * 10400` roundings of the product of the
largest values. -/
theorem C104_nit (hf : Std f) (hp : PowiAccurate f) (Vs Vc : ℝ) (s : VSPD (FP f)) (S : VSPD ℝ)
    (hlo : 1 / 2 ^ 16 ≤ Vs) (hhi : Vs ≤ 2 ^ 16) (ht : Spec.Tracks (4 * f.u * Vs) s S)
    (hv : ∀ p ∈ S.samples, |p.v| ≤ Vs) (lo hi i : ℕ) (hsh : S.shape = SpdShape.new (lo : ℝ) hi i) (hi0 : 0 < i)
    (hb : hi ≤ 2 ^ 20) (hib : i ≤ 2 ^ 20) (h0 : S.samples ≠ []) (hn : S.samples.length ≤ 1024)
    (cmf : CMF (FP f)) (CM : CMF ℝ) (hc : Spec.Loaded Vc cmf.yBar CM.yBar)
    (hov : max (lo : ℝ) CM.yBar.shape.start ≤ min (hi : ℝ) CM.yBar.shape.end) :
    ∃ (N : ℕ) (R : ℝ), ∀ fuel, N ≤ fuel → spdToNit fuel S CM = .ok R ∧
      ∃ r, spdToNit fuel s cmf = .ok r ∧ Spec.CloseTo (683 * 10400 * f.u * (Vs * Vc)) r R := by
  obtain ⟨u0, u1, -⟩ := hf.u_bounds
  have V0 : 0 < Vc := lt_of_lt_of_le (by positivity) hc.lo
  have S0 : 0 < Vs := lt_of_lt_of_le (by positivity) hlo
  have clo := hc.lo
  have chi := hc.hi
  have huV : f.u * Vc ≤ 1 / 2 ^ 24 * Vc := mul_le_mul_of_nonneg_right u1 V0.le
  obtain ⟨N, R, hN⟩ := C90_align hf hp cmf.yBar CM.yBar _ hc.tracks hc.grid (Vc * (1 + 1 / 2 ^ 20))
    (by norm_num at clo ⊢; linarith) (by norm_num at chi ⊢; linarith)
    (by
      intro p hp
      have := hc.bound p hp
      norm_num at huV ⊢; linarith) s.shape lo hi i hi0 hb hib (hsh ▸ ht.shape) hov
  have hRv : ∀ p ∈ R.samples, |p.v| ≤ 89 / 64 * Vc := by
    obtain ⟨a, z, ha, hz, ea, ez⟩ := WholeGrid.bounds hc.grid
    have six := hc.grid.six
    obtain ⟨N', hN'⟩ := C46_align_exact CM.yBar lo hi i
      ⟨by omega, hc.grid.asc, hc.grid.start, hc.grid.stop, hov⟩ (by exact_mod_cast hi0) _ _ _ rfl rfl rfl (by
        rw [ea, ez, ← Nat.cast_max, ← Nat.cast_min]
        have h1 : ((min hi z : ℕ) : ℝ) ≤ 2 ^ 20 := by exact_mod_cast (by omega : min hi z ≤ 2 ^ 20)
        have h2 : (1 : ℝ) ≤ i := by exact_mod_cast hi0
        have h3 : (0 : ℝ) ≤ ((max lo a : ℕ) : ℝ) := by positivity
        rw [div_lt_iff₀ (by linarith)]
        nlinarith)
    have e := (hN (max N N') (le_max_left _ _)).1
    rw [hN' _ (le_max_right _ _)] at e
    have e' := Except.ok.inj e
    intro p hp
    rw [← e'] at hp
    simp only [List.mem_append, List.mem_map] at hp
    rcases hp with (⟨k, _, rfl⟩ | ⟨k, _, rfl⟩) | ⟨k, _, rfl⟩ <;> exact resampled_abs hc.grid hc.bound _
  have len : s.samples.length = S.samples.length := ht.len
  refine ⟨N, dotSum S.values R.values * 683 / S.samples.length, fun fuel hfuel => ?_⟩
  obtain ⟨r1, r, r2, r3⟩ := hN fuel hfuel
  have er : spdToNit fuel s cmf = .ok (dotSum s.values r.values * Flt.lit 683.0 / Flt.ofNat s.samples.length) := by
    unfold spdToNit
    rw [r2]
    rfl
  refine ⟨nit_eq fuel S CM R (hsh ▸ r1), _, er, ?_⟩
  have T1 : List.Forall₂ (fun a X => Tr Vs a X 1 4) s.values S.values := ht.values (by simpa using hv)
  have T2 : List.Forall₂ (fun a X => Tr Vc a X (89 / 64) 8950) r.values R.values := by
    have r3' : Spec.Tracks (8950 * f.u * Vc) r R := by
      refine ⟨r3.samples.imp fun p q t => ⟨t.1, t.2, t.3, t.4.trans ?_⟩, r3.shape⟩
      have : 0 ≤ f.u * Vc := by positivity
      have e : 8940 * (f.u : ℝ) * (Vc * (1 + 1 / 2 ^ 20)) + 89 / 64 * (4 * f.u * Vc) =
        (8940 * (1 + 1 / 2 ^ 20) + 89 / 16) * (f.u * Vc) := by ring
      rw [e, mul_assoc]
      exact mul_le_mul_of_nonneg_right (by norm_num) this
    exact r3'.values hRv
  have c1 : 1 / 2 ^ 32 ≤ Vs * Vc := by
    calc (1:ℝ) / 2 ^ 32 = 1 / 2 ^ 16 * (1 / 2 ^ 16) := by norm_num
      _ ≤ _ := mul_le_mul hlo clo (by positivity) S0.le
  have c2 : Vs * Vc ≤ 2 ^ 32 := by
    calc _ ≤ (2:ℝ) ^ 16 * 2 ^ 16 := mul_le_mul hhi chi V0.le (by positivity)
      _ = _ := by norm_num
  have SC : Scale (Vs * Vc) := ⟨by norm_num at c1 ⊢; linarith, by norm_num at c2 ⊢; linarith⟩
  have T3 : List.Forall₂ (fun a X => Tr (Vs * Vc) a X (1 * (89 / 64)) 8960)
      (List.zipWith (· * ·) s.values r.values) (List.zipWith (· * ·) S.values R.values) := by
    rw [← List.map_uncurry_zip_eq_zipWith, ← List.map_uncurry_zip_eq_zipWith, List.forall₂_map_left_iff,
      List.forall₂_map_right_iff]
    exact (zip_sim T1 T2).imp fun a b h => Tr.mul hf S0 V0 SC h.1 h.2
  have n0 : 0 < S.samples.length := List.length_pos_iff.2 h0
  obtain ⟨g1, g2, g3⟩ := fsum_tr hf SC (by norm_num) (by norm_num) (by norm_num) (by norm_num) T3 S.samples.length
    (by simp only [List.length_zipWith, VSPD.values, List.length_map]; omega) hn
  have nr : (S.samples.length : ℝ) ≤ 1024 := by exact_mod_cast hn
  have n0r : (0:ℝ) ≤ S.samples.length := by positivity
  have uV : 0 ≤ f.u * (Vs * Vc) := by positivity
  obtain ⟨a1, a2⟩ := nit_scale hf (k := 10397) (A := Vs * Vc) g1 n0 hn (by norm_num) (by norm_num)
    (by norm_num at c1 ⊢; linarith) (by norm_num at c2 ⊢; linarith)
    (g2.trans (mul_le_mul_of_nonneg_left (mul_le_mul_of_nonneg_right (by norm_num; linarith) uV) n0r))
    (g3.trans (mul_le_mul_of_nonneg_left (by
      have : 0 ≤ Vs * Vc := by positivity
      norm_num; linarith) n0r))
  rw [dotSum_eq, len]
  refine ⟨a1, a2.trans (le_of_eq ?_)⟩
  ring

end

/-- C104 [F]: in f64, with the shipped observer, the luminance of a shipped D-series illuminant is within 2e-7 nit
of the exact one. -/
theorem C104_shipped [Libm Fmt.b64] (hp : PowiAccurate Fmt.b64) (e : Spec.Listing) (he : e ∈ Spec.daylights)
    (il : VSPD (FP Fmt.b64)) (hil : Spectra.vspd e.table = .ok il) (IL : VSPD ℝ)
    (hIL : Spectra.vspd e.table = .ok IL) (cmf : CMF (FP Fmt.b64)) (CM : CMF ℝ)
    (hcmf : Spectra.cie1931 = .ok cmf) (hCM : Spectra.cie1931 = .ok CM) :
    ∃ (N : ℕ) (R : ℝ), ∀ fuel, N ≤ fuel → spdToNit fuel IL CM = .ok R ∧
      ∃ r, spdToNit fuel il cmf = .ok r ∧ Spec.CloseTo 2e-7 r R := by
  obtain ⟨h1, -, h2, -, -⟩ := daylight_ready e he il hil IL hIL cmf CM hcmf hCM
  have hship : e ∈ Spec.shipped := by
    simp only [Spec.daylights, List.mem_cons, List.not_mem_nil, or_false] at he
    rcases he with rfl | rfl | rfl | rfl <;> simp [Spec.shipped]
  have hnum : e.start ≤ 780 ∧ 360 ≤ e.stop ∧ e.start ≤ e.stop ∧ e.start ≤ 830 ∧ 0 < e.interval ∧
      e.stop ≤ 2 ^ 20 ∧ e.interval ≤ 2 ^ 20 := by
    simp only [Spec.daylights, List.mem_cons, List.not_mem_nil, or_false] at he
    rcases he with rfl | rfl | rfl | rfl <;> norm_num
  have hlen : e.table.length ≤ 1024 := by
    have : ∀ e ∈ Spec.daylights, e.table.length ≤ 1024 := by decide +kernel
    exact this e he
  have sh : IL.shape = SpdShape.new (e.start : ℝ) e.stop e.interval ∧ IL.samples.length ≤ 1024 := by
    have := hIL
    rw [C70_loads_real e hship] at this
    cases this
    exact ⟨rfl, by simpa [Spec.rows] using hlen⟩
  have six := h1.grid.six
  have csh : CM.yBar.shape.start = 360 ∧ CM.yBar.shape.end = 830 := by
    obtain ⟨-, hY, -⟩ := cie_curves hCM
    rw [C70_loads_real ⟨Spectra.yBar, 360, 830, 1⟩ (by simp [Spec.shipped])] at hY
    cases hY' : CM.yBar with
    | mk a b =>
      rw [hY'] at hY
      have := Except.ok.inj hY
      cases this
      norm_num [SpdShape.new]
  obtain ⟨N, R, hN⟩ := C104_nit std_b64 hp 120 2 il IL (by norm_num) (by norm_num) h1.tracks h1.bound _ _ _ sh.1
    hnum.2.2.2.2.1 hnum.2.2.2.2.2.1 hnum.2.2.2.2.2.2 (by intro h0; rw [h0] at six; simp at six) sh.2 cmf CM h2 (by
      rw [csh.1, csh.2]
      refine max_le (le_min ?_ ?_) (le_min ?_ ?_)
      · exact_mod_cast hnum.2.2.1
      · exact_mod_cast hnum.2.2.2.1
      · exact_mod_cast hnum.2.1
      · norm_num)
  refine ⟨N, R, fun fuel hfuel => ?_⟩
  obtain ⟨a, r, b, c, d⟩ := hN fuel hfuel
  refine ⟨a, r, b, c, d.trans ?_⟩
  rw [u_b64]
  norm_num

/-- the hypotheses are met: the spectra load, and the rounded exact powers are accurate -/
example : letI := idealLibm Fmt.b64
    PowiAccurate Fmt.b64 ∧ (⟨Spectra.d65, 300, 780, 5⟩ : Spec.Listing) ∈ Spec.daylights ∧
    (∃ il : VSPD (FP Fmt.b64), Spectra.vspd Spectra.d65 = .ok il) ∧ ∃ IL : VSPD ℝ, Spectra.vspd Spectra.d65 = .ok IL :=
  letI := idealLibm Fmt.b64
  ⟨ideal_powi std_b64, by simp [Spec.daylights],
    ⟨_, C70_loads_ieee (by decide) ⟨Spectra.d65, 300, 780, 5⟩ (by simp [Spec.shipped])⟩,
    ⟨_, C70_loads_real ⟨Spectra.d65, 300, 780, 5⟩ (by simp [Spec.shipped])⟩⟩

end CS

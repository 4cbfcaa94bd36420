import Verif.Props.ToXyzLinear

/-!
# Photometric conversion (C60)
-/

namespace CS

theorem nit_eq (fuel : ℕ) (s : VSPD ℝ) (cmf : CMF ℝ) (c : VSPD ℝ)
    (h : cmf.yBar.align fuel s.shape = .ok c) :
    spdToNit fuel s cmf = .ok (dotSum s.values c.values * 683 / s.samples.length) := by
  unfold spdToNit
  rw [h]
  simp only [bind, Except.bind]
  have e : (Flt.lit 683.0 : ℝ) = 683 := by norm_num
  rw [e]; rfl

/-- C60 [R]: for a spectrum of `n` samples on `lo, lo + i, ...` (ending at `hi`), `spd_to_nit` is 683 times
the mean over its samples of the sample times the y-bar function at that sample's wavelength
(`resampled`: Sprague interpolation inside the range of y-bar, its end value outside). -/
theorem C60_formula (s : VSPD ℝ) (cmf : CMF ℝ) (lo hi i : ℝ) (n : ℕ) (hs : s.shape = SpdShape.new lo hi i)
    (hlen : s.samples.length = n) (hi0 : 0 < i) (hn : ⌊(hi - lo) / i⌋₊ + 1 = n)
    (hfit : (hi - lo) / i < 2 ^ 64) (hy : Spans cmf.yBar lo hi i)
    (hw : ∀ k : ℕ, ∀ p, s.samples[k]? = some p → p.nm = lo + k * i) :
    ∃ N, ∀ fuel, N ≤ fuel → spdToNit fuel s cmf =
      .ok (683 / n * (s.samples.map fun p => p.v * resampled cmf.yBar p.nm).sum) := by
  obtain ⟨N, hN⟩ := hy.align hi0 n hn hfit
  refine ⟨N, fun fuel hf => ?_⟩
  have h := hN fuel hf
  rw [← hs] at h
  rw [nit_eq fuel s cmf _ h, onGrid_values, dotSum_eq, hlen]
  congr 1
  have : (List.zipWith (· * ·) s.values ((List.range n).map fun k : ℕ =>
      resampled cmf.yBar (lo + k * i))) = s.samples.map fun p => p.v * resampled cmf.yBar p.nm := by
    apply List.ext_getElem
    · simp [VSPD.values, hlen]
    · intro k hk hk'
      have hk2 : k < s.samples.length := by simpa using hk'
      simp only [VSPD.values, List.getElem_zipWith, List.getElem_map, List.getElem_range]
      rw [hw k _ (List.getElem?_eq_getElem hk2)]
  rw [this]
  ring

/-- C60 [R]: `spd_to_nit` is linear in the spectrum: for `w = a*u + b*v` (on the same wavelengths) the three
calls all return, with results in the same relation, or all panic in the same way. -/
theorem C60_linear (a b : ℝ) (u v w : VSPD ℝ) (cmf : CMF ℝ) (fuel : ℕ) (h : IsLin a b u v w) :
    LinRes (fun p q r => r = a * p + b * q) (spdToNit fuel u cmf) (spdToNit fuel v cmf)
      (spdToNit fuel w cmf) := by
  unfold spdToNit VSPD.len
  rw [h.shape₁, h.shape₂, h.samples.length.1, h.samples.length.2]
  refine (LinRes.refl _).bind ?_
  rintro _ _ c ⟨rfl, rfl⟩
  have hv := h.samples.values
  change LinV a b u.values v.values w.values at hv
  show _ = _
  rw [dotSum_eq, dotSum_eq, dotSum_eq, (hv.zipMulRight c.values).sum]
  ring

/-- C60 [R]: the zero spectrum gives 0 (when the call returns). -/
theorem C60_zero (s : VSPD ℝ) (cmf : CMF ℝ) (fuel : ℕ) (h0 : ∀ p ∈ s.samples, p.v = 0)
    (_hne : s.samples ≠ []) (r : ℝ) (hr : spdToNit fuel s cmf = .ok r) : r = 0 := by
  cases hc : cmf.yBar.align fuel s.shape with
  | error e => unfold spdToNit at hr; rw [hc] at hr; cases hr
  | ok c =>
    rw [nit_eq fuel s cmf c hc, dotSum_eq] at hr
    injection hr with hr
    rw [← hr]
    have : (List.zipWith (· * ·) s.values c.values).sum = 0 := by
      apply List.sum_eq_zero
      intro x hx
      obtain ⟨k, hk, rfl⟩ := List.mem_iff_getElem.1 hx
      have hk2 : k < s.samples.length := by
        simp [VSPD.values] at hk; omega
      simp only [VSPD.values, List.getElem_zipWith, List.getElem_map]
      rw [h0 _ (List.getElem_mem hk2), zero_mul]
    rw [this]; simp

/-- C60 [G]: a spectrum with varying intervals makes `spd_to_nit` panic, whatever the colour-matching
functions. -/
theorem C60_varying {T : Type} [Add T] [Sub T] [Mul T] [Div T] [Neg T] [Flt T] (fuel : ℕ) (s : VSPD T)
    (cmf : CMF T) (hs : s.shape.interval = .varying) : ∃ e, spdToNit fuel s cmf = .error e := by
  have : ∃ e, cmf.yBar.align fuel s.shape = .error e := by
    unfold VSPD.align VSPD.interpolate
    cases Sprague.new cmf.yBar with
    | error e => exact ⟨e, rfl⟩
    | ok p =>
      refine ⟨.assert, ?_⟩
      simp only [bind, Except.bind, SpdShape.wavelengths, SpdShape.iter, hs]
  obtain ⟨e, he⟩ := this
  refine ⟨e, ?_⟩
  unfold spdToNit
  rw [he]; rfl

/-- Not vacuous: a spectrum of value 2 at 400, 410, ..., 700 against a y-bar of 1 gives 683 * 2; the
hypotheses of `C60_formula` hold. -/
example : ∃ N, ∀ fuel, N ≤ fuel → spdToNit fuel (onGrid 400 700 10 31 fun _ => 2)
    ⟨flatTable 2, flatTable 1, flatTable 3⟩ = .ok (683 * 2) := by
  have hsp : Spans (flatTable 1) 400 700 10 :=
    onGrid_spans _ _ _ _ _ one_pos (by norm_num) (by norm_num) _ _ _ (by norm_num) (Or.inl (by norm_num))
      (Or.inl (by norm_num))
  obtain ⟨N, hN⟩ := C60_formula (onGrid 400 700 10 31 fun _ => 2) ⟨flatTable 2, flatTable 1, flatTable 3⟩
    400 700 10 31 rfl (onGrid_length _ _ _ _ _) (by norm_num) (by norm_num) (by norm_num) hsp
    (fun k p hp => by
      by_cases hk : k < 31
      · rw [onGrid_get _ _ _ _ _ _ hk] at hp; injection hp with hp; rw [← hp]
      · rw [List.getElem?_eq_none (by rw [onGrid_length]; omega)] at hp; cases hp)
  refine ⟨N, fun fuel hf => ?_⟩
  rw [hN fuel hf]
  congr 1
  have : ∀ k ∈ List.range 31, (2:ℝ) * resampled (flatTable 1) (400 + (k:ℕ) * 10) = 2 := by
    intro k hk
    have hk := List.mem_range.1 hk
    have e2 := onGrid_resampled_table (fun _ => (1:ℝ)) (40 + k * 10) (by omega)
    push_cast at e2
    rw [show (400:ℝ) + (k:ℕ) * 10 = 360 + (40 + (k:ℕ) * 10) by ring, e2]; norm_num
  unfold onGrid
  rw [List.map_map]
  change _ * ((List.range 31).map fun k : ℕ => (2:ℝ) * resampled (flatTable 1) (400 + (k:ℕ) * 10)).sum = _
  rw [List.map_congr_left this]
  norm_num

end CS

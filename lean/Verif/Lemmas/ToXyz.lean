import Verif.Props.Resample
import Verif.Props.Linear
import Verif.Props.Weights

/-!
# Lemmas for spectrum to XYZ: aligned spectra in closed form
-/

namespace CS

/-- The value a spectrum is given at `x` when it is aligned to a grid: the Sprague interpolation
inside its range, the value at the end of its range outside. -/
noncomputable def resampled (s : VSPD ℝ) (x : ℝ) : ℝ :=
  match spragueEval s (max s.shape.start (min x s.shape.end)) with
  | .ok v => v
  | .error _ => 0

/-- the spectrum with `n` samples `f` at `lo`, `lo + i`, `lo + 2i`, ... -/
def onGrid (lo hi i : ℝ) (n : ℕ) (f : ℝ → ℝ) : VSPD ℝ :=
  ⟨(List.range n).map fun k : ℕ => ⟨lo + k * i, f (lo + k * i)⟩, SpdShape.new lo hi i⟩

theorem onGrid_length (lo hi i : ℝ) (n : ℕ) (f : ℝ → ℝ) : (onGrid lo hi i n f).samples.length = n := by
  simp [onGrid]

theorem onGrid_get (lo hi i : ℝ) (n : ℕ) (f : ℝ → ℝ) (k : ℕ) (hk : k < n) :
    (onGrid lo hi i n f).samples[k]? = some ⟨lo + k * i, f (lo + k * i)⟩ := by
  simp [onGrid, hk]

theorem onGrid_values (lo hi i : ℝ) (n : ℕ) (f : ℝ → ℝ) :
    (onGrid lo hi i n f).values = (List.range n).map fun k : ℕ => f (lo + k * i) := by
  simp [onGrid, VSPD.values, Function.comp_def]

theorem onGrid_congr (lo hi i : ℝ) (n : ℕ) (f g : ℝ → ℝ)
    (h : ∀ k : ℕ, k < n → f (lo + k * i) = g (lo + k * i)) : onGrid lo hi i n f = onGrid lo hi i n g := by
  unfold onGrid
  congr 1
  refine List.map_congr_left fun k hk => ?_
  rw [h k (List.mem_range.1 hk)]

/-- aligning to a grid of `n` points, in closed form -/
theorem align_eq (s : VSPD ℝ) (lo hi i : ℝ) (n : ℕ) (a b z : Sample ℝ)
    (h0 : s.samples[0]? = some a) (h1 : s.samples[1]? = some b)
    (hz : s.samples.getLast? = some z) (hab : a.nm < b.nm)
    (hl : a.nm - 2 * (b.nm - a.nm) ≤ s.shape.start) (hr : s.shape.end < z.nm + 2 * (b.nm - a.nm))
    (hpos : 0 < i) (hov : max lo s.shape.start ≤ min hi s.shape.end)
    (hn : ⌊(hi - lo) / i⌋₊ + 1 = n) (hfit : (hi - lo) / i < 2 ^ 64)
    (hgl : s.shape.start ≤ lo ∨ ∃ j : ℕ, s.shape.start = lo + j * i)
    (hgr : hi ≤ s.shape.end ∨ ∃ j : ℕ, s.shape.end = lo + j * i) :
    ∃ N, ∀ fuel, N ≤ fuel → s.align fuel (SpdShape.new lo hi i) =
      .ok (onGrid lo hi i n (resampled s)) := by
  obtain ⟨N, r, hr1, hsh, hw, hin, hlt, hgt⟩ := C46_align_partial s (SpdShape.new lo hi i) i a b z h0
    h1 hz hab hl hr rfl hpos hov hfit hgl hgr
  refine ⟨N, fun fuel hf => ?_⟩
  rw [hr1 fuel hf]
  congr 1
  have hse : s.shape.start ≤ s.shape.end :=
    le_trans (le_max_right _ _) (le_trans hov (min_le_right _ _))
  have hlohi : lo ≤ hi := le_trans (le_max_left _ _) (le_trans hov (min_le_left _ _))
  obtain ⟨hlen, hnth, -⟩ := (C37_real (SpdShape.new lo hi i) i rfl hpos.ne').2 _ hw
  have hlen' : r.samples.length = n := by
    have : r.wavelengths.length = n := by rw [hlen]; exact hn
    simpa [VSPD.wavelengths] using this
  have hval : ∀ p ∈ r.samples, p.v = resampled s p.nm := by
    intro p hp
    unfold resampled
    rcases lt_or_ge p.nm s.shape.start with h | h
    · rw [min_eq_left (by linarith), max_eq_left h.le, hlt p hp h]
    · rcases lt_or_ge s.shape.end p.nm with h' | h'
      · rw [min_eq_right h'.le, max_eq_right hse, hgt p hp h']
      · rw [min_eq_left h', max_eq_right h, hin p hp h h']
  cases r with
  | mk samples shape =>
    simp only at hsh
    subst hsh
    unfold onGrid
    congr 1
    apply List.ext_getElem
    · simpa using hlen'
    · intro k hk hk'
      simp only [List.getElem_map, List.getElem_range]
      have hw' := hnth k (by simpa [VSPD.wavelengths] using hk)
      simp only [VSPD.wavelengths, List.getElem?_map, List.getElem?_eq_getElem hk, Option.map_some,
        Option.some.injEq] at hw'
      have hv := hval _ (List.getElem_mem hk)
      ext
      · exact hw'
      · rw [hv, hw']; rfl

/-- A spectrum as the constructor makes it (at least two samples, strictly increasing wavelengths,
shape naming the first and last) whose range meets `lo..hi`, and which, at either end, either covers
that range or ends on a grid point of `lo, lo + i, ...`. -/
structure Spans (s : VSPD ℝ) (lo hi i : ℝ) : Prop where
  two : 2 ≤ s.samples.length
  asc : s.wavelengths.Pairwise (· < ·)
  start : s.samples.head?.map Sample.nm = some s.shape.start
  stop : s.samples.getLast?.map Sample.nm = some s.shape.end
  overlap : max lo s.shape.start ≤ min hi s.shape.end
  left : s.shape.start ≤ lo ∨ ∃ j : ℕ, s.shape.start = lo + j * i
  right : hi ≤ s.shape.end ∨ ∃ j : ℕ, s.shape.end = lo + j * i

theorem Spans.align {s : VSPD ℝ} {lo hi i : ℝ} (h : Spans s lo hi i) (hpos : 0 < i) (n : ℕ)
    (hn : ⌊(hi - lo) / i⌋₊ + 1 = n) (hfit : (hi - lo) / i < 2 ^ 64) :
    ∃ N, ∀ fuel, N ≤ fuel → s.align fuel (SpdShape.new lo hi i) =
      .ok (onGrid lo hi i n (resampled s)) := by
  have hl := h.two
  have h0 : s.samples[0]? = some (s.samples[0]) := List.getElem?_eq_getElem (by omega)
  have h1 : s.samples[1]? = some (s.samples[1]) := List.getElem?_eq_getElem (by omega)
  have hlt : s.samples[0].nm < s.samples[1].nm := by
    have := List.pairwise_iff_getElem.1 h.asc 0 1 (by simp [VSPD.wavelengths]; omega)
      (by simp [VSPD.wavelengths]; omega) (by omega)
    simpa [VSPD.wavelengths] using this
  have hs := h.start
  rw [List.head?_eq_getElem?, h0] at hs
  simp only [Option.map_some, Option.some.injEq] at hs
  cases hz : s.samples.getLast? with
  | none => have := h.stop; rw [hz] at this; cases this
  | some z =>
    have he := h.stop
    rw [hz] at he
    simp only [Option.map_some, Option.some.injEq] at he
    exact align_eq s lo hi i n _ _ z h0 h1 hz hlt (by linarith) (by linarith) hpos h.overlap hn hfit
      h.left h.right

theorem onGrid_asc (lo hi i : ℝ) (n : ℕ) (f : ℝ → ℝ) (hpos : 0 < i) :
    (onGrid lo hi i n f).wavelengths.Pairwise (· < ·) := by
  rw [List.pairwise_iff_getElem]
  intro j k hj hk hjk
  simp only [VSPD.wavelengths, onGrid, List.getElem_map, List.getElem_range]
  have : (j:ℝ) < k := by exact_mod_cast hjk
  have := mul_lt_mul_of_pos_right this hpos
  linarith

/-- resampling at a sample's wavelength -/
theorem resampled_onGrid (lo hi i : ℝ) (n : ℕ) (f : ℝ → ℝ) (hpos : 0 < i) (h2 : 2 ≤ n)
    (hhi : lo + ((n:ℝ) - 1) * i ≤ hi) (k : ℕ) (hk : k < n) (x : ℝ) (hx : x = lo + k * i) :
    resampled (onGrid lo hi i n f) x = f x := by
  have hk' : (k:ℝ) ≤ n - 1 := by
    have : ((k + 1 : ℕ) : ℝ) ≤ n := by exact_mod_cast hk
    push_cast at this; linarith
  have hb : (k:ℝ) * i ≤ (n - 1) * i := mul_le_mul_of_nonneg_right hk' hpos.le
  have hb' : (0:ℝ) ≤ k * i := by positivity
  have h := C40_passes_samples (onGrid lo hi i n f) (by rw [onGrid_length]; exact h2)
    (onGrid_asc lo hi i n f hpos) ⟨lo + k * i, f (lo + k * i)⟩
    (List.mem_iff_getElem?.2 ⟨k, onGrid_get lo hi i n f k hk⟩)
  unfold resampled
  have hc : max (onGrid lo hi i n f).shape.start (min x (onGrid lo hi i n f).shape.end) = x := by
    show max lo (min x hi) = x
    rw [min_eq_left (by rw [hx]; linarith), max_eq_right (by rw [hx]; linarith)]
  rw [hc, hx, h]

/-- aligning a gridded spectrum to another grid inside its range -/
theorem onGrid_align (lo hi i : ℝ) (n : ℕ) (f : ℝ → ℝ) (hpos : 0 < i) (h2 : 2 ≤ n)
    (hend : hi < lo + ((n:ℝ) + 1) * i) (lo' hi' i' : ℝ) (n' : ℕ) (hpos' : 0 < i') (hlo : lo ≤ lo')
    (hhi : hi' ≤ hi) (hle : lo' ≤ hi') (hn : ⌊(hi' - lo') / i'⌋₊ + 1 = n')
    (hfit : (hi' - lo') / i' < 2 ^ 64) :
    ∃ N, ∀ fuel, N ≤ fuel → (onGrid lo hi i n f).align fuel (SpdShape.new lo' hi' i') =
      .ok (onGrid lo' hi' i' n' (resampled (onGrid lo hi i n f))) := by
  have hz : (onGrid lo hi i n f).samples.getLast? =
      some ⟨lo + (n - 1 : ℕ) * i, f (lo + (n - 1 : ℕ) * i)⟩ := by
    rw [List.getLast?_eq_getElem?, onGrid_length, onGrid_get _ _ _ _ _ _ (by omega)]
  have hn1 : ((n - 1 : ℕ) : ℝ) = n - 1 := by rw [Nat.cast_sub (by omega)]; simp
  refine align_eq _ lo' hi' i' n' _ _ _ (onGrid_get lo hi i n f 0 (by omega))
    (onGrid_get lo hi i n f 1 (by omega)) hz ?_ ?_ ?_ hpos' ?_ hn hfit (Or.inl hlo) (Or.inl hhi)
  · simp only [Nat.cast_zero, Nat.cast_one]; linarith
  · show _ ≤ lo
    simp only [Nat.cast_zero, Nat.cast_one]; linarith
  · show hi < _
    simp only [Nat.cast_zero, Nat.cast_one, hn1]; linarith
  · show max lo' lo ≤ min hi' hi
    rw [max_eq_left hlo, min_eq_left hhi]; exact hle

theorem zip_range_sum (n : ℕ) (S y : ℕ → ℝ) (dw : ℝ) :
    fsum ((((List.range n).map S).zip ((List.range n).map y)).map fun p => p.1 * p.2 * dw) =
      (∑ k ∈ Finset.range n, S k * y k) * dw := by
  rw [fsum_eq, List.zip_map', List.map_map, list_sum_range, Finset.sum_mul]
  rfl

theorem zip3_range_sum (n : ℕ) (R S c : ℕ → ℝ) (dw : ℝ) :
    fsum ((((List.range n).map R).zip (((List.range n).map S).zip ((List.range n).map c))).map
      fun p => p.1 * p.2.1 * p.2.2 * dw) = (∑ k ∈ Finset.range n, R k * S k * c k) * dw := by
  rw [fsum_eq, List.zip_map', List.zip_map', List.map_map, list_sum_range, Finset.sum_mul]
  rfl

/-- the integral when all five spectra align to one grid -/
theorem integration_eq (fuel : ℕ) (spd il : VSPD ℝ) (cmf : CMF ℝ) (lo hi i : ℝ) (n : ℕ) (hi0 : i ≠ 0)
    (fs fi fx fy fz : ℝ → ℝ)
    (hs : spd.align fuel (SpdShape.new lo hi i) = .ok (onGrid lo hi i n fs))
    (hil : il.align fuel (SpdShape.new lo hi i) = .ok (onGrid lo hi i n fi))
    (hx : cmf.xBar.align fuel (SpdShape.new lo hi i) = .ok (onGrid lo hi i n fx))
    (hy : cmf.yBar.align fuel (SpdShape.new lo hi i) = .ok (onGrid lo hi i n fy))
    (hz : cmf.zBar.align fuel (SpdShape.new lo hi i) = .ok (onGrid lo hi i n fz)) :
    spdToXyzIntegration fuel spd il cmf (SpdShape.new lo hi i) =
      let g (f : ℝ → ℝ) (k : ℕ) : ℝ := f (lo + k * i)
      .ok ⟨Spec.tristimulus n (g fs) (g fi) (g fx) (g fy),
        Spec.tristimulus n (g fs) (g fi) (g fy) (g fy),
        Spec.tristimulus n (g fs) (g fi) (g fz) (g fy)⟩ := by
  unfold spdToXyzIntegration
  rw [hs, hil, hx, hy, hz]
  simp only [bind, Except.bind]
  show Except.ok _ = Except.ok _
  have h100 : (Flt.lit 100.0 : ℝ) = 100 := by norm_num
  have key : ∀ c : ℝ → ℝ, (Flt.lit 100.0 : ℝ) / fsum (((onGrid lo hi i n fi).values.zip
        (onGrid lo hi i n fy).values).map fun p => p.1 * p.2 * i) *
      fsum (((onGrid lo hi i n fs).values.zip ((onGrid lo hi i n fi).values.zip
        (onGrid lo hi i n c).values)).map fun p => p.1 * p.2.1 * p.2.2 * i) =
      Spec.tristimulus n (fun k => fs (lo + k * i)) (fun k => fi (lo + k * i))
        (fun k => c (lo + k * i)) (fun k => fy (lo + k * i)) := by
    intro c
    simp only [onGrid_values]
    rw [zip_range_sum, zip3_range_sum, h100]
    unfold Spec.tristimulus
    have hc : ∀ A D : ℝ, 100 / (D * i) * (A * i) = 100 * A / D := by
      intro A D; field_simp
    exact hc _ _
  rw [key, key, key]

/-! ## constant spectra -/

theorem spragueEval_const (s : VSPD ℝ) (v : ℝ) (hl : 6 ≤ s.samples.length)
    (hv : ∀ p ∈ s.samples, p.v = v) (x w : ℝ) (h : spragueEval s x = .ok w) : w = v := by
  have h0 : s.samples[0]? = some (s.samples[0]) := List.getElem?_eq_getElem (by omega)
  have h1 : s.samples[1]? = some (s.samples[1]) := List.getElem?_eq_getElem (by omega)
  have hz' : s.samples[s.samples.length - 1]? = some (s.samples[s.samples.length - 1]) :=
    List.getElem?_eq_getElem (by omega)
  have hz : s.samples.getLast? = some (s.samples[s.samples.length - 1]) := by
    rw [List.getLast?_eq_getElem?]; exact hz'
  have he : spragueEval s x = (⟨extX s s.samples[0].nm s.samples[1].nm
      s.samples[s.samples.length - 1].nm, extY s⟩ : Sprague ℝ).evaluate x := by
    unfold spragueEval
    rw [Sprague.new_eq s _ _ _ h0 h1 hz]; rfl
  have hev := Sprague.evaluate_eq (⟨extX s s.samples[0].nm s.samples[1].nm
      s.samples[s.samples.length - 1].nm, extY s⟩ : Sprague ℝ) s.samples.length (by omega)
      (extX_length _ _ _ _) (extY_length _) x
  rw [← he, h] at hev
  have Y := extY_line s 0 0 v 0 hl (fun k p hp => by rw [hv p (List.mem_of_getElem? hp)]; ring)
  have key : ∀ i, 2 ≤ i → i ≤ s.samples.length → spragueAt (⟨extX s s.samples[0].nm
      s.samples[1].nm s.samples[s.samples.length - 1].nm, extY s⟩ : Sprague ℝ) i x = v := by
    intro i hi hi'
    unfold spragueAt
    simp only [Flt.zero, flt_lit, Rat.cast_zero]
    rw [Y (i - 2) (by omega), Y (i - 1) (by omega), Y i (by omega), Y (i + 1) (by omega),
      Y (i + 2) (by omega), Y (i + 3) (by omega), spraguePoly_real]
    ring
  cases hf : (extX s s.samples[0].nm s.samples[1].nm s.samples[s.samples.length - 1].nm).findIdx?
      (fun t => Flt.lt x t) with
  | none => simp only [hf] at hev; cases hev
  | some m =>
    cases m with
    | zero => simp only [hf] at hev; cases hev
    | succ k =>
      simp only [hf] at hev
      rw [key _ (spragueI_bounds (by omega) k).1 (spragueI_bounds (by omega) k).2] at hev
      exact Except.ok.inj hev

/-- a constant spectrum of six or more samples resamples to the constant -/
theorem resampled_const (s : VSPD ℝ) (v : ℝ) (hl : 6 ≤ s.samples.length)
    (hv : ∀ p ∈ s.samples, p.v = v) (hasc : s.wavelengths.Pairwise (· < ·))
    (hst : s.samples.head?.map Sample.nm = some s.shape.start)
    (hen : s.samples.getLast?.map Sample.nm = some s.shape.end) (x : ℝ) : resampled s x = v := by
  have h0 : s.samples[0]? = some (s.samples[0]) := List.getElem?_eq_getElem (by omega)
  have h1 : s.samples[1]? = some (s.samples[1]) := List.getElem?_eq_getElem (by omega)
  have hz' : s.samples[s.samples.length - 1]? = some (s.samples[s.samples.length - 1]) :=
    List.getElem?_eq_getElem (by omega)
  have hz : s.samples.getLast? = some (s.samples[s.samples.length - 1]) := by
    rw [List.getLast?_eq_getElem?]; exact hz'
  have hlt : ∀ (j k : ℕ) (hj : j < s.samples.length) (hk : k < s.samples.length), j < k →
      s.samples[j].nm < s.samples[k].nm := by
    intro j k hj hk hjk
    have := List.pairwise_iff_getElem.1 hasc j k (by simpa [VSPD.wavelengths] using hj)
      (by simpa [VSPD.wavelengths] using hk) hjk
    simpa [VSPD.wavelengths] using this
  rw [List.head?_eq_getElem?, h0] at hst
  rw [hz] at hen
  simp only [Option.map_some, Option.some.injEq] at hst hen
  have h01 := hlt 0 1 (by omega) (by omega) (by omega)
  have h0z := hlt 0 (s.samples.length - 1) (by omega) (by omega) (by omega)
  obtain ⟨w, hw⟩ := (C42_total s _ _ _ h0 h1 hz h01).1 (max s.shape.start (min x s.shape.end))
    (by rw [hst]; exact le_max_left _ _) (by
      rw [hen]; exact max_le (by rw [← hst, ← hen]; exact h0z.le) (min_le_right _ _))
  unfold resampled
  rw [hw]
  exact spragueEval_const s v hl hv _ _ hw

theorem tristimulus_const (n : ℕ) (R S y : ℕ → ℝ) (v : ℝ) (hR : ∀ k, k < n → R k = v)
    (hs : ∑ k ∈ Finset.range n, S k * y k ≠ 0) : Spec.tristimulus n R S y y = 100 * v := by
  unfold Spec.tristimulus
  rw [Finset.sum_congr rfl fun k hk => by rw [hR k (Finset.mem_range.1 hk), mul_assoc],
    ← Finset.mul_sum]
  field_simp

theorem through_const (a n : ℕ) (hn : 0 < n) (v x : ℝ) : Spec.through a n (fun _ => v) x = v := by
  have h := through_one a n hn x
  unfold Spec.through at h ⊢
  have e : (fun _ : ℕ => v) = v • (fun _ : ℕ => (1:ℝ)) := by funext k; simp
  rw [e, map_smul, Polynomial.eval_smul, h]
  simp

theorem e2022_const (I N : ℕ) (v : ℝ) (j : ℕ) : Spec.e2022 I N (fun _ => v) j = v := by
  unfold Spec.e2022
  simp only [through_const _ 3 (by omega), through_const _ 4 (by omega), ite_self]

/-- evenly spaced spectra -/
theorem onGrid_spans (lo hi i : ℝ) (n : ℕ) (f : ℝ → ℝ) (hpos : 0 < i) (h2 : 2 ≤ n)
    (hhi : hi = lo + ((n:ℝ) - 1) * i) (lo' hi' i' : ℝ) (hov : max lo' lo ≤ min hi' hi)
    (hl : lo ≤ lo' ∨ ∃ j : ℕ, lo = lo' + j * i') (hr : hi' ≤ hi ∨ ∃ j : ℕ, hi = lo' + j * i') :
    Spans (onGrid lo hi i n f) lo' hi' i' := by
  refine ⟨by rw [onGrid_length]; exact h2, onGrid_asc _ _ _ _ _ hpos, ?_, ?_, hov, hl, hr⟩
  · rw [List.head?_eq_getElem?, onGrid_get _ _ _ _ _ _ (by omega)]
    simp [onGrid, SpdShape.new]
  · rw [List.getLast?_eq_getElem?, onGrid_length, onGrid_get _ _ _ _ _ _ (by omega)]
    have : ((n - 1 : ℕ) : ℝ) = n - 1 := by rw [Nat.cast_sub (by omega)]; simp
    simp only [Option.map_some, this, ← hhi]
    rfl

/-- tables at 360, 361, ..., 780 -/
theorem onGrid_resampled_table (f : ℝ → ℝ) (k : ℕ) (hk : k < 421) :
    resampled (onGrid 360 780 1 421 f) (360 + k) = f (360 + k) :=
  resampled_onGrid 360 780 1 421 f one_pos (by norm_num) (by norm_num) k hk _ (by ring)

end CS

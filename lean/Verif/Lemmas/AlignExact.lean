import Verif.Lemmas.ToXyz

/-!
# `align`, sample by sample, with no condition on where the spectrum starts and ends
-/

namespace CS

/-- `extrapolate` with the two loops unrolled -/
theorem extrapolate_exact (s : VSPD ℝ) (shape : SpdShape ℝ) (i : ℝ) (f z : Sample ℝ)
    (hf : s.samples.head? = some f) (hz : s.samples.getLast? = some z)
    (hi : extrapInterval s shape i) (hpos : 0 < i)
    (hl : s.shape.start ≤ f.nm) (hr : f.nm ≤ s.shape.end) :
    ∃ N : ℕ, ∀ fuel, N ≤ fuel → s.extrapolate fuel shape =
      .ok ⟨((List.range ⌈(s.shape.start - shape.start) / i⌉₊).map fun k : ℕ =>
          ⟨min s.shape.start shape.start + k * i, f.v⟩) ++ s.samples ++
        ((List.range ⌊(shape.end - s.shape.end) / i⌋₊).map fun k : ℕ =>
          ⟨s.shape.end + i + k * i, z.v⟩), SpdShape.new shape.start shape.end i⟩ := by
  set m := ⌈(s.shape.start - shape.start) / i⌉₊ with hm
  set n := ⌊(shape.end - s.shape.end) / i⌋₊ with hnn
  have hleft : ∀ fuel, m ≤ fuel → pushLoop (fun x => decide (x < s.shape.start)) (extrapConst s) i
      fuel (min s.shape.start shape.start) = .ok ((List.range m).map fun k : ℕ =>
        ⟨min s.shape.start shape.start + k * i, f.v⟩) := by
    intro fuel hfuel
    have hk : ∀ k : ℕ, k < m → min s.shape.start shape.start + k * i < s.shape.start := by
      intro k hk
      have h1 : (k:ℝ) < (s.shape.start - shape.start) / i := Nat.lt_ceil.1 hk
      rw [lt_div_iff₀ hpos] at h1
      have h2 := min_le_right s.shape.start shape.start
      linarith
    have hstop : ¬ min s.shape.start shape.start + m * i < s.shape.start := by
      rcases le_total s.shape.start shape.start with h | h
      · rw [min_eq_left h]
        have : (0:ℝ) ≤ m * i := by positivity
        linarith
      · rw [min_eq_right h]
        have := Nat.le_ceil ((s.shape.start - shape.start) / i)
        rw [div_le_iff₀ hpos] at this
        linarith
    refine pushLoop_eq _ _ (fun _ => f.v) i m fuel _ hfuel (fun k h => ?_) ?_ (fun k h => ?_)
    · exact decide_eq_true (hk k h)
    · exact decide_eq_false hstop
    · exact extrapConst_left s f hf _ (lt_of_lt_of_le (hk k h) hl)
  have hright : ∀ fuel, n ≤ fuel → pushLoop (fun x => decide (x ≤ max s.shape.end shape.end))
      (extrapConst s) i fuel (s.shape.end + i) = .ok ((List.range n).map fun k : ℕ =>
        ⟨s.shape.end + i + k * i, z.v⟩) := by
    intro fuel hfuel
    refine pushLoop_eq _ _ (fun _ => z.v) i n fuel _ hfuel (fun k h => ?_) ?_ (fun k h => ?_)
    · apply decide_eq_true
      have h0 : 0 < n := by omega
      have hq : 0 ≤ (shape.end - s.shape.end) / i := by
        by_contra hc
        rw [hnn, Nat.floor_of_nonpos (not_le.1 hc).le] at h0
        omega
      have h1 : ((k + 1 : ℕ) : ℝ) ≤ (shape.end - s.shape.end) / i :=
        (Nat.le_floor_iff hq).1 (by omega)
      rw [le_div_iff₀ hpos] at h1
      push_cast at h1
      refine le_trans ?_ (le_max_right _ _)
      linarith
    · apply decide_eq_false
      have := Nat.lt_floor_add_one ((shape.end - s.shape.end) / i)
      rw [div_lt_iff₀ hpos] at this
      rw [not_le, max_lt_iff]
      have h2 : (0:ℝ) ≤ n * i := by positivity
      constructor <;> linarith
    · refine extrapConst_right s f z hf hz _ ?_
      have h2 : (0:ℝ) ≤ k * i := by positivity
      linarith
  refine ⟨max m n, fun fuel hfuel => ?_⟩
  rw [extrapolate_eq fuel s shape i hi, hleft fuel (by omega), hright fuel (by omega)]
  rfl

/-- `interpolate`, sample by sample -/
theorem interpolate_exact (s : VSPD ℝ) (lo hi i : ℝ) (h2 : 2 ≤ s.samples.length)
    (hasc : s.wavelengths.Pairwise (· < ·))
    (hst : s.samples.head?.map Sample.nm = some s.shape.start)
    (hen : s.samples.getLast?.map Sample.nm = some s.shape.end) (hpos : 0 < i)
    (hov : max lo s.shape.start ≤ min hi s.shape.end)
    (hfit : (min hi s.shape.end - max lo s.shape.start) / i < 2 ^ 64) :
    s.interpolate (SpdShape.new lo hi i) = .ok (onGrid (max lo s.shape.start) (min hi s.shape.end) i
      (⌊(min hi s.shape.end - max lo s.shape.start) / i⌋₊ + 1) (resampled s)) := by
  have h0 : s.samples[0]? = some (s.samples[0]) := List.getElem?_eq_getElem (by omega)
  have h1 : s.samples[1]? = some (s.samples[1]) := List.getElem?_eq_getElem (by omega)
  have hlt : s.samples[0].nm < s.samples[1].nm := by
    have := List.pairwise_iff_getElem.1 hasc 0 1 (by simp [VSPD.wavelengths]; omega)
      (by simp [VSPD.wavelengths]; omega) (by omega)
    simpa [VSPD.wavelengths] using this
  rw [List.head?_eq_getElem?, h0] at hst
  simp only [Option.map_some, Option.some.injEq] at hst
  cases hz : s.samples.getLast? with
  | none => rw [hz] at hen; cases hen
  | some z =>
    rw [hz] at hen
    simp only [Option.map_some, Option.some.injEq] at hen
    obtain ⟨t, ht⟩ := C44_total s (SpdShape.new lo hi i) i _ _ z h0 h1 hz hlt (by linarith)
      (by linarith) rfl hpos hov hfit
    obtain ⟨t1, t2, t3, t4, t5⟩ := C44_resamples s t (SpdShape.new lo hi i) h2 ht
    rw [flt_max] at t1
    rw [flt_min] at t2
    obtain ⟨tlen, tnth, tmem⟩ := (C37_real t.shape i t3 hpos.ne').2 _ t4
    have hov' : t.shape.start ≤ t.shape.end := by rw [t1, t2]; exact hov
    obtain ⟨-, tmem⟩ := tmem hpos hov'
    rw [ht]
    congr 1
    cases t with
    | mk samples shape =>
      cases shape with
      | mk st en iv =>
        simp only [SpdShape.new] at t1 t2 t3 tlen tnth tmem
        subst t1 t2 t3
        unfold onGrid
        congr 1
        apply List.ext_getElem
        · simpa [VSPD.wavelengths] using tlen
        · intro k hk hk'
          simp only [List.getElem_map, List.getElem_range]
          have hw' := tnth k (by simpa [VSPD.wavelengths] using hk)
          simp only [VSPD.wavelengths, List.getElem?_map, List.getElem?_eq_getElem hk,
            Option.map_some, Option.some.injEq] at hw'
          have hv := t5 _ (List.getElem_mem hk)
          have hm := (tmem samples[k].nm).1 (List.mem_map.2 ⟨_, List.getElem_mem hk, rfl⟩)
          have hki : (0:ℝ) ≤ k * i := by positivity
          ext
          · exact hw'
          · rw [← hw']
            unfold resampled
            have a1 : s.shape.start ≤ samples[k].nm := by
              rw [hw']; linarith [le_max_right lo s.shape.start]
            have a2 : samples[k].nm ≤ s.shape.end := le_trans hm.1 (min_le_right _ _)
            rw [min_eq_left a2, max_eq_right a1, hv]

/-- `align`, sample by sample -/
theorem align_exact (s : VSPD ℝ) (lo hi i : ℝ) (h2 : 2 ≤ s.samples.length)
    (hasc : s.wavelengths.Pairwise (· < ·))
    (hst : s.samples.head?.map Sample.nm = some s.shape.start)
    (hen : s.samples.getLast?.map Sample.nm = some s.shape.end) (hpos : 0 < i) (s0 e0 : ℝ) (m : ℕ)
    (hs0 : s0 = max lo s.shape.start) (he0 : e0 = min hi s.shape.end) (hov : s0 ≤ e0)
    (hm : m = ⌊(e0 - s0) / i⌋₊) (hfit : (e0 - s0) / i < 2 ^ 64) :
    ∃ N : ℕ, ∀ fuel, N ≤ fuel → s.align fuel (SpdShape.new lo hi i) =
      .ok ⟨((List.range ⌈(s0 - lo) / i⌉₊).map fun k : ℕ => ⟨lo + k * i, resampled s s0⟩) ++
        ((List.range (m + 1)).map fun k : ℕ => ⟨s0 + k * i, resampled s (s0 + k * i)⟩) ++
        ((List.range ⌊(hi - e0) / i⌋₊).map fun k : ℕ =>
          ⟨e0 + (k + 1) * i, resampled s (s0 + m * i)⟩), SpdShape.new lo hi i⟩ := by
  subst hs0 he0 hm
  set n := ⌊(min hi s.shape.end - max lo s.shape.start) / i⌋₊ with hn
  set t := onGrid (max lo s.shape.start) (min hi s.shape.end) i (n + 1) (resampled s) with ht
  have hint := interpolate_exact s lo hi i h2 hasc hst hen hpos hov hfit
  have hlen : t.samples.length = n + 1 := onGrid_length ..
  have hf : t.samples.head? = some ⟨max lo s.shape.start, resampled s (max lo s.shape.start)⟩ := by
    rw [List.head?_eq_getElem?, ht, onGrid_get _ _ _ _ _ _ (by omega)]; simp
  have hz : t.samples.getLast? = some ⟨max lo s.shape.start + n * i,
      resampled s (max lo s.shape.start + n * i)⟩ := by
    rw [List.getLast?_eq_getElem?, hlen, ht, onGrid_get _ _ _ _ _ _ (by omega)]; simp
  obtain ⟨N, hN⟩ := extrapolate_exact t (SpdShape.new lo hi i) i _ _ hf hz (Or.inl rfl) hpos le_rfl hov
  refine ⟨N, fun fuel hfuel => ?_⟩
  unfold VSPD.align
  rw [hint]
  show t.extrapolate fuel _ = _
  rw [hN fuel hfuel]
  have hmin : min (max lo s.shape.start) lo = lo := min_eq_right (le_max_left _ _)
  have e1 : t.shape.start = max lo s.shape.start := rfl
  have e2 : t.shape.end = min hi s.shape.end := rfl
  have e3 : (SpdShape.new lo hi i).start = lo := rfl
  have e4 : (SpdShape.new lo hi i).end = hi := rfl
  rw [e1, e2, e3, e4, hmin]
  congr 2
  congr 1
  refine List.map_congr_left fun k _ => ?_
  congr 1
  ring

end CS

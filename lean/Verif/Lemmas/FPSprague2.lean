import Verif.Lemmas.FPSprague

/-! # The extrapolated values of Sprague interpolation, rounding errors -/

namespace CS
variable {f : Fmt}

theorem Tr.zero [Libm f] (V : ℝ) : Tr V (Flt.zero : FP f) 0 0 0 := by
  have h : (Flt.zero : FP f) = FP.fin 0 (FP.isRep_zero f) := FP.lit_zero
  rw [h]
  exact ⟨rfl, by simp, by simp⟩

/-- the outer extrapolated value -/
theorem ghost_outer [Libm f] (hf : Std f) {V : ℝ} (hV : Scale V) (vs : List (FP f))
    (hv : ∀ v ∈ vs, v.isFinite = true ∧ |(v.val : ℝ)| ≤ V) :
    Tr V (dotSum [Flt.lit 884.0, -Flt.lit 1960.0, Flt.lit 3033.0, -Flt.lit 2648.0, Flt.lit 1080.0, -Flt.lit 180.0] vs / Flt.lit 209.0)
      (dotSum [Flt.lit 884.0, -Flt.lit 1960.0, Flt.lit 3033.0, -Flt.lit 2648.0, Flt.lit 1080.0, -Flt.lit 180.0] (vs.map fun v => (v.val : ℝ)) / Flt.lit 209.0) (2341/50) (6829/25) := by
  have h := dot_tr hf hV [(Flt.lit 884.0, 884), (-Flt.lit 1960.0, -1960), (Flt.lit 3033.0, 3033), (-Flt.lit 2648.0, -2648), (Flt.lit 1080.0, 1080), (-Flt.lit 180.0, -180)] vs
    Flt.zero 0 0 0 (Tr.zero V) le_rfl
    le_rfl (by
      intro c hc
      simp only [List.mem_cons, List.not_mem_nil, or_false] at hc
      rcases hc with rfl | rfl | rfl | rfl | rfl | rfl
      · exact ⟨lit_fin hf 884 884.0, lit_val hf 884 884.0⟩
      · exact ⟨litN_fin hf 1960 1960.0, litN_val hf 1960 1960.0⟩
      · exact ⟨lit_fin hf 3033 3033.0, lit_val hf 3033 3033.0⟩
      · exact ⟨litN_fin hf 2648 2648.0, litN_val hf 2648 2648.0⟩
      · exact ⟨lit_fin hf 1080 1080.0, lit_val hf 1080 1080.0⟩
      · exact ⟨litN_fin hf 180 180.0, litN_val hf 180 180.0⟩) hv
    (by simp only [List.map_cons, List.map_nil, List.sum_cons, List.sum_nil]; norm_num [abs])
    (by simp only [List.map_cons, List.map_nil, dotK, rnd]; norm_num)
  have h2 := h.mono hV (N := 9785) (l := 4730502/100)
    (by simp only [List.map_cons, List.map_nil, List.sum_cons, List.sum_nil]; norm_num)
    (by simp only [List.map_cons, List.map_nil, dotK, rnd]; norm_num)
  have h3 := Tr.divc hf hV (P := 2341/50) (K := 6829/25) (lit_fin hf 209 209.0) (lit_val hf 209 209.0)
    (by norm_num) h2
  refine h3.congr ?_
  have e : ([Flt.lit 884.0, -Flt.lit 1960.0, Flt.lit 3033.0, -Flt.lit 2648.0, Flt.lit 1080.0, -Flt.lit 180.0] : List ℝ) = [884, -1960, 3033, -2648, 1080, -180] := by norm_num
  rw [e]
  have z : (Flt.zero : ℝ) = 0 := by simp [Flt.zero]
  simp only [flt_lit, dotSum, fsum, z, List.map_cons, List.map_nil]
  norm_num

/-- the inner extrapolated value -/
theorem ghost_inner [Libm f] (hf : Std f) {V : ℝ} (hV : Scale V) (vs : List (FP f))
    (hv : ∀ v ∈ vs, v.isFinite = true ∧ |(v.val : ℝ)| ≤ V) :
    Tr V (dotSum [Flt.lit 508.0, -Flt.lit 540.0, Flt.lit 488.0, -Flt.lit 367.0, Flt.lit 144.0, -Flt.lit 24.0] vs / Flt.lit 209.0)
      (dotSum [Flt.lit 508.0, -Flt.lit 540.0, Flt.lit 488.0, -Flt.lit 367.0, Flt.lit 144.0, -Flt.lit 24.0] (vs.map fun v => (v.val : ℝ)) / Flt.lit 209.0) (991/100) (6343/100) := by
  have h := dot_tr hf hV [(Flt.lit 508.0, 508), (-Flt.lit 540.0, -540), (Flt.lit 488.0, 488), (-Flt.lit 367.0, -367), (Flt.lit 144.0, 144), (-Flt.lit 24.0, -24)] vs
    Flt.zero 0 0 0 (Tr.zero V) le_rfl
    le_rfl (by
      intro c hc
      simp only [List.mem_cons, List.not_mem_nil, or_false] at hc
      rcases hc with rfl | rfl | rfl | rfl | rfl | rfl
      · exact ⟨lit_fin hf 508 508.0, lit_val hf 508 508.0⟩
      · exact ⟨litN_fin hf 540 540.0, litN_val hf 540 540.0⟩
      · exact ⟨lit_fin hf 488 488.0, lit_val hf 488 488.0⟩
      · exact ⟨litN_fin hf 367 367.0, litN_val hf 367 367.0⟩
      · exact ⟨lit_fin hf 144 144.0, lit_val hf 144 144.0⟩
      · exact ⟨litN_fin hf 24 24.0, litN_val hf 24 24.0⟩) hv
    (by simp only [List.map_cons, List.map_nil, List.sum_cons, List.sum_nil]; norm_num [abs])
    (by simp only [List.map_cons, List.map_nil, dotK, rnd]; norm_num)
  have h2 := h.mono hV (N := 2071) (l := 1118401/100)
    (by simp only [List.map_cons, List.map_nil, List.sum_cons, List.sum_nil]; norm_num)
    (by simp only [List.map_cons, List.map_nil, dotK, rnd]; norm_num)
  have h3 := Tr.divc hf hV (P := 991/100) (K := 6343/100) (lit_fin hf 209 209.0) (lit_val hf 209 209.0)
    (by norm_num) h2
  refine h3.congr ?_
  have e : ([Flt.lit 508.0, -Flt.lit 540.0, Flt.lit 488.0, -Flt.lit 367.0, Flt.lit 144.0, -Flt.lit 24.0] : List ℝ) = [508, -540, 488, -367, 144, -24] := by norm_num
  rw [e]
  have z : (Flt.zero : ℝ) = 0 := by simp [Flt.zero]
  simp only [flt_lit, dotSum, fsum, z, List.map_cons, List.map_nil]
  norm_num

/-- the spectrum with the same numbers, for exact computation -/
def exactV (s : VSPD (FP f)) (shape : SpdShape ℝ) : VSPD ℝ :=
  ⟨s.samples.map fun p => ⟨p.nm.val, p.v.val⟩, shape⟩

/-- all values an interval of the interpolator works with -/
theorem extY_tr [Libm f] (hf : Std f) {V : ℝ} (hV : Scale V) (s : VSPD (FP f)) (shape : SpdShape ℝ)
    (hv : ∀ p ∈ s.samples, p.v.isFinite = true ∧ |(p.v.val : ℝ)| ≤ V) (i : ℕ)
    (hi : i < s.samples.length + 4) :
    let Y := (extY s).getD i Flt.zero
    let R := (extY (exactV s shape)).getD i Flt.zero
    (2 ≤ i → i < s.samples.length + 2 → Tr V Y R 1 0) ∧
    (1 ≤ i → i < s.samples.length + 3 → Tr V Y R (991/100) (6343/100)) ∧
    Tr V Y R (2341/50) (6829/25) := by
  have hv' : ∀ v ∈ s.values, v.isFinite = true ∧ |(v.val : ℝ)| ≤ V := by
    intro v h
    obtain ⟨p, hp, rfl⟩ := List.mem_map.1 h
    exact hv p hp
  have hr : ∀ v ∈ s.values.reverse, v.isFinite = true ∧ |(v.val : ℝ)| ≤ V := by
    intro v h; exact hv' v (List.mem_reverse.1 h)
  have hval : (exactV s shape).values = s.values.map fun v => (v.val : ℝ) := by
    simp [exactV, VSPD.values]
  have hvr : (exactV s shape).values.reverse = s.values.reverse.map fun v => (v.val : ℝ) := by
    rw [hval, List.map_reverse]
  have hl : s.values.length = s.samples.length := by simp [VSPD.values]
  have hl' : (exactV s shape).values.length = s.samples.length := by simp [VSPD.values, exactV]
  have g0 := ghost_outer hf hV _ hv'
  have g1 := ghost_inner hf hV _ hv'
  have g2 := ghost_inner hf hV _ hr
  have g3 := ghost_outer hf hV _ hr
  intro Y R
  rcases Nat.lt_or_ge i 2 with h2 | h2
  · have : i = 0 ∨ i = 1 := by omega
    rcases this with rfl | rfl
    · refine ⟨by omega, by omega, ?_⟩
      show Tr V (dotSum coeffC0 s.values / Flt.lit 209.0)
        (dotSum coeffC0 (exactV s shape).values / Flt.lit 209.0) _ _
      rw [hval]; exact g0
    · have : Tr V Y R (991/100) (6343/100) := by
        show Tr V (dotSum coeffC1 s.values / Flt.lit 209.0)
          (dotSum coeffC1 (exactV s shape).values / Flt.lit 209.0) _ _
        rw [hval]; exact g1
      exact ⟨by omega, fun _ _ => this, this.mono hV (by norm_num) (by norm_num)⟩
  · rcases Nat.lt_or_ge i (s.samples.length + 2) with h3 | h3
    · have hk : s.samples[i - 2]? = some (s.samples[i - 2]'(by omega)) :=
        List.getElem?_eq_getElem (by omega)
      have e1 := extY_getD s Flt.zero (i - 2) _ hk
      have e2 := extY_getD (exactV s shape) Flt.zero (i - 2)
        ⟨(s.samples[i - 2]'(by omega)).nm.val, (s.samples[i - 2]'(by omega)).v.val⟩
        (by simp only [exactV, List.getElem?_map, hk]; rfl)
      rw [show i - 2 + 2 = i by omega] at e1 e2
      have hp := hv _ (List.mem_of_getElem? hk)
      have : Tr V Y R 1 0 := by
        show Tr V ((extY s).getD i Flt.zero) ((extY (exactV s shape)).getD i Flt.zero) 1 0
        rw [e1, e2]; exact Tr.exact hp.1 (by linarith [hp.2])
      exact ⟨fun _ _ => this, fun _ _ => this.mono hV (by norm_num) (by norm_num),
        this.mono hV (by norm_num) (by norm_num)⟩
    · have p1 : Y = [dotSum coeffC2.reverse s.values.reverse / Flt.lit 209.0,
          dotSum coeffC3.reverse s.values.reverse / Flt.lit 209.0].getD (i - (s.samples.length + 2))
            Flt.zero := by
        show (extY s).getD i Flt.zero = _
        unfold extY
        rw [List.getD_append_right _ _ _ _ (by simp [hl]; omega)]
        congr 1
        simp [hl]
      have p2 : R = [dotSum coeffC2.reverse (exactV s shape).values.reverse / Flt.lit 209.0,
          dotSum coeffC3.reverse (exactV s shape).values.reverse / Flt.lit 209.0].getD
            (i - (s.samples.length + 2)) Flt.zero := by
        show (extY (exactV s shape)).getD i Flt.zero = _
        unfold extY
        rw [List.getD_append_right _ _ _ _ (by simp [hl']; omega)]
        congr 1
        simp [hl']
      rw [p1, p2, hvr]
      have : i = s.samples.length + 2 ∨ i = s.samples.length + 3 := by omega
      rcases this with rfl | rfl
      · simp only [Nat.sub_self, List.getD_cons_zero]
        exact ⟨by omega, fun _ _ => g2, g2.mono hV (by norm_num) (by norm_num)⟩
      · rw [show s.samples.length + 3 - (s.samples.length + 2) = 1 by omega]
        simp only [List.getD_cons_zero, List.getD_cons_succ]
        exact ⟨by omega, by omega, g3⟩

end CS

import Verif.Props.Spectra
import Verif.Props.Lab
import Verif.Props.Sums
import Verif.Lemmas.FPMono

/-!
# A brighter reflectance has no less light (C116)
-/

namespace CS

/-! ### specification -/

/-- sample for sample, `p` reflects no more than `q` -/
def Spec.Dimmer (p q : SPD ℝ) : Prop := ∀ i, p.values i ≤ q.values i

/-- `s` is sampled at the `n` wavelengths `360 + j m, 360 + (j+1) m, ...`, and labelled as such -/
structure Spec.SampledEvery (m j n : ℕ) (s : VSPD ℝ) : Prop where
  shape : s.shape = SpdShape.new (360 + (j : ℝ) * m) (360 + ((j + (n - 1) : ℕ) : ℝ) * m) (m : ℝ)
  wavelengths : s.wavelengths = (List.range n).map fun k : ℕ => 360 + ((j + k : ℕ) : ℝ) * m

/-- value for value, the first list is at most the second -/
def Spec.Below (s t : VSPD ℝ) : Prop := List.Forall₂ (· ≤ ·) s.values t.values

/-- at one of the wavelengths up to 780 nm `t` reflects more than `s` -/
def Spec.SomewhereBelow (s t : VSPD ℝ) : Prop :=
  ∃ x u v, x ≤ 780 ∧ (⟨x, u⟩ : Sample ℝ) ∈ s.samples ∧ (⟨x, v⟩ : Sample ℝ) ∈ t.samples ∧ u < v

/-- none of the tristimulus values decreases, and no lightness does, whatever the white -/
def Spec.NoDarker (p q : XYZ ℝ) : Prop :=
  p.x ≤ q.x ∧ p.y ≤ q.y ∧ p.z ≤ q.z ∧ ∀ w : XYZ ℝ, 0 < w.y → (xyzToLab p w).L ≤ (xyzToLab q w).L

/-- luminance and lightness increase -/
def Spec.Lighter (p q : XYZ ℝ) : Prop :=
  p.y < q.y ∧ ∀ w : XYZ ℝ, 0 < w.y → (xyzToLab p w).L < (xyzToLab q w).L

theorem noDarker_of {p q : XYZ ℝ} (hx : p.x ≤ q.x) (hy : p.y ≤ q.y) (hz : p.z ≤ q.z) : Spec.NoDarker p q := by
  refine ⟨hx, hy, hz, fun w hw => ?_⟩
  rcases hy.eq_or_lt with h | h
  · exact ((C32_lightness p q w hw).1 h).le
  · exact ((C32_lightness p q w hw).2 h).le

theorem lighter_of {p q : XYZ ℝ} (hy : p.y < q.y) : Spec.Lighter p q := ⟨hy, fun w hw => (C32_lightness p q w hw).2 hy⟩

/-! ### spectra of forty values -/

theorem weights_pos : (Tables.wX.all fun q => decide (0 < q)) = true ∧ (Tables.wY.all fun q => decide (0 < q)) = true ∧
    ((List.range 40).all fun i => decide (i = 28 ∨ 0 ≤ Tables.wZ.getD i 0)) = true ∧
    Tables.wX.length = 40 ∧ Tables.wY.length = 40 ∧ Tables.wZ.getD 28 0 < 0 := by decide +kernel

theorem wX_pos (i : Fin 40) : 0 < Tables.wX.getD i.val 0 := by
  obtain ⟨h, -, -, hl, -⟩ := weights_pos
  rw [List.getD_eq_getElem _ _ (by omega)]
  exact of_decide_eq_true (List.all_eq_true.1 h _ (List.getElem_mem _))

theorem wY_pos (i : Fin 40) : 0 < Tables.wY.getD i.val 0 := by
  obtain ⟨-, h, -, -, hl, -⟩ := weights_pos
  rw [List.getD_eq_getElem _ _ (by omega)]
  exact of_decide_eq_true (List.all_eq_true.1 h _ (List.getElem_mem _))

theorem wZ_nonneg (i : Fin 40) (hi : i.val ≠ 28) : 0 ≤ Tables.wZ.getD i.val 0 :=
  (of_decide_eq_true (List.all_eq_true.1 weights_pos.2.2.1 i.val (List.mem_range.2 i.2))).resolve_left hi

theorem weights_le : (Tables.wX.all fun q => decide (q ≤ 100)) = true ∧ (Tables.wY.all fun q => decide (q ≤ 100)) = true := by
  decide +kernel

theorem wX_le (i : Fin 40) : Tables.wX.getD i.val 0 ≤ 100 := by
  obtain ⟨-, -, -, hl, -⟩ := weights_pos
  rw [List.getD_eq_getElem _ _ (by omega)]
  exact of_decide_eq_true (List.all_eq_true.1 weights_le.1 _ (List.getElem_mem _))

theorem wY_le (i : Fin 40) : Tables.wY.getD i.val 0 ≤ 100 := by
  obtain ⟨-, -, -, -, hl, -⟩ := weights_pos
  rw [List.getD_eq_getElem _ _ (by omega)]
  exact of_decide_eq_true (List.all_eq_true.1 weights_le.2 _ (List.getElem_mem _))

theorem w_real (t : List ℚ) (i : Fin 40) : (SPD.ofTable t : SPD ℝ).values i = ((t.getD i.val 0 : ℚ) : ℝ) := rfl

/-- C116 [R]: whichever code path is compiled, a spectrum of forty values that is nowhere dimmer has no less X and no less
Y; it has no less Z if it agrees at 660 nm, where the built-in weight is negative. If somewhere it is brighter, its Y is
greater. -/
theorem C116_spd (avx : Bool) (p q : SPD ℝ) (h : Spec.Dimmer p q) :
    (p.toXyz avx).x ≤ (q.toXyz avx).x ∧ (p.toXyz avx).y ≤ (q.toXyz avx).y ∧
    (p.values 28 = q.values 28 → Spec.NoDarker (p.toXyz avx) (q.toXyz avx)) ∧
    ((∃ i, p.values i < q.values i) → Spec.Lighter (p.toXyz avx) (q.toXyz avx)) := by
  have hx : (p.toXyz avx).x ≤ (q.toXyz avx).x := by
    rw [C56_to_xyz, C56_to_xyz]
    simp only [Spec.weighted]
    refine Finset.sum_le_sum (f := fun i => p.values i * (wX : SPD ℝ).values i) fun i _ =>
      mul_le_mul_of_nonneg_right (h i) ?_
    show (0:ℝ) ≤ ((Tables.wX.getD i.val 0 : ℚ) : ℝ)
    exact_mod_cast (wX_pos i).le
  have hy0 : ∀ i, (0:ℝ) < (wY : SPD ℝ).values i := fun i => by
    show (0:ℝ) < ((Tables.wY.getD i.val 0 : ℚ) : ℝ)
    exact_mod_cast wY_pos i
  have hy : (p.toXyz avx).y ≤ (q.toXyz avx).y := by
    rw [C56_to_xyz, C56_to_xyz]
    simp only [Spec.weighted]
    exact Finset.sum_le_sum (f := fun i => p.values i * (wY : SPD ℝ).values i) fun i _ =>
      mul_le_mul_of_nonneg_right (h i) (hy0 i).le
  refine ⟨hx, hy, fun e => noDarker_of hx hy ?_, fun ⟨j, hj⟩ => lighter_of ?_⟩
  · rw [C56_to_xyz, C56_to_xyz]
    simp only [Spec.weighted]
    refine Finset.sum_le_sum (f := fun i => p.values i * (wZ : SPD ℝ).values i)
      (g := fun i => q.values i * (wZ : SPD ℝ).values i) fun i _ => ?_
    by_cases hi : i.val = 28
    · have : i = 28 := Fin.ext hi
      rw [this, e]
    · refine mul_le_mul_of_nonneg_right (h i) ?_
      show (0:ℝ) ≤ ((Tables.wZ.getD i.val 0 : ℚ) : ℝ)
      exact_mod_cast wZ_nonneg i hi
  · rw [C56_to_xyz, C56_to_xyz]
    simp only [Spec.weighted]
    exact Finset.sum_lt_sum (f := fun i => p.values i * (wY : SPD ℝ).values i) (fun i _ => mul_le_mul_of_nonneg_right (h i) (hy0 i).le)
      ⟨j, Finset.mem_univ _, mul_lt_mul_of_pos_right hj (hy0 j)⟩

/-- C116 [R]: raising the sample at 660 nm alone lowers Z. -/
theorem C116_z_counterexample (avx : Bool) (p q : SPD ℝ) (h : p.values 28 < q.values 28)
    (he : ∀ i, i ≠ 28 → p.values i = q.values i) : (q.toXyz avx).z < (p.toXyz avx).z := by
  rw [C56_to_xyz, C56_to_xyz]
  simp only [Spec.weighted]
  have hz : (wZ : SPD ℝ).values 28 < 0 := by
    show ((Tables.wZ.getD 28 0 : ℚ) : ℝ) < 0
    exact_mod_cast weights_pos.2.2.2.2.2
  refine Finset.sum_lt_sum (f := fun i : Fin 40 => q.values i * (wZ : SPD ℝ).values i)
    (g := fun i : Fin 40 => p.values i * (wZ : SPD ℝ).values i) (fun i _ => ?_) ⟨28, Finset.mem_univ _, ?_⟩
  · by_cases hi : i = 28
    · rw [hi]; exact mul_le_mul_of_nonpos_right h.le hz.le
    · rw [he i hi]
  · exact mul_lt_mul_of_neg_right h hz

/-- Not vacuous: a spectrum and a brighter one. -/
example : Spec.Dimmer (SPD.constant 0.2) (SPD.constant 0.5) ∧
    (∃ i, (SPD.constant 0.2 : SPD ℝ).values i < (SPD.constant 0.5 : SPD ℝ).values i) :=
  ⟨fun i => by simp only [SPD.constant]; norm_num, 0, by simp only [SPD.constant]; norm_num⟩

/-! ### the AVX path in floating point -/

section
variable {f : Fmt} [Libm f]

/-- `0 ≤ a ≤ b` -/
def Up (a b : FP f) : Prop := FP.le (FP.lit 0) a = true ∧ FP.le a b = true

omit [Libm f] in
theorem zero_fin : (FP.lit 0 : FP f).isFinite = true ∧ (FP.lit 0 : FP f).val = 0 := by
  rw [FP.lit_zero]; exact ⟨rfl, rfl⟩

omit [Libm f] in
theorem up_zero_ofQ {s : Bool} {q : ℚ} (h : 0 ≤ q) : FP.le (FP.lit 0) (FP.ofQ f s q) = true := by
  have h1 := FP.ofQ_le (f := f) (s := false) (t := s) h
  rw [FP.lit_zero]
  rwa [show FP.ofQ f false 0 = FP.fin 0 (FP.isRep_zero f) from FP.ofQ_zero false] at h1

theorem Up.add {a b c d : FP f} (h : Up a b) (h' : Up c d) : Up (a + c) (b + d) := by
  have e1 := fin_or_pinf h.1
  have e2 := fin_or_pinf h'.1
  have e3 := fin_or_pinf (FP.le_trans' h.1 h.2)
  have e4 := fin_or_pinf (FP.le_trans' h'.1 h'.2)
  have P : ∀ {x y : FP f}, (x = .pinf ∨ (x.isFinite = true ∧ 0 ≤ x.val)) → (y = .pinf ∨ (y.isFinite = true ∧ 0 ≤ y.val)) →
      FP.le (FP.lit 0) (x + y) = true ∧ ((x = .pinf ∨ y = .pinf) → x + y = .pinf) := by
    intro x y hx hy
    rcases hx with rfl | ⟨x1, x2⟩
    · have : (FP.pinf : FP f) + y = .pinf := by
        rcases hy with rfl | ⟨y1, y2⟩
        · rfl
        · cases y <;> first | rfl | simp [FP.isFinite] at y1
      rw [this]
      exact ⟨FP.le_pinf (FP.isNaN_of_finite zero_fin.1), fun _ => rfl⟩
    · rcases hy with rfl | ⟨y1, y2⟩
      · have : x + (FP.pinf : FP f) = .pinf := by
          cases x <;> first | rfl | simp [FP.isFinite] at x1
        rw [this]
        exact ⟨FP.le_pinf (FP.isNaN_of_finite zero_fin.1), fun _ => rfl⟩
      · obtain ⟨s, e⟩ := add_finite_eq x1 y1
        rw [e]
        refine ⟨up_zero_ofQ (by linarith), fun h => ?_⟩
        rcases h with rfl | rfl <;> simp [FP.isFinite] at x1 y1
  refine ⟨(P e1 e2).1, ?_⟩
  by_cases hb : b = .pinf ∨ d = .pinf
  · rw [(P e3 e4).2 hb]
    exact FP.le_pinf (FP.not_nan_right (P e1 e2).1)
  · rw [not_or] at hb
    obtain ⟨b1, b2⟩ := e3.resolve_left hb.1
    obtain ⟨d1, d2⟩ := e4.resolve_left hb.2
    have ha : a ≠ .pinf := fun ha => hb.1 (pinf_le (ha ▸ h.2))
    have hc : c ≠ .pinf := fun hc => hb.2 (pinf_le (hc ▸ h'.2))
    obtain ⟨a1, a2⟩ := e1.resolve_left ha
    obtain ⟨c1, c2⟩ := e2.resolve_left hc
    obtain ⟨s, e⟩ := add_finite_eq a1 c1
    obtain ⟨s', e'⟩ := add_finite_eq b1 d1
    rw [e, e']
    exact FP.ofQ_le (add_le_add (FP.val_le a1 b1 h.2) (FP.val_le c1 d1 h'.2))

omit [Libm f] in
theorem Up.mul {a b w : FP f} (h : Up a b) (ha : a.isFinite = true) (hb : b.isFinite = true) (hw : w.isFinite = true)
    (h0 : 0 ≤ w.val) : Up (a * w) (b * w) := by
  rw [FP.mul_finite_eq ha hw, FP.mul_finite_eq hb hw]
  have a0 := FP.val_le zero_fin.1 ha h.1
  rw [zero_fin.2] at a0
  exact ⟨up_zero_ofQ (mul_nonneg a0 h0), FP.ofQ_le (mul_le_mul_of_nonneg_right (FP.val_le ha hb h.2) h0)⟩

theorem avx_up {p q w : SPD (FP f)} (h : ∀ i, Up (p.values i) (q.values i) ∧ (p.values i).isFinite = true ∧
      (q.values i).isFinite = true) (hw : ∀ i, (w.values i).isFinite = true ∧ 0 ≤ (w.values i).val) :
    Up (avxChannel p w) (avxChannel q w) := by
  have hl : ∀ (k : Fin 5) (i : Fin 8), Up (lmul (loadLanes p k) (loadLanes w k) i) (lmul (loadLanes q k) (loadLanes w k) i) :=
    fun k i => (h _).1.mul (h _).2.1 (h _).2.2 (hw _).1 (hw _).2
  have hadd : ∀ {a b c d : Lanes (FP f)}, (∀ i, Up (a i) (b i)) → (∀ i, Up (c i) (d i)) →
      ∀ i, Up (ladd a c i) (ladd b d i) := fun h1 h2 i => (h1 i).add (h2 i)
  have hh : ∀ {a b : Lanes (FP f)}, (∀ i, Up (a i) (b i)) → ∀ i, Up (lhadd a a i) (lhadd b b i) := fun h1 i => by
    fin_cases i <;> exact (h1 _).add (h1 _)
  have hv := hadd (hadd (hadd (hl 0) (hl 1)) (hadd (hl 2) (hl 3))) (hl 4)
  exact hh (hh (hadd hv fun i => hv (i + 4))) 0

/-- C116 [F]: in every floating-point format, the AVX conversion with weights that are not negative never gives a
reflectance less X, Y or Z than another one that is nowhere brighter. There is no rounding that spoils the order. -/
theorem C116_avx (p q wx wy wz : SPD (FP f))
    (hp : ∀ i, (p.values i).isFinite = true ∧ 0 ≤ (p.values i).val) (hq : ∀ i, (q.values i).isFinite = true)
    (h : ∀ i, (p.values i).val ≤ (q.values i).val)
    (hw : ∀ w ∈ [wx, wy, wz], ∀ i, (w.values i).isFinite = true ∧ 0 ≤ (w.values i).val) :
    FP.le (spdToXyzAvx wx wy wz p).x (spdToXyzAvx wx wy wz q).x = true ∧
    FP.le (spdToXyzAvx wx wy wz p).y (spdToXyzAvx wx wy wz q).y = true ∧
    FP.le (spdToXyzAvx wx wy wz p).z (spdToXyzAvx wx wy wz q).z = true := by
  have hu : ∀ i, Up (p.values i) (q.values i) ∧ (p.values i).isFinite = true ∧ (q.values i).isFinite = true := fun i =>
    ⟨⟨FP.le_val zero_fin.1 (hp i).1 (by rw [zero_fin.2]; exact (hp i).2), FP.le_val (hp i).1 (hq i) (h i)⟩, (hp i).1, hq i⟩
  simp only [List.mem_cons, List.not_mem_nil, or_false, forall_eq_or_imp, forall_eq] at hw
  exact ⟨(avx_up hu hw.1).2, (avx_up hu hw.2.1).2, (avx_up hu hw.2.2).2⟩

/-- C116 [F]: with the built-in weights, in f32 (the type of `SPD`): X and Y never decrease. -/
theorem C116_avx_shipped (hf : Std f) (p q : SPD (FP f)) (hp : ∀ i, (p.values i).isFinite = true ∧ 0 ≤ (p.values i).val)
    (hq : ∀ i, (q.values i).isFinite = true) (h : ∀ i, (p.values i).val ≤ (q.values i).val) :
    FP.le (p.toXyz true).x (q.toXyz true).x = true ∧ FP.le (p.toXyz true).y (q.toXyz true).y = true := by
  have hw : ∀ t : List ℚ, (∀ i : Fin 40, 0 < t.getD i.val 0 ∧ t.getD i.val 0 ≤ 100) → ∀ i,
      ((SPD.ofTable t : SPD (FP f)).values i).isFinite = true ∧ 0 ≤ ((SPD.ofTable t : SPD (FP f)).values i).val := by
    intro t ht i
    have := in_lit (f := f) hf (L := 0) (H := 100) (by short) (by short) (ht i).1.le (ht i).2
    exact ⟨this.1, this.2.1⟩
  have hu : ∀ i, Up (p.values i) (q.values i) ∧ (p.values i).isFinite = true ∧ (q.values i).isFinite = true := fun i =>
    ⟨⟨FP.le_val zero_fin.1 (hp i).1 (by rw [zero_fin.2]; exact (hp i).2), FP.le_val (hp i).1 (hq i) (h i)⟩, (hp i).1, hq i⟩
  exact ⟨(avx_up hu (hw _ fun i => ⟨wX_pos i, wX_le i⟩)).2, (avx_up hu (hw _ fun i => ⟨wY_pos i, wY_le i⟩)).2⟩

/-- Not vacuous: 0 and 1 at all forty wavelengths. -/
example : (∀ i, ((SPD.constant (FP.lit 0) : SPD (FP Fmt.b32)).values i).isFinite = true ∧
      0 ≤ ((SPD.constant (FP.lit 0) : SPD (FP Fmt.b32)).values i).val) ∧
    (∀ i, ((SPD.constant (FP.lit 1) : SPD (FP Fmt.b32)).values i).isFinite = true) ∧
    ∀ i, ((SPD.constant (FP.lit 0) : SPD (FP Fmt.b32)).values i).val ≤ ((SPD.constant (FP.lit 1) : SPD (FP Fmt.b32)).values i).val := by
  obtain ⟨z1, z2⟩ := zero_fin (f := Fmt.b32)
  have o : (FP.lit 1 : FP Fmt.b32).isFinite = true ∧ 0 ≤ (FP.lit 1 : FP Fmt.b32).val := by decide +kernel
  exact ⟨fun i => ⟨z1, z2.ge⟩, fun i => o.1, fun i => z2.le.trans o.2⟩

end

/-! ### sampled spectra -/

section
variable {m j n : ℕ} {s : VSPD ℝ}

theorem Spec.SampledEvery.length (h : Spec.SampledEvery m j n s) : s.samples.length = n := by
  have := congrArg List.length h.wavelengths
  simpa [VSPD.wavelengths] using this

theorem Spec.SampledEvery.get (h : Spec.SampledEvery m j n s) {k : ℕ} (hk : k < n) :
    s.samples[k]? = some ⟨360 + ((j + k : ℕ) : ℝ) * m, s.values.getD k 0⟩ := by
  have hl := h.length
  have hw : s.wavelengths[k]? = some (360 + ((j + k : ℕ) : ℝ) * m) := by rw [h.wavelengths]; simp [hk]
  rw [List.getElem?_eq_getElem (by omega)]
  simp only [VSPD.wavelengths, List.getElem?_map, List.getElem?_eq_getElem (show k < s.samples.length by omega),
    Option.map_some, Option.some.injEq] at hw
  have hv : s.values.getD k 0 = s.samples[k].v := by
    simp [VSPD.values, List.getD_eq_getElem?_getD, List.getElem?_eq_getElem (show k < s.samples.length by omega)]
  rw [hv, ← hw]

theorem Spec.SampledEvery.asc (h : Spec.SampledEvery m j n s) (hm : 0 < m) : s.wavelengths.Pairwise (· < ·) := by
  rw [h.wavelengths, List.pairwise_map]
  refine List.pairwise_lt_range.imp fun {a b} hab => ?_
  have : ((j + a : ℕ) : ℝ) < ((j + b : ℕ) : ℝ) := by exact_mod_cast Nat.add_lt_add_left hab j
  have hm' : (0:ℝ) < m := by exact_mod_cast hm
  nlinarith

theorem Spec.SampledEvery.spans (h : Spec.SampledEvery m j n s) (hm : 0 < m) (hn : 2 ≤ n) (hj : j * m ≤ 420) :
    Spans s 360 780 m := by
  have hm' : (0:ℝ) < m := by exact_mod_cast hm
  have hj' : (j:ℝ) * m ≤ 420 := by exact_mod_cast hj
  have h0 : (0:ℝ) ≤ (j:ℝ) * m := by positivity
  have hl := h.length
  refine ⟨by omega, h.asc hm, ?_, ?_, ?_, Or.inr ⟨j, ?_⟩, Or.inr ⟨j + (n - 1), ?_⟩⟩
  · rw [List.head?_eq_getElem?, h.get (by omega), h.shape]
    simp [SpdShape.new]
  · rw [List.getLast?_eq_getElem?, hl, h.get (by omega), h.shape]
    simp [SpdShape.new]
  · rw [h.shape]
    have : (0:ℝ) ≤ ((n - 1 : ℕ) : ℝ) * m := by positivity
    simp only [SpdShape.new, max_le_iff, le_min_iff]
    push_cast
    refine ⟨⟨by norm_num, by nlinarith⟩, by linarith, by nlinarith⟩
  · rw [h.shape]; rfl
  · rw [h.shape]; rfl

theorem Spec.SampledEvery.resampled (h : Spec.SampledEvery m j n s) (hm : 0 < m) (hn : 2 ≤ n) (i : ℕ) :
    resampled s (360 + i * m) = s.values.getD (min (i - j) (n - 1)) 0 := by
  have hm' : (0:ℝ) < m := by exact_mod_cast hm
  have hc : min (i - j) (n - 1) < n := by omega
  have hg := C40_passes_samples s (by rw [h.length]; omega) (h.asc hm) _ (List.mem_iff_getElem?.2 ⟨_, h.get hc⟩)
  have key : max s.shape.start (min (360 + (i:ℝ) * m) s.shape.end) = 360 + ((j + min (i - j) (n - 1) : ℕ) : ℝ) * m := by
    rw [h.shape]
    simp only [SpdShape.new]
    rcases le_total i j with hij | hij
    · have e : min (i - j) (n - 1) = 0 := by omega
      rw [e, max_eq_left, Nat.add_zero]
      refine (min_le_left _ _).trans ?_
      have : (i:ℝ) ≤ j := by exact_mod_cast hij
      nlinarith
    · rcases le_total (i - j) (n - 1) with h1 | h1
      · rw [min_eq_left h1, Nat.add_sub_cancel' hij]
        have a1 : (i:ℝ) ≤ ((j + (n - 1) : ℕ) : ℝ) := by exact_mod_cast (by omega : i ≤ j + (n - 1))
        have a2 : (j:ℝ) ≤ i := by exact_mod_cast hij
        rw [min_eq_left (by nlinarith), max_eq_right (by nlinarith)]
      · rw [min_eq_right h1]
        have a1 : ((j + (n - 1) : ℕ) : ℝ) ≤ (i:ℝ) := by exact_mod_cast (by omega : j + (n - 1) ≤ i)
        have a2 : (j:ℝ) ≤ ((j + (n - 1) : ℕ) : ℝ) := by exact_mod_cast (by omega : j ≤ j + (n - 1))
        rw [min_eq_right (by nlinarith), max_eq_right (by nlinarith)]
  unfold CS.resampled
  rw [key, hg]

end

theorem shipped_pos : ∀ e ∈ dSeriesQ, ∀ k ∈ List.range 421, 0 < dQ (e.1.map Prod.snd) k := by decide +kernel

theorem bars_pos : ∀ k ∈ List.range 421, 0 ≤ (Spectra.xBar.map Prod.snd).getD k 0 ∧
    0 < (Spectra.yBar.map Prod.snd).getD k 0 ∧ 0 ≤ (Spectra.zBar.map Prod.snd).getD k 0 := by decide +kernel

theorem tristimulus_mono (n : ℕ) (R R' S c y : ℕ → ℝ) (h : ∀ k < n, R k ≤ R' k) (hS : ∀ k < n, 0 < S k)
    (hc : ∀ k < n, 0 ≤ c k) (hy : ∀ k < n, 0 < y k) : Spec.tristimulus n R S c y ≤ Spec.tristimulus n R' S c y := by
  unfold Spec.tristimulus
  refine div_le_div_of_nonneg_right ?_ (Finset.sum_nonneg fun k hk => (mul_pos (hS k (Finset.mem_range.1 hk))
    (hy k (Finset.mem_range.1 hk))).le)
  refine mul_le_mul_of_nonneg_left (Finset.sum_le_sum fun k hk => ?_) (by norm_num)
  have hk := Finset.mem_range.1 hk
  exact mul_le_mul_of_nonneg_right (mul_le_mul_of_nonneg_right (h k hk) (hS k hk).le) (hc k hk)

theorem tristimulus_strict (n : ℕ) (R R' S y : ℕ → ℝ) (h : ∀ k < n, R k ≤ R' k) (hS : ∀ k < n, 0 < S k)
    (hy : ∀ k < n, 0 < y k) (j : ℕ) (hj : j < n) (hlt : R j < R' j) :
    Spec.tristimulus n R S y y < Spec.tristimulus n R' S y y := by
  unfold Spec.tristimulus
  refine div_lt_div_of_pos_right ?_ (Finset.sum_pos (fun k hk => mul_pos (hS k (Finset.mem_range.1 hk))
    (hy k (Finset.mem_range.1 hk))) ⟨j, Finset.mem_range.2 hj⟩)
  refine mul_lt_mul_of_pos_left (Finset.sum_lt_sum (fun k hk => ?_) ⟨j, Finset.mem_range.2 hj, ?_⟩) (by norm_num)
  · have hk := Finset.mem_range.1 hk
    exact mul_le_mul_of_nonneg_right (mul_le_mul_of_nonneg_right (h k hk) (hS k hk).le) (hy k hk).le
  · exact mul_lt_mul_of_pos_right (mul_lt_mul_of_pos_right hlt (hS j hj)) (hy j hj)

theorem dimmer_xyz (e : List (ℚ × ℚ) × XYY ℝ) (he : e ∈ Spec.dSeries) (il : VSPD ℝ) (cmf : CMF ℝ) (hl : Loaded e.1 il cmf)
    (m n : ℕ) (hmn : (n - 1) * m < 421) (R R' : ℕ → ℝ) (h : ∀ k < n, R k ≤ R' k) :
    let X (R : ℕ → ℝ) := Spec.xyz n R (fun k => resampled il (360 + k * m)) (fun k => resampled cmf.xBar (360 + k * m))
      (fun k => resampled cmf.yBar (360 + k * m)) (fun k => resampled cmf.zBar (360 + k * m))
    Spec.NoDarker (X R) (X R') ∧ (∀ j < n, R j < R' j → Spec.Lighter (X R) (X R')) := by
  obtain ⟨q, hq, h1, -, -⟩ := dSeries_mem he
  have hk : ∀ k < n, k * m < 421 := fun k hk => lt_of_le_of_lt (Nat.mul_le_mul_right _ (by omega)) hmn
  have hS : ∀ k < n, 0 < resampled il (360 + k * m) := fun k h => by
    have e1 := hl.il _ (hk k h)
    push_cast at e1
    rw [e1, ← h1]
    exact_mod_cast shipped_pos q hq _ (List.mem_range.2 (hk k h))
  have hx : ∀ k < n, 0 ≤ resampled cmf.xBar (360 + k * m) := fun k h => by
    have e1 := hl.x _ (hk k h)
    push_cast at e1
    rw [e1]
    exact_mod_cast (bars_pos _ (List.mem_range.2 (hk k h))).1
  have hy : ∀ k < n, 0 < resampled cmf.yBar (360 + k * m) := fun k h => by
    have e1 := hl.y _ (hk k h)
    push_cast at e1
    rw [e1]
    exact_mod_cast (bars_pos _ (List.mem_range.2 (hk k h))).2.1
  have hz : ∀ k < n, 0 ≤ resampled cmf.zBar (360 + k * m) := fun k h => by
    have e1 := hl.z _ (hk k h)
    push_cast at e1
    rw [e1]
    exact_mod_cast (bars_pos _ (List.mem_range.2 (hk k h))).2.2
  intro X
  exact ⟨noDarker_of (tristimulus_mono n R R' _ _ _ h hS hx hy) (tristimulus_mono n R R' _ _ _ h hS (fun k h => (hy k h).le) hy)
    (tristimulus_mono n R R' _ _ _ h hS hz hy), fun j hj hlt => lighter_of (tristimulus_strict n R R' _ _ h hS hy j hj hlt)⟩

theorem forall2_getD {a b : List ℝ} (h : List.Forall₂ (· ≤ ·) a b) (k : ℕ) : a.getD k 0 ≤ b.getD k 0 := by
  induction h generalizing k with
  | nil => exact le_rfl
  | cons h _ ih => cases k with
    | zero => exact h
    | succ k => exact ih k

theorem below_resampled {m j n : ℕ} {s t : VSPD ℝ} (hs : Spec.SampledEvery m j n s) (ht : Spec.SampledEvery m j n t)
    (h : Spec.Below s t) (hm : 0 < m) (hn : 2 ≤ n) (i : ℕ) : resampled s (360 + i * m) ≤ resampled t (360 + i * m) := by
  rw [hs.resampled hm hn, ht.resampled hm hn]
  exact forall2_getD h _

theorem somewhere_resampled {m j n : ℕ} {s t : VSPD ℝ} (n' : ℕ) (hs : Spec.SampledEvery m j n s)
    (ht : Spec.SampledEvery m j n t) (h : Spec.SomewhereBelow s t) (hm : 0 < m) (hn : 2 ≤ n)
    (hn' : ∀ i, i * m ≤ 420 → i < n') :
    ∃ i < n', resampled s (360 + i * m) < resampled t (360 + i * m) := by
  obtain ⟨x, u, v, hx, hu, hv, huv⟩ := h
  have hm' : (0:ℝ) < m := by exact_mod_cast hm
  obtain ⟨k, hk⟩ := List.mem_iff_getElem?.1 hu
  obtain ⟨l, hl'⟩ := List.mem_iff_getElem?.1 hv
  have hkn : k < n := hs.length ▸ (List.getElem?_eq_some_iff.1 hk).1
  have hln : l < n := ht.length ▸ (List.getElem?_eq_some_iff.1 hl').1
  rw [hs.get hkn] at hk
  rw [ht.get hln] at hl'
  simp only [Option.some.injEq, Sample.mk.injEq] at hk hl'
  have hkl : k = l := by
    have e := hk.1.trans hl'.1.symm
    have e' : ((j + k : ℕ) : ℝ) = ((j + l : ℕ) : ℝ) := by
      have := add_left_cancel e
      exact mul_right_cancel₀ hm'.ne' this
    have := Nat.cast_injective e'
    omega
  subst hkl
  refine ⟨j + k, hn' _ ?_, ?_⟩
  · have : (((j + k) * m : ℕ) : ℝ) ≤ ((420 : ℕ) : ℝ) := by
      rw [← hk.1] at hx
      push_cast at hx ⊢
      linarith
    exact_mod_cast this
  · have e : min (j + k - j) (n - 1) = k := by omega
    rw [hs.resampled hm hn, ht.resampled hm hn, e, hk.2, hl'.2]
    exact huv

/-- C116 [R]: of two spectra sampled every nanometre over the same range, which must meet 360..780 nm, under any of the
shipped D illuminants, the one that nowhere reflects less has no less X, Y, Z and lightness; and if somewhere up to 780 nm
it reflects more, its luminance and lightness are greater. -/
theorem C116_one_nm (e : List (ℚ × ℚ) × XYY ℝ) (he : e ∈ Spec.dSeries) (il : VSPD ℝ) (cmf : CMF ℝ)
    (hil : Spectra.vspd e.1 = .ok il) (hc : Spectra.cie1931 = .ok cmf) (s t : VSPD ℝ) (j n : ℕ) (hn : 2 ≤ n) (hj : j * 1 ≤ 420)
    (hs : Spec.SampledEvery 1 j n s) (ht : Spec.SampledEvery 1 j n t) (h : Spec.Below s t) :
    ∃ N, ∀ fuel, N ≤ fuel → ∃ p q, s.toXyz fuel il cmf = .ok p ∧ t.toXyz fuel il cmf = .ok q ∧ Spec.NoDarker p q ∧
      (Spec.SomewhereBelow s t → Spec.Lighter p q) := by
  obtain ⟨qq, hq, h1, -, -⟩ := dSeries_mem he
  have hl := loaded e.1 (h1 ▸ (dSeries_grid qq hq).1) (h1 ▸ (dSeries_grid qq hq).2) il cmf hil hc
  have hfl : ⌊(1:ℝ)⌋₊ = 1 := Nat.floor_one
  obtain ⟨N1, e1⟩ := C69_one_nm s il cmf hl.tables (by simpa using hs.spans one_pos hn hj) 1
    (by rw [hs.shape]; norm_num [SpdShape.new]) (by norm_num) (by norm_num) (by rw [hfl]; norm_num) (by rw [hfl]; norm_num)
  obtain ⟨N2, e2⟩ := C69_one_nm t il cmf hl.tables (by simpa using ht.spans one_pos hn hj) 1
    (by rw [ht.shape]; norm_num [SpdShape.new]) (by norm_num) (by norm_num) (by rw [hfl]; norm_num) (by rw [hfl]; norm_num)
  refine ⟨max N1 N2, fun fuel hN => ⟨_, _, e1 fuel (le_trans (le_max_left _ _) hN), e2 fuel (le_trans (le_max_right _ _) hN), ?_⟩⟩
  have := dimmer_xyz e he il cmf hl 1 421 (by norm_num) (fun k => resampled s (360 + k * (1:ℕ)))
    (fun k => resampled t (360 + k * (1:ℕ))) (fun i _ => below_resampled hs ht h (by norm_num) hn i)
  refine ⟨by simpa using this.1, fun hb => ?_⟩
  obtain ⟨k, hk, hlt⟩ := somewhere_resampled 421 hs ht hb (by norm_num) hn (fun i hi => by omega)
  simpa using this.2 k hk hlt

/-- C116 [R]: the same for spectra sampled every 5 nm on the grid through 360 nm. -/
theorem C116_five_nm (e : List (ℚ × ℚ) × XYY ℝ) (he : e ∈ Spec.dSeries) (il : VSPD ℝ) (cmf : CMF ℝ)
    (hil : Spectra.vspd e.1 = .ok il) (hc : Spectra.cie1931 = .ok cmf) (s t : VSPD ℝ) (j n : ℕ) (hn : 2 ≤ n) (hj : j * 5 ≤ 420)
    (hs : Spec.SampledEvery 5 j n s) (ht : Spec.SampledEvery 5 j n t) (h : Spec.Below s t) :
    ∃ N, ∀ fuel, N ≤ fuel → ∃ p q, s.toXyz fuel il cmf = .ok p ∧ t.toXyz fuel il cmf = .ok q ∧ Spec.NoDarker p q ∧
      (Spec.SomewhereBelow s t → Spec.Lighter p q) := by
  obtain ⟨qq, hq, h1, -, -⟩ := dSeries_mem he
  have hl := loaded e.1 (h1 ▸ (dSeries_grid qq hq).1) (h1 ▸ (dSeries_grid qq hq).2) il cmf hil hc
  have hfl : ⌊(5:ℝ)⌋₊ = 5 := by simp
  obtain ⟨N1, e1⟩ := C69_five_nm s il cmf hl.tables (by simpa using hs.spans (by norm_num) hn hj) 5
    (by rw [hs.shape]; norm_num [SpdShape.new]) hfl
  obtain ⟨N2, e2⟩ := C69_five_nm t il cmf hl.tables (by simpa using ht.spans (by norm_num) hn hj) 5
    (by rw [ht.shape]; norm_num [SpdShape.new]) hfl
  refine ⟨max N1 N2, fun fuel hN => ⟨_, _, e1 fuel (le_trans (le_max_left _ _) hN), e2 fuel (le_trans (le_max_right _ _) hN), ?_⟩⟩
  have := dimmer_xyz e he il cmf hl 5 85 (by norm_num) (fun k => resampled s (360 + k * (5:ℕ)))
    (fun k => resampled t (360 + k * (5:ℕ))) (fun i _ => below_resampled hs ht h (by norm_num) hn i)
  refine ⟨by simpa using this.1, fun hb => ?_⟩
  obtain ⟨k, hk, hlt⟩ := somewhere_resampled 85 hs ht hb (by norm_num) hn (fun i hi => by omega)
  simpa using this.2 k hk hlt

theorem ramp_sampled (m j n : ℕ) (g : ℝ → ℝ) : Spec.SampledEvery m j n
    (onGrid (360 + j * m) (360 + ((j + (n - 1) : ℕ) : ℝ) * m) m n g) :=
  ⟨rfl, by simp only [VSPD.wavelengths, onGrid, List.map_map]; refine List.map_congr_left fun k _ => ?_; simp; ring⟩

/-- Not vacuous: two ramps from 400 nm to 700 nm, every 5 nm and every nanometre, the second brighter by 0.1. -/
example (m n j : ℕ) (hm : (m, n, j) ∈ [(5, 61, 8), (1, 301, 40)]) :
    let s (c : ℝ) : VSPD ℝ := onGrid (360 + j * m) (360 + ((j + (n - 1) : ℕ) : ℝ) * m) m n fun x => x / 1000 + c
    Spec.SampledEvery m j n (s 0) ∧ Spec.SampledEvery m j n (s 0.1) ∧ 2 ≤ n ∧ j * m ≤ 420 ∧ Spec.Below (s 0) (s 0.1) ∧
      Spec.SomewhereBelow (s 0) (s 0.1) := by
  intro s
  have hn : 2 ≤ n ∧ j * m ≤ 420 := by
    simp only [List.mem_cons, Prod.mk.injEq, List.not_mem_nil, or_false] at hm
    rcases hm with ⟨rfl, rfl, rfl⟩ | ⟨rfl, rfl, rfl⟩ <;> norm_num
  refine ⟨ramp_sampled m j n _, ramp_sampled m j n _, hn.1, hn.2, ?_, 360 + j * m, (360 + j * m) / 1000 + 0,
    (360 + j * m) / 1000 + 0.1, ?_, ?_, ?_, by norm_num⟩
  · simp only [Spec.Below, s, onGrid, VSPD.values, List.map_map, List.forall₂_map_left_iff, List.forall₂_map_right_iff]
    exact List.forall₂_same.2 fun k _ => by simp only [Function.comp_apply]; norm_num
  · have : ((j * m : ℕ) : ℝ) ≤ ((420 : ℕ) : ℝ) := by exact_mod_cast hn.2
    push_cast at this
    linarith
  · simp only [s, onGrid, List.mem_map]
    exact ⟨0, List.mem_range.2 (by omega), by simp⟩
  · simp only [s, onGrid, List.mem_map]
    exact ⟨0, List.mem_range.2 (by omega), by simp⟩

end CS

import Verif.Lemmas.FPDot
import Verif.Lemmas.TripEval
import Verif.Props.Spectra

/-!
# Uplifting in floating point (C59) and the Smits spectra (C84)
-/

namespace CS

/-! ## C59 in f64 -/

theorem fromValues_eq {T : Type} [Add T] [Sub T] [Mul T] [Div T] [Neg T] [Flt T] {a b i : T} {n : ℕ}
    {v : List T} (h1 : Flt.asUInt (2 ^ 64 - 1) ((b - a) / i) = n) (h2 : Flt.toUsize ((b - a) / i) = some n)
    (hv : v.length = n + 1) (hn : 1 ≤ n) : VSPD.fromValues (SpdShape.new a b i) v =
      .ok ⟨(((List.range (n + 1)).map fun k => a + Flt.ofNat k * i).zip v).map fun p => ⟨p.1, p.2⟩,
        SpdShape.new a b i⟩ := by
  have hw := wavelengths_eq (s := SpdShape.new a b i) (i := i) (n := n) rfl h2
  unfold VSPD.fromValues
  rw [if_neg (by omega)]
  show (if Flt.asUInt (2 ^ 64 - 1) ((b - a) / i) + 1 ≠ v.length then _ else _) = _
  rw [h1, if_neg (by omega), hw]
  rfl

theorem my_shape64 [Libm Fmt.b64] : Flt.asUInt (2 ^ 64 - 1)
      (((Flt.lit 780.0 : FP Fmt.b64) - Flt.lit 380.0) / Flt.lit 5.0) = 80 ∧
    Flt.toUsize (((Flt.lit 780.0 : FP Fmt.b64) - Flt.lit 380.0) / Flt.lit 5.0) = some 80 :=
  (of_decide_eq_true (by krefl) : FP.asUInt (2 ^ 64 - 1)
      (((FP.lit 780.0 : FP Fmt.b64) - FP.lit 380.0) / FP.lit 5.0) = 80 ∧
    FP.toUsize (((FP.lit 780.0 : FP Fmt.b64) - FP.lit 380.0) / FP.lit 5.0) = some 80)

theorem my_nm64 : ∀ k < 81, FP.same ((FP.lit 380.0 : FP Fmt.b64) + FP.ofQ Fmt.b64 false (k : ℕ) * FP.lit 5.0)
    (FP.lit ((380 + k * 5 : ℕ) : ℚ)) = true := of_decide_eq_true (by krefl)

theorem my_lit64 : ∀ k < 81,
    ((FP.lit (Tables.myR.getD k 0) : FP Fmt.b64).isFinite = true ∧
      |(FP.lit (Tables.myR.getD k 0) : FP Fmt.b64).val - Tables.myR.getD k 0| ≤ 1 / 2 ^ 53 ∧
    (FP.lit (Tables.myG.getD k 0) : FP Fmt.b64).isFinite = true ∧
      |(FP.lit (Tables.myG.getD k 0) : FP Fmt.b64).val - Tables.myG.getD k 0| ≤ 1 / 2 ^ 53 ∧
    (FP.lit (Tables.myB.getD k 0) : FP Fmt.b64).isFinite = true ∧
      |(FP.lit (Tables.myB.getD k 0) : FP Fmt.b64).val - Tables.myB.getD k 0| ≤ 1 / 2 ^ 53) :=
  of_decide_eq_true (by krefl)

theorem my_grid64 [Libm Fmt.b64] (t : List ℚ) (h : t.length = 81) :
    VSPD.fromValues (SpdShape.new (Flt.lit 380.0) (Flt.lit 780.0) (Flt.lit 5.0))
      (t.map (Flt.lit : ℚ → FP Fmt.b64)) =
      .ok ⟨(List.range 81).map fun k => ⟨FP.lit ((380 + k * 5 : ℕ) : ℚ), FP.lit (t.getD k 0)⟩,
        SpdShape.new (Flt.lit 380.0) (Flt.lit 780.0) (Flt.lit 5.0)⟩ := by
  obtain ⟨h1, h2⟩ := my_shape64
  rw [fromValues_eq (n := 80) h1 h2 (by simp [h]) (by norm_num)]
  congr 2
  apply List.ext_getElem
  · simp [h]
  · intro k hk hk'
    have hk2 : k < 81 := by simpa using hk'
    simp only [List.getElem_map, List.getElem_zip, List.getElem_range]
    rw [List.getD_eq_getElem _ _ (by omega)]
    congr 1
    exact FP.same_sound (my_nm64 k hk2)

theorem my_val64 [Libm Fmt.b64] (rgb : RGBf (FP Fmt.b64)) (k : ℕ) (hk : k < 81) (M : ℚ) (hM0 : 1 / 2 ^ 90 ≤ M)
    (hM1 : M ≤ 2 ^ 100) (hc : ∀ i, (rgbVec rgb i).isFinite = true ∧ |(rgbVec rgb i).val| ≤ M) :
    (FP.lit (Tables.myR.getD k 0) * rgb.r + FP.lit (Tables.myG.getD k 0) * rgb.g +
      FP.lit (Tables.myB.getD k 0) * rgb.b).isFinite = true ∧
    |(FP.lit (Tables.myR.getD k 0) * rgb.r + FP.lit (Tables.myG.getD k 0) * rgb.g +
      FP.lit (Tables.myB.getD k 0) * rgb.b).val - (Tables.myR.getD k 0 * rgb.r.val +
        Tables.myG.getD k 0 * rgb.g.val + Tables.myB.getD k 0 * rgb.b.val)| ≤ 1e-15 * M := by
  obtain ⟨f1, e1, f2, e2, f3, e3⟩ := my_lit64 k hk
  obtain ⟨g1, g2, g3, g4, g5⟩ := my_facts k hk
  obtain ⟨c1, d1⟩ := hc 0
  obtain ⟨c2, d2⟩ := hc 1
  obtain ⟨c3, d3⟩ := hc 2
  change rgb.r.isFinite = true at c1
  change rgb.g.isFinite = true at c2
  change rgb.b.isFinite = true at c3
  change |rgb.r.val| ≤ M at d1
  change |rgb.g.val| ≤ M at d2
  change |rgb.b.val| ≤ M at d3
  have hMp : 0 < M := lt_of_lt_of_le (by positivity) hM0
  have key : ∀ {l q c : ℚ}, |l - q| ≤ 1 / 2 ^ 53 → 0 ≤ q → |c| ≤ M →
      |l * c| ≤ (q + 1 / 2 ^ 53) * M ∧ |l * c - q * c| ≤ 1 / 2 ^ 53 * M := by
    intro l q c h1 h2 h3
    constructor
    · rw [abs_mul]
      refine mul_le_mul ?_ h3 (abs_nonneg _) (by positivity)
      have := abs_add_le (l - q) q
      rw [sub_add_cancel, abs_of_nonneg h2] at this
      linarith
    · rw [← sub_mul, abs_mul]
      exact mul_le_mul h1 h3 (abs_nonneg _) (by positivity)
  obtain ⟨p1, q1⟩ := key e1 g1 d1
  obtain ⟨p2, q2⟩ := key e2 g2 d2
  obtain ⟨p3, q3⟩ := key e3 g3 d3
  have hS : |(FP.lit (Tables.myR.getD k 0) : FP Fmt.b64).val * rgb.r.val| +
      |(FP.lit (Tables.myG.getD k 0) : FP Fmt.b64).val * rgb.g.val| +
      |(FP.lit (Tables.myB.getD k 0) : FP Fmt.b64).val * rgb.b.val| ≤ 1.0001 * M := by
    have h : (Tables.myR.getD k 0 + Tables.myG.getD k 0 + Tables.myB.getD k 0 + 3 / 2 ^ 53) * M ≤ 1.0001 * M :=
      mul_le_mul_of_nonneg_right (by norm_num at g5 ⊢; linarith) hMp.le
    linarith
  obtain ⟨a, b⟩ := dot3_err f1 f2 f3 c1 c2 c3 (hS.trans (by
    have : (2:ℚ) ^ 102 ≤ 2 ^ Fmt.b64.emax / 2 := by
      rw [le_div_iff₀ (by norm_num), ← pow_succ]
      exact pow_le_pow_right₀ (by norm_num) (by norm_num [Fmt.b64])
    refine le_trans ?_ this
    norm_num at hM1 ⊢; linarith))
  refine ⟨a, ?_⟩
  have hu : Fmt.b64.u = 1 / 2 ^ 53 := rfl
  have he : Fmt.b64.eta ≤ Fmt.b64.u / 2 ^ 124 := wide_b64.heta
  rw [hu] at b he
  have he' : 5 * Fmt.b64.eta ≤ 1 / 2 ^ 60 * M := by
    have : (5:ℚ) * (1 / 2 ^ 53 / 2 ^ 124) ≤ 1 / 2 ^ 60 * (1 / 2 ^ 90) := by norm_num
    have h2 : (1:ℚ) / 2 ^ 60 * (1 / 2 ^ 90) ≤ 1 / 2 ^ 60 * M := mul_le_mul_of_nonneg_left hM0 (by positivity)
    linarith
  have b' : 4 * (1 / 2 ^ 53) * (|(FP.lit (Tables.myR.getD k 0) : FP Fmt.b64).val * rgb.r.val| +
      |(FP.lit (Tables.myG.getD k 0) : FP Fmt.b64).val * rgb.g.val| +
      |(FP.lit (Tables.myB.getD k 0) : FP Fmt.b64).val * rgb.b.val|) ≤ 4 * (1 / 2 ^ 53) * (1.0001 * M) :=
    mul_le_mul_of_nonneg_left hS (by positivity)
  obtain ⟨x1, x2⟩ := abs_le.1 b
  obtain ⟨y1, y2⟩ := abs_le.1 q1
  obtain ⟨y3, y4⟩ := abs_le.1 q2
  obtain ⟨y5, y6⟩ := abs_le.1 q3
  rw [abs_le]
  have hnum : 4 * (1 / 2 ^ 53) * (1.0001 * M) + 1 / 2 ^ 60 * M + 3 * (1 / 2 ^ 53 * M) ≤ 1e-15 * M := by
    have h : (4 * (1 / 2 ^ 53) * 1.0001 + 1 / 2 ^ 60 + 3 * (1 / 2 ^ 53) : ℚ) ≤ 1e-15 := by norm_num
    calc _ = (4 * (1 / 2 ^ 53) * 1.0001 + 1 / 2 ^ 60 + 3 * (1 / 2 ^ 53) : ℚ) * M := by ring
      _ ≤ _ := mul_le_mul_of_nonneg_right h hMp.le
  constructor <;> linarith

/-- the spectrum `uplift_my` returns in f64, with its roundings -/
theorem uplift64 [Libm Fmt.b64] (rgb : RGBf (FP Fmt.b64)) :
    upliftMy rgb = .ok ⟨(List.range 81).map fun k => ⟨FP.lit ((380 + k * 5 : ℕ) : ℚ), FP.lit (Tables.myR.getD k 0) * rgb.r +
      FP.lit (Tables.myG.getD k 0) * rgb.g + FP.lit (Tables.myB.getD k 0) * rgb.b⟩,
      SpdShape.new (Flt.lit 380) (Flt.lit 780) (Flt.lit 5)⟩ := by
  have l1 : Tables.myR.length = 81 := by decide +kernel
  have l2 : Tables.myG.length = 81 := by decide +kernel
  have l3 : Tables.myB.length = 81 := by decide +kernel
  let v : ℕ → FP Fmt.b64 := fun k => FP.lit (Tables.myR.getD k 0) * rgb.r +
    FP.lit (Tables.myG.getD k 0) * rgb.g + FP.lit (Tables.myB.getD k 0) * rgb.b
  let L : List (Sample (FP Fmt.b64)) :=
    (List.range 81).map fun k => ⟨FP.lit ((380 + k * 5 : ℕ) : ℚ), v k⟩
  have hup : upliftMy rgb = VSPD.new L := by
    unfold upliftMy myBasis
    rw [my_grid64 _ l1, my_grid64 _ l2, my_grid64 _ l3]
    simp only [bind, Except.bind]
    refine congrArg VSPD.new ?_
    apply List.ext_getElem
    · simp [L, VSPD.wavelengths, VSPD.values]
    · intro k hk hk'
      simp [L, v, VSPD.wavelengths, VSPD.values]
  let t : List (ℚ × ℚ) := (List.range 81).map fun k : ℕ => ((380 : ℚ) + k * 5, 0)
  have hg : OnGrid t 380 5 81 := by
    simp [OnGrid, t, Function.comp_def]
  have hn := vspd_ieee (f := Fmt.b64) t 380 5 81 (by norm_num) (by norm_num) hg
    (by norm_num [Fmt.b64]) (by norm_num)
  have hs : calculateShape L = .ok (SpdShape.new (Flt.lit 380) (Flt.lit 780) (Flt.lit 5)) := by
    rw [calculateShape_congr L (Spec.rows t) (by
      simp [L, t, Spec.rows, Function.comp_def, FP.flt_lit])]
    have hn' : VSPD.new (Spec.rows t : List (Sample (FP Fmt.b64))) = _ := hn
    unfold VSPD.new at hn'
    cases hc : calculateShape (Spec.rows t : List (Sample (FP Fmt.b64))) with
    | error p => rw [hc] at hn'; cases hn'
    | ok sh =>
      rw [hc] at hn'
      simp only [bind, Except.bind, Except.ok.injEq, VSPD.mk.injEq] at hn'
      rw [hn'.2]
      norm_num
  rw [hup, VSPD.new, hs]; rfl

/-- C59 [F]: in f64 `uplift_my` always returns 81 samples at exactly 380, 385, ..., 780 nm, labelled as
such; for finite components up to `M` in magnitude sample `k` is within `1e-15 M` of the combination of
the three basis values with the red, green and blue components. -/
theorem C59_f64 [Libm Fmt.b64] (rgb : RGBf (FP Fmt.b64)) :
    ∃ s, upliftMy rgb = .ok s ∧ s.shape = SpdShape.new (Flt.lit 380) (Flt.lit 780) (Flt.lit 5) ∧
    s.samples.length = 81 ∧ ∀ k : ℕ, k < 81 → ∃ p, s.samples[k]? = some p ∧
      p.nm.isFinite = true ∧ p.nm.val = 380 + 5 * k ∧
      ∀ M : ℚ, 1 / 2 ^ 90 ≤ M → M ≤ 2 ^ 100 → (∀ i, (rgbVec rgb i).isFinite = true ∧ |(rgbVec rgb i).val| ≤ M) →
        p.v.isFinite = true ∧
        |p.v.val - (Tables.myR.getD k 0 * rgb.r.val + Tables.myG.getD k 0 * rgb.g.val +
          Tables.myB.getD k 0 * rgb.b.val)| ≤ 1e-15 * M := by
  refine ⟨_, uplift64 rgb, rfl, by simp, ?_⟩
  intro k hk
  refine ⟨⟨FP.lit ((380 + k * 5 : ℕ) : ℚ), FP.lit (Tables.myR.getD k 0) * rgb.r +
    FP.lit (Tables.myG.getD k 0) * rgb.g + FP.lit (Tables.myB.getD k 0) * rgb.b⟩, by simp [hk], ?_, ?_, ?_⟩
  · rw [FP.lit_nat _ (by norm_num [Fmt.b64]; omega) (by norm_num; omega)]; rfl
  · dsimp only
    rw [FP.lit_nat _ (by norm_num [Fmt.b64]; omega) (by norm_num; omega), FP.val_fin]; push_cast; ring
  intro M hM0 hM1 hc
  exact my_val64 rgb k hk M hM0 hM1 hc

/-- Not vacuous: the colour (1/2, 1, 3/4), with `M = 1`. -/
example [Libm Fmt.b64] : ∃ s p, upliftMy (⟨dyadic Fmt.b64 1 1, dyadic Fmt.b64 1 0, dyadic Fmt.b64 3 2⟩ :
    RGBf (FP Fmt.b64)) = .ok s ∧ s.samples[0]? = some p ∧ p.nm.val = 380 ∧
    |p.v.val - (Tables.myR.getD 0 0 * (1 / 2) + Tables.myG.getD 0 0 + Tables.myB.getD 0 0 * (3 / 4))| ≤ 1e-15 := by
  obtain ⟨s, h1, -, -, h2⟩ := C59_f64 ⟨dyadic Fmt.b64 1 1, dyadic Fmt.b64 1 0, dyadic Fmt.b64 3 2⟩
  obtain ⟨p, h3, -, h4, h5⟩ := h2 0 (by norm_num)
  have hv : ∀ i, (rgbVec (⟨dyadic Fmt.b64 1 1, dyadic Fmt.b64 1 0, dyadic Fmt.b64 3 2⟩ : RGBf (FP Fmt.b64)) i).isFinite
        = true ∧
      |(rgbVec (⟨dyadic Fmt.b64 1 1, dyadic Fmt.b64 1 0, dyadic Fmt.b64 3 2⟩ : RGBf (FP Fmt.b64)) i).val| ≤ 1 := by
    simp only [Fin.forall_fin_succ, IsEmpty.forall_iff, and_true]
    exact of_decide_eq_true (by krefl)
  obtain ⟨-, h6⟩ := h5 1 (by norm_num) (by norm_num) hv
  refine ⟨s, p, h1, h3, by rw [h4]; norm_num, ?_⟩
  have e1 : (dyadic Fmt.b64 1 1).val = 1 / 2 := of_decide_eq_true (by krefl)
  have e2 : (dyadic Fmt.b64 1 0).val = 1 := of_decide_eq_true (by krefl)
  have e3 : (dyadic Fmt.b64 3 2).val = 3 / 4 := of_decide_eq_true (by krefl)
  dsimp only at h6
  rw [e1, e2, e3, mul_one, mul_one] at h6
  exact h6

/-! ## C84: the Smits spectra -/

/-- the seven tables of constants -/
def Spec.smitsTables : List (List ℚ) :=
  [Tables.smitsWhite, Tables.smitsCyan, Tables.smitsMagenta, Tables.smitsYellow, Tables.smitsRed,
   Tables.smitsGreen, Tables.smitsBlue]

theorem smits_shape64 [Libm Fmt.b64] : Flt.asUInt (2 ^ 64 - 1)
      (((Flt.lit 720.0 : FP Fmt.b64) - Flt.lit 380.0) / Flt.lit 10.9375) = 31 ∧
    Flt.toUsize (((Flt.lit 720.0 : FP Fmt.b64) - Flt.lit 380.0) / Flt.lit 10.9375) = some 31 :=
  (of_decide_eq_true (by krefl) : FP.asUInt (2 ^ 64 - 1)
      (((FP.lit 720.0 : FP Fmt.b64) - FP.lit 380.0) / FP.lit 10.9375) = 31 ∧
    FP.toUsize (((FP.lit 720.0 : FP Fmt.b64) - FP.lit 380.0) / FP.lit 10.9375) = some 31)

theorem smits_nm64 : ∀ k : ℕ, k < 32 →
    (((FP.lit 380.0 : FP Fmt.b64) + FP.ofQ Fmt.b64 false (k : ℕ) * FP.lit 10.9375).isFinite = true ∧
    ((FP.lit 380.0 : FP Fmt.b64) + FP.ofQ Fmt.b64 false ((k : ℕ) : ℚ) * FP.lit 10.9375).val = 380 + (k : ℚ) * 10.9375) :=
  of_decide_eq_true (by krefl)

theorem smits_ends64 : ((FP.lit 380 : FP Fmt.b64).isFinite = true ∧ (FP.lit 380 : FP Fmt.b64).val = 380 ∧
    (FP.lit 720 : FP Fmt.b64).isFinite = true ∧ (FP.lit 720 : FP Fmt.b64).val = 720 ∧
    (FP.lit 10.9375 : FP Fmt.b64).isFinite = true ∧ (FP.lit 10.9375 : FP Fmt.b64).val = 10.9375) :=
  of_decide_eq_true (by krefl)

theorem smits_facts : ∀ t ∈ Spec.smitsTables, t.length = 32 ∧ ∀ q ∈ t, -0.0126 ≤ q ∧ q ≤ 1.0626 := by
  decide +kernel

/-- C84 [F]: each of the seven Smits spectra loads in f64 with 32 samples at exactly 380 + 10.9375 k nm
that carry the listed values, in order. The reported range is 380 nm to 720 nm in steps of 10.9375 nm. -/
theorem C84_smits_f64 [Libm Fmt.b64] : ∀ t ∈ Spec.smitsTables, ∃ s : VSPD (FP Fmt.b64), smits t = .ok s ∧
    s.values = t.map FP.lit ∧ s.samples.length = 32 ∧
    (∀ (k : ℕ) (p : Sample (FP Fmt.b64)), s.samples[k]? = some p →
      p.nm.isFinite = true ∧ p.nm.val = 380 + k * 10.9375) ∧
    s.start.val = 380 ∧ s.end.val = 720 ∧ ∃ i, s.shape.interval = .uniform i ∧ i.val = 10.9375 := by
  intro t ht
  have hl := (smits_facts t ht).1
  obtain ⟨h1, h2⟩ := smits_shape64
  let W : List (FP Fmt.b64) := (List.range 32).map fun k =>
    (Flt.lit 380.0 : FP Fmt.b64) + Flt.ofNat k * Flt.lit 10.9375
  have hW : W.length = 32 := by simp [W]
  refine ⟨⟨(W.zip (t.map FP.lit)).map fun p => ⟨p.1, p.2⟩,
    SpdShape.new (Flt.lit 380.0) (Flt.lit 720.0) (Flt.lit 10.9375)⟩, ?_, ?_, ?_, ?_, ?_, ?_, ?_⟩
  · exact fromValues_eq (n := 31) h1 h2 (by simp [hl]) (by norm_num)
  · apply List.ext_getElem
    · simp [VSPD.values, hW, hl]
    · intro k hk hk'
      simp [VSPD.values]
  · simp [hW, hl]
  · intro k p hp
    have hk : k < 32 := by
      have := (List.getElem?_eq_some_iff.1 hp).1
      simpa [hW, hl] using this
    have hp' := hp
    rw [List.getElem?_eq_getElem (by simp [hW, hl, hk])] at hp'
    simp only [List.getElem_map, List.getElem_zip, W, List.getElem_range, Option.some.injEq] at hp'
    rw [← hp']
    exact smits_nm64 k hk
  · have : (380.0 : ℚ) = 380 := by norm_num
    show (FP.lit 380.0 : FP Fmt.b64).val = 380
    rw [this]; exact smits_ends64.2.1
  · have : (720.0 : ℚ) = 720 := by norm_num
    show (FP.lit 720.0 : FP Fmt.b64).val = 720
    rw [this]; exact smits_ends64.2.2.2.1
  · exact ⟨_, rfl, smits_ends64.2.2.2.2.2⟩

/-- C84 [F]: so the reported end of a Smits spectrum is not the wavelength of its last sample, which is
0.9375 nm lower, in contrast to spectra built by `VSPD::new`. -/
theorem C84_end_counterexample [Libm Fmt.b64] : ∀ t ∈ Spec.smitsTables, ∀ s : VSPD (FP Fmt.b64),
    smits t = .ok s → ∃ p, s.samples.getLast? = some p ∧ s.end.val - p.nm.val = 0.9375 := by
  intro t ht s hs
  obtain ⟨s', h1, -, h3, h4, -, h5, -⟩ := C84_smits_f64 t ht
  rw [hs] at h1
  cases h1
  have hk : 31 < s.samples.length := by omega
  refine ⟨s.samples[31], ?_, ?_⟩
  · rw [List.getLast?_eq_getElem?, h3]; exact List.getElem?_eq_getElem hk
  · rw [h5, (h4 31 _ (List.getElem?_eq_getElem hk)).2]; norm_num

/-- C84 [R]: the same in exact arithmetic, with every value between -0.0126 and 1.0626: the spectra are
not confined to [0,1]. -/
theorem C84_smits_real : ∀ t ∈ Spec.smitsTables, ∃ s : VSPD ℝ, smits t = .ok s ∧
    s.shape = SpdShape.new 380 720 10.9375 ∧ s.values = t.map (fun q : ℚ => (q : ℝ)) ∧
    s.wavelengths = (List.range 32).map (fun k : ℕ => (380 : ℝ) + k * 10.9375) ∧
    ∀ v ∈ s.values, (-0.0126 : ℝ) ≤ v ∧ v ≤ 1.0626 := by
  intro t ht
  obtain ⟨hl, hb⟩ := smits_facts t ht
  have e1 : (Flt.lit 380.0 : ℝ) = 380 := by norm_num
  have e2 : (Flt.lit 720.0 : ℝ) = 720 := by norm_num
  have e3 : (Flt.lit 10.9375 : ℝ) = 10.9375 := by norm_num
  have ev : t.map (Flt.lit : ℚ → ℝ) = t.map (fun q : ℚ => (q : ℝ)) := rfl
  have hf : ⌊((720:ℝ) - 380) / 10.9375⌋₊ = 31 := by
    rw [Nat.floor_eq_iff (by norm_num)]; norm_num
  refine ⟨⟨gridSamples 380 10.9375 (t.map fun q : ℚ => (q : ℝ)), SpdShape.new 380 720 10.9375⟩, ?_, rfl,
    grid_values _ _ _ _, ?_, ?_⟩
  · unfold smits
    rw [e1, e2, e3, ev]
    refine fromValues_grid 380 720 10.9375 _ ?_ ?_ (by norm_num) ?_
    · rw [List.length_map, hl]; norm_num
    · rw [List.length_map, hl]; norm_num
    · rw [List.length_map, hl, hf]
  · rw [grid_wavelengths]; simp [hl]
  · intro v hv
    rw [grid_values] at hv
    obtain ⟨q, hq, rfl⟩ := List.mem_map.1 hv
    obtain ⟨b1, b2⟩ := hb q hq
    have c1 : ((-0.0126 : ℚ) : ℝ) ≤ q := by exact_mod_cast b1
    have c2 : (q : ℝ) ≤ ((1.0626 : ℚ) : ℝ) := by exact_mod_cast b2
    push_cast at c1 c2
    exact ⟨c1, c2⟩

/-- Not vacuous: red is one of them. -/
example : Tables.smitsRed ∈ Spec.smitsTables := by simp [Spec.smitsTables]

end CS

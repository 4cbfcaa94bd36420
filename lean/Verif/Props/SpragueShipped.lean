import Verif.Props.SpragueF
import Verif.Props.Overshoot
import Verif.Props.Spectra

/-!
# Interpolating the shipped spectra in f64 (C87)
-/

namespace CS

/-- a literal in f64, small ones included -/
theorem lit64_err {q : ℚ} (hq : |q| ≤ 2 ^ 20) :
    (FP.lit q : FP Fmt.b64).isFinite = true ∧
    |(FP.lit q : FP Fmt.b64).val - q| ≤ |q| * Fmt.b64.u + Fmt.b64.eta := by
  obtain ⟨a, b⟩ := ofQ_err (f := Fmt.b64) false (q := q) (pow_le_emax wide_b64 (hq.trans (by norm_num)))
  by_cases h0 : (FP.ofQ Fmt.b64 false q).val = 0
  · have hc : ∀ y : FP Fmt.b64, y.isFinite = true → y.val = 0 →
        (FP.cast y : FP Fmt.b64).isFinite = true ∧ (FP.cast y : FP Fmt.b64).val = 0 := by
      intro y h1 h2
      cases y with
      | nan => cases h1
      | pinf => cases h1
      | ninf => cases h1
      | nzero => exact ⟨rfl, rfl⟩
      | fin r hr =>
        have : r = 0 := h2
        subst this
        show (FP.ofQ Fmt.b64 false 0).isFinite = true ∧ (FP.ofQ Fmt.b64 false 0).val = 0
        rw [FP.ofQ_zero]
        exact ⟨rfl, rfl⟩
    obtain ⟨c, d⟩ := hc _ a h0
    unfold FP.lit
    refine ⟨c, ?_⟩
    rw [d]; rw [h0] at b; exact b
  · have e : (FP.lit q : FP Fmt.b64) = FP.ofQ Fmt.b64 false q := by
      unfold FP.lit
      rw [cast_ofQ a h0]
      obtain ⟨c, d⟩ := FP.ofQ_finite (f := Fmt.b64) false (q := (FP.ofQ Fmt.b64 false q).val)
        (by rw [FP.round_val]; exact (FP.val_rep _).2)
      exact FP.eq_of_val c a (by rw [d, FP.round_val]) (by rw [d, FP.round_val]; exact h0)
    rw [e]; exact ⟨a, b⟩

/-- the correctly rounded `powi` meets what C87 asks for -/
theorem ideal_powi {f : Fmt} (hf : Std f) : @PowiAccurate f (idealLibm f) := by
  letI := idealLibm f
  refine ⟨fun x n _ h4 hn => ?_⟩
  have h4r : |(x.val : ℝ)| ≤ 4 := by exact_mod_cast h4
  have hp : |(x.val : ℝ) ^ n| ≤ 4 ^ 5 := by
    rw [abs_pow]
    exact (pow_le_pow_left₀ (abs_nonneg _) h4r n).trans (pow_le_pow_right₀ (by norm_num) hn)
  obtain ⟨a, b⟩ := roundR_err hf (x := (x.val : ℝ) ^ n) (hp.trans (by norm_num))
  refine ⟨a, le_trans b ?_⟩
  have hu0 : (0:ℝ) < f.u := by exact_mod_cast f.u_pos
  have het : (0:ℝ) < f.eta := by exact_mod_cast f.eta_pos
  have h4 := mul_nonneg hu0.le (abs_nonneg ((x.val : ℝ) ^ n))
  linarith

/-- C87 [F]: interpolating a shipped spectrum in f64 at any finite wavelength of its range gives a finite
value within `1e-12 V` of the exact Sprague interpolation of the listed values, `V` being a bound for them:
the rounding of the literals is included. -/
theorem C87_shipped [Libm Fmt.b64] (hp : PowiAccurate Fmt.b64) (e : Spec.Listing) (he : e ∈ Spec.shipped)
    (s : VSPD (FP Fmt.b64)) (hs : Spectra.vspd e.table = .ok s)
    (S : VSPD ℝ) (hS : Spectra.vspd e.table = .ok S)
    (V : ℚ) (hV : 1 / 2 ^ 20 ≤ V) (hV' : V ≤ 2 ^ 20) (hv : ∀ p ∈ e.table, |p.2| ≤ V)
    (x : FP Fmt.b64) (hx : x.isFinite = true) (h1 : (e.start : ℚ) ≤ x.val) (h2 : x.val ≤ e.stop) :
    ∃ (v : FP Fmt.b64) (w : ℝ), spragueEval s x = .ok v ∧ v.isFinite = true ∧
      spragueEval S (x.val : ℝ) = .ok w ∧ |(v.val : ℝ) - w| ≤ 1e-12 * V := by
  obtain ⟨g, hlen, hi, hstop, hsz⟩ := vspd_shipped e he
  rw [C70_loads_ieee (by simp [Fmt.b64]) e he] at hs
  rw [C70_loads_real e he] at hS
  cases hs
  cases hS
  have hu : Fmt.b64.u = 1 / 2 ^ 53 := u_b64
  have heta : Fmt.b64.eta ≤ Fmt.b64.u / 2 ^ 124 := wide_b64.heta
  have hfst : ∀ k (hk : k < e.table.length), (e.table[k]).1 = ((e.start + k * e.interval : ℕ) : ℚ) := by
    intro k hk
    have h3 : (e.table.map Prod.fst)[k]? = ((List.range e.table.length).map fun k : ℕ =>
        (e.start : ℚ) + k * e.interval)[k]? := by
      rw [show e.table.map Prod.fst = _ from g]
    rw [List.getElem?_map, List.getElem?_eq_getElem hk, List.getElem?_map,
      List.getElem?_range hk] at h3
    have h4 : (e.table[k]).1 = (e.start : ℚ) + k * e.interval := by simpa using h3
    rw [h4]; push_cast; rfl
  have hle : ∀ k, k < e.table.length → e.start + k * e.interval ≤ 2 ^ 10 := fun k hk =>
    le_trans (Nat.add_le_add_left (Nat.mul_le_mul_right _ hk.le) _) hsz
  have hnat : ∀ n : ℕ, n ≤ 2 ^ 10 → (Flt.lit (n : ℚ) : FP Fmt.b64).isFinite = true ∧
      (Flt.lit (n : ℚ) : FP Fmt.b64).val = n := by
    intro n hn
    have hb : n ≤ 2 ^ 53 := hn.trans (by norm_num)
    have e1 : (Flt.lit (n : ℚ) : FP Fmt.b64) = FP.fin (n : ℚ) (FP.isRep_nat n (by simpa [Fmt.b64] using hb)) :=
      FP.lit_nat n (by simpa [Fmt.b64] using hb) hb
    rw [e1]; exact ⟨rfl, rfl⟩
  have hnm : ∀ k (hk : k < e.table.length), (Flt.lit (e.table[k]).1 : FP Fmt.b64).isFinite = true ∧
      (Flt.lit (e.table[k]).1 : FP Fmt.b64).val = ((e.start + k * e.interval : ℕ) : ℚ) := by
    intro k hk
    rw [hfst k hk]
    exact hnat _ (hle k hk)
  have hrl : (Spec.rows e.table : List (Sample (FP Fmt.b64))).length = e.table.length := by
    simp [Spec.rows]
  have hrow : ∀ k (hk : k < e.table.length), (Spec.rows e.table : List (Sample (FP Fmt.b64)))[k]? =
      some ⟨Flt.lit (e.table[k]).1, Flt.lit (e.table[k]).2⟩ := by
    intro k hk
    simp [Spec.rows, List.getElem?_eq_getElem hk]
  have hmem : ∀ p ∈ (Spec.rows e.table : List (Sample (FP Fmt.b64))), ∃ k, ∃ hk : k < e.table.length,
      p = ⟨Flt.lit (e.table[k]).1, Flt.lit (e.table[k]).2⟩ := by
    intro p hp
    obtain ⟨k, hk⟩ := List.mem_iff_getElem?.1 hp
    have hk' : k < e.table.length := by
      have := (List.getElem?_eq_some_iff.1 hk).1; omega
    rw [hrow k hk'] at hk
    exact ⟨k, hk', (Option.some.inj hk).symm⟩
  have l0 : 0 < e.table.length := by omega
  have l1 : 1 < e.table.length := by omega
  have lz : e.table.length - 1 < e.table.length := by omega
  have hgood : Spec.GoodGrid (⟨Spec.rows e.table, SpdShape.new (Flt.lit (e.start : ℚ))
      (Flt.lit (e.stop : ℚ)) (Flt.lit (e.interval : ℚ))⟩ : VSPD (FP Fmt.b64))
      ⟨Flt.lit (e.table[0]).1, Flt.lit (e.table[0]).2⟩ ⟨Flt.lit (e.table[1]).1, Flt.lit (e.table[1]).2⟩
      ⟨Flt.lit (e.table[e.table.length - 1]).1, Flt.lit (e.table[e.table.length - 1]).2⟩ := by
    refine ⟨hrow 0 l0, hrow 1 l1, ?_, ?_, ?_, ?_⟩
    · show (Spec.rows e.table : List (Sample (FP Fmt.b64))).getLast? = _
      rw [List.getLast?_eq_getElem?, hrl]; exact hrow _ lz
    · intro p hp
      obtain ⟨k, hk, rfl⟩ := hmem p hp
      obtain ⟨a, b⟩ := hnm k hk
      refine ⟨a, ?_⟩
      dsimp only
      rw [b, abs_of_nonneg (by positivity)]
      have : ((e.start + k * e.interval : ℕ) : ℚ) ≤ ((2 ^ 10 : ℕ) : ℚ) := by exact_mod_cast hle k hk
      push_cast at this ⊢
      linarith
    · rw [List.pairwise_iff_getElem]
      intro i j hi' hj' hij
      have hi2 : i < e.table.length := by rw [← hrl]; exact hi'
      have hj2 : j < e.table.length := by rw [← hrl]; exact hj'
      have e1 := hrow i hi2
      have e2 := hrow j hj2
      rw [List.getElem?_eq_getElem (by exact hi')] at e1
      rw [List.getElem?_eq_getElem (by exact hj')] at e2
      rw [Option.some.inj e1, Option.some.inj e2, (hnm i hi2).2, (hnm j hj2).2]
      have : i * e.interval < j * e.interval := Nat.mul_lt_mul_of_pos_right hij hi
      exact_mod_cast (by omega : e.start + i * e.interval < e.start + j * e.interval)
    · dsimp only
      rw [(hnm 0 l0).2, (hnm 1 l1).2, (hnm _ lz).2, hu, abs_of_nonneg (by positivity)]
      have : ((e.start + (e.table.length - 1) * e.interval : ℕ) : ℚ) ≤ ((2 ^ 10 : ℕ) : ℚ) := by
        exact_mod_cast hle _ lz
      have hi1 : (1:ℚ) ≤ e.interval := by exact_mod_cast hi
      generalize ((e.start + (e.table.length - 1) * e.interval : ℕ) : ℚ) = zz at *
      push_cast at this ⊢
      norm_num at this ⊢
      linarith
  have hlit : ∀ k (hk : k < e.table.length), (Flt.lit (e.table[k]).2 : FP Fmt.b64).isFinite = true ∧
      |(Flt.lit (e.table[k]).2 : FP Fmt.b64).val - (e.table[k]).2| ≤ V / 2 ^ 52 := by
    intro k hk
    have hb := hv _ (List.getElem_mem hk)
    obtain ⟨a, b⟩ := lit64_err (q := (e.table[k]).2) (hb.trans hV')
    refine ⟨a, le_trans b ?_⟩
    rw [hu] at heta ⊢
    generalize Fmt.b64.eta = et at *
    norm_num at heta hV ⊢
    linarith
  have V0 : (0:ℝ) < V := by
    have : (0:ℚ) < V := lt_of_lt_of_le (by positivity) hV
    exact_mod_cast this
  have hVr : (1:ℝ) / 2 ^ 20 ≤ V := by qcast hV
  have hVr' : (V:ℝ) ≤ 2 ^ 20 := by exact_mod_cast hV'
  have hlitr : ∀ k (hk : k < e.table.length),
      |((Flt.lit (e.table[k]).2 : FP Fmt.b64).val : ℝ) - ((e.table[k]).2 : ℝ)| ≤ V / 2 ^ 52 := by
    intro k hk
    have := (hlit k hk).2
    qcast this
  have hsr : (e.start : ℚ) = (Flt.lit (e.table[0]).1 : FP Fmt.b64).val := by
    rw [(hnm 0 l0).2]; simp
  have hzr : (e.stop : ℚ) = (Flt.lit (e.table[e.table.length - 1]).1 : FP Fmt.b64).val := by
    rw [(hnm _ lz).2, hstop]
  rw [hsr] at h1
  rw [hzr] at h2
  obtain ⟨v, w', ev, fv, ew', he1⟩ := C87_sprague std_b64 hp _ _ _ _ hgood ((V:ℝ) * (1 + 1 / 2 ^ 52))
    (by
      have : (1:ℝ) / 2 ^ 60 ≤ 1 / 2 ^ 20 := by norm_num
      have h3 : (V:ℝ) * 1 ≤ V * (1 + 1 / 2 ^ 52) := mul_le_mul_of_nonneg_left (by norm_num) V0.le
      linarith)
    (by
      norm_num at hVr' ⊢
      linarith)
    (by
      intro p hp
      obtain ⟨k, hk, rfl⟩ := hmem p hp
      refine ⟨(hlit k hk).1, ?_⟩
      have b1 := hlitr k hk
      have b2 : |((e.table[k]).2 : ℝ)| ≤ V := by exact_mod_cast hv _ (List.getElem_mem hk)
      dsimp only
      have := abs_sub_abs_le_abs_sub ((Flt.lit (e.table[k]).2 : FP Fmt.b64).val : ℝ) ((e.table[k]).2 : ℝ)
      have e3 : (V:ℝ) * (1 + 1 / 2 ^ 52) = V + V / 2 ^ 52 := by ring
      rw [e3]; linarith)
    ⟨_, SpdShape.new (e.start : ℝ) e.stop e.interval⟩ rfl x hx h1 h2
  -- the same wavelengths, the values as listed
  have hwl : (⟨Spec.rows e.table, SpdShape.new (e.start : ℝ) e.stop e.interval⟩ : VSPD ℝ).wavelengths =
      (⟨(Spec.rows e.table : List (Sample (FP Fmt.b64))).map fun p => ⟨(p.nm.val : ℝ), (p.v.val : ℝ)⟩,
        SpdShape.new (e.start : ℝ) e.stop e.interval⟩ : VSPD ℝ).wavelengths := by
    refine List.ext_getElem ?_ ?_
    · simp [VSPD.wavelengths, Spec.rows]
    · intro k ha hb
      have hk : k < e.table.length := by simpa [VSPD.wavelengths, Spec.rows] using ha
      simp only [VSPD.wavelengths, Spec.rows, List.getElem_map]
      rw [(hnm k hk).2, hfst k hk]
      simp
  have hmr : ∀ k (hk : k < e.table.length),
      ((Spec.rows e.table : List (Sample (FP Fmt.b64))).map fun p : Sample (FP Fmt.b64) =>
        (⟨(p.nm.val : ℝ), (p.v.val : ℝ)⟩ : Sample ℝ))[k]? =
      some ⟨((Flt.lit (e.table[k]).1 : FP Fmt.b64).val : ℝ), ((Flt.lit (e.table[k]).2 : FP Fmt.b64).val : ℝ)⟩ := by
    intro k hk
    rw [List.getElem?_map, hrow k hk]; rfl
  obtain ⟨v1, w1, e1, e2, he2⟩ := C88_stable
    (⟨(Spec.rows e.table : List (Sample (FP Fmt.b64))).map fun p => ⟨(p.nm.val : ℝ), (p.v.val : ℝ)⟩,
        SpdShape.new (e.start : ℝ) e.stop e.interval⟩ : VSPD ℝ)
    (⟨Spec.rows e.table, SpdShape.new (e.start : ℝ) e.stop e.interval⟩ : VSPD ℝ)
    _ _ (by simpa [Spec.rows] using hlen)
    (by rw [List.head?_eq_getElem?]; exact hmr 0 l0)
    (by
      show List.getLast? (List.map _ _) = _
      rw [List.getLast?_eq_getElem?, List.length_map, hrl]; exact hmr _ lz)
    (by
      rw [← hwl]
      rw [List.pairwise_iff_getElem]
      intro i j hi' hj' hij
      have hi2 : i < e.table.length := by simpa [VSPD.wavelengths, Spec.rows] using hi'
      have hj2 : j < e.table.length := by simpa [VSPD.wavelengths, Spec.rows] using hj'
      simp only [VSPD.wavelengths, Spec.rows, List.getElem_map]
      rw [hfst i hi2, hfst j hj2]
      have : i * e.interval < j * e.interval := Nat.mul_lt_mul_of_pos_right hij hi
      have h3 : ((e.start + i * e.interval : ℕ) : ℝ) < ((e.start + j * e.interval : ℕ) : ℝ) := by
        exact_mod_cast (by omega : e.start + i * e.interval < e.start + j * e.interval)
      simpa using h3)
    hwl (V / 2 ^ 52)
    (by
      intro j p q hp hq
      have hj : j < e.table.length := by
        have := (List.getElem?_eq_some_iff.1 hq).1
        simpa [Spec.rows] using this
      have e3 := hmr j hj
      have e4 : (Spec.rows e.table : List (Sample ℝ))[j]? = some ⟨((e.table[j]).1 : ℝ), ((e.table[j]).2 : ℝ)⟩ := by
        simp [Spec.rows, List.getElem?_eq_getElem hj]
      have hp' := Option.some.inj (hp.symm.trans e3)
      have hq' := Option.some.inj (hq.symm.trans e4)
      rw [hp', hq']
      exact hlitr j hj)
    (x.val : ℝ) (by dsimp only; exact_mod_cast h1) (by dsimp only; exact_mod_cast h2)
  rw [ew'] at e1
  cases e1
  refine ⟨v, w1, ev, fv, e2, ?_⟩
  have hur : ((Fmt.b64.u : ℚ) : ℝ) = 1 / 2 ^ 53 := by rw [hu]; norm_num
  rw [hur] at he1
  have tri := abs_add_le ((v.val : ℝ) - w') (w' - w1)
  have e5 : (v.val : ℝ) - w' + (w' - w1) = (v.val : ℝ) - w1 := by ring
  rw [e5] at tri
  norm_num at he1 he2 ⊢
  linarith

/-- Not vacuous: with a correctly rounded `powi`, the CIE x-bar function (values up to 1.1) at 555.5 nm. -/
example : ∃ (_ : Libm Fmt.b64) (s : VSPD (FP Fmt.b64)) (S : VSPD ℝ) (x : FP Fmt.b64) (v : FP Fmt.b64) (w : ℝ),
    Spectra.vspd Spectra.xBar = .ok s ∧ Spectra.vspd Spectra.xBar = .ok S ∧ x.val = 555.5 ∧
    spragueEval s x = .ok v ∧ spragueEval S 555.5 = .ok w ∧ |(v.val : ℝ) - w| ≤ 2e-12 := by
  letI := idealLibm Fmt.b64
  have he : (⟨Spectra.xBar, 360, 830, 1⟩ : Spec.Listing) ∈ Spec.shipped := by simp [Spec.shipped]
  have hr : IsRep Fmt.b64 555.5 := by decide +kernel
  have l1 := C70_loads_ieee (f := Fmt.b64) (by simp [Fmt.b64]) _ he
  have l2 := C70_loads_real _ he
  obtain ⟨v, w, h1, -, h3, h4⟩ := C87_shipped (ideal_powi std_b64) _ he _ l1 _ l2 2 (by norm_num) (by norm_num)
    (by decide +kernel) (FP.fin 555.5 hr) rfl (by show (360 : ℚ) ≤ 555.5; norm_num)
    (by show (555.5 : ℚ) ≤ 830; norm_num)
  have ex : (((FP.fin 555.5 hr : FP Fmt.b64).val : ℚ) : ℝ) = 555.5 := by
    show ((555.5 : ℚ) : ℝ) = _; norm_num
  rw [ex] at h3
  exact ⟨_, _, _, FP.fin 555.5 hr, v, w, l1, l2, rfl, h1, h3, by norm_num at h4 ⊢; linarith⟩

end CS

import Verif.Props.HeroF
import Verif.Props.Smooth
import Verif.Props.Overshoot

/-!
# Hero-wavelength sampling with the shipped spectra (C120)
-/

namespace CS

/-- the interpolated curve through the samples -/
noncomputable def Spec.curve (S : VSPD ℝ) (x : ℝ) : ℝ :=
  match spragueEval S x with
  | .ok v => v
  | .error _ => 0

/-! ## Helper lemmas -/

theorem Hero.slope_of_smooth (g : ℝ → ℝ) (h : ContDiff ℝ 1 g) : ∃ L, Spec.Slope L g := by
  have hc : Continuous (deriv g) := h.continuous_deriv le_rfl
  obtain ⟨L, hL⟩ := (isCompact_Icc (a := (360:ℝ)) (b := 780)).exists_bound_of_continuousOn hc.continuousOn
  refine ⟨L, fun a ha b hb => ?_⟩
  have := (convex_Icc (360:ℝ) 780).norm_image_sub_le_of_norm_deriv_le
    (fun x _ => (h.differentiable one_ne_zero).differentiableAt) hL hb ha
  simpa [Real.norm_eq_abs] using this

/-- samples evenly spaced from 360 nm or less to 780 nm or more -/
structure Spec.Covers (S : VSPD ℝ) : Prop where
  two : 2 ≤ S.samples.length
  even : ∃ x0 h : ℝ, 0 < h ∧ x0 ≤ 360 ∧ 780 ≤ x0 + ((S.samples.length : ℝ) - 1) * h ∧
    ∀ (k : ℕ) (p : Sample ℝ), S.samples[k]? = some p → p.nm = x0 + k * h

theorem Spec.Covers.smooth {S : VSPD ℝ} (h : Spec.Covers S) :
    ∃ F : ℝ → ℝ, ContDiff ℝ 1 F ∧ (∀ x ∈ Set.Icc (360:ℝ) 780, Spec.curve S x = F x) ∧
      Spec.Draws (spragueEval S) (Spec.curve S) := by
  obtain ⟨x0, d, hd, h1, h2, h3⟩ := h.even
  obtain ⟨F, f1, f2⟩ := C86_smooth S x0 d hd h.two h3
  refine ⟨F, f1.of_le (by norm_num), fun x hx => ?_, fun x a b => ?_⟩
  · unfold Spec.curve
    rw [f2 x (h1.trans hx.1) (hx.2.trans h2)]
  · unfold Spec.curve
    rw [f2 x (h1.trans a) (b.trans h2)]

theorem Hero.covers (e : Spec.Listing) (he : e ∈ Spec.shipped) (h1 : e.start ≤ 360) (h2 : 780 ≤ e.stop) (S : VSPD ℝ)
    (hS : Spectra.vspd e.table = .ok S) : Spec.Covers S := by
  obtain ⟨g, hlen, hi, hstop, -⟩ := vspd_shipped e he
  rw [C70_loads_real e he] at hS
  cases hS
  have hrl : (Spec.rows e.table : List (Sample ℝ)).length = e.table.length := by simp [Spec.rows]
  refine ⟨by simp only [hrl]; omega, e.start, e.interval, by exact_mod_cast hi, by exact_mod_cast h1, ?_, ?_⟩
  · simp only [hrl]
    have : ((e.table.length : ℝ) - 1) = ((e.table.length - 1 : ℕ) : ℝ) := by
      rw [Nat.cast_sub (by omega)]; norm_num
    rw [this]
    have h3 : 780 ≤ e.start + (e.table.length - 1) * e.interval := by omega
    exact_mod_cast h3
  · intro k p hp
    have hk : k < e.table.length := by
      have := (List.getElem?_eq_some_iff.1 hp).1
      simpa [hrl] using this
    have h3 : (e.table.map Prod.fst)[k]? = ((List.range e.table.length).map fun k : ℕ =>
        (e.start : ℚ) + k * e.interval)[k]? := by
      rw [show e.table.map Prod.fst = _ from g]
    rw [List.getElem?_map, List.getElem?_eq_getElem hk, List.getElem?_map, List.getElem?_range hk] at h3
    have h4 : (e.table[k]).1 = (e.start : ℚ) + k * e.interval := by simpa using h3
    have h5 : p = ⟨Flt.lit (e.table[k]).1, Flt.lit (e.table[k]).2⟩ := by
      have : (Spec.rows e.table : List (Sample ℝ))[k]? = some ⟨Flt.lit (e.table[k]).1, Flt.lit (e.table[k]).2⟩ := by
        simp [Spec.rows, List.getElem?_eq_getElem hk]
      rw [this] at hp
      exact (Option.some.inj hp).symm
    rw [h5]
    simp only [flt_lit, h4]
    push_cast
    ring

theorem Hero.listed : (⟨Spectra.xBar, 360, 830, 1⟩ : Spec.Listing) ∈ Spec.shipped ∧
    (⟨Spectra.yBar, 360, 830, 1⟩ : Spec.Listing) ∈ Spec.shipped ∧ (⟨Spectra.zBar, 360, 830, 1⟩ : Spec.Listing) ∈ Spec.shipped ∧
    (⟨Spectra.d65, 300, 780, 5⟩ : Spec.Listing) ∈ Spec.shipped := by
  simp [Spec.shipped]

/-! ## C120 -/

/-- the integrands of the shipped observer, D65 and any reflectance of evenly spaced samples have a bounded slope -/
theorem Hero.slopes (x y z d s : VSPD ℝ) (hx : Spectra.vspd Spectra.xBar = .ok x) (hy : Spectra.vspd Spectra.yBar = .ok y)
    (hz : Spectra.vspd Spectra.zBar = .ok z) (hd : Spectra.vspd Spectra.d65 = .ok d) (hs : Spec.Covers s) :
    ∃ L, Spec.Slope L (fun t => Spec.curve x t * (Spec.curve d t * Spec.curve s t)) ∧
      Spec.Slope L (fun t => Spec.curve y t * (Spec.curve d t * Spec.curve s t)) ∧
      Spec.Slope L (fun t => Spec.curve z t * (Spec.curve d t * Spec.curve s t)) := by
  obtain ⟨mx, my, mz, md⟩ := Hero.listed
  obtain ⟨X, X1, X2, -⟩ := (Hero.covers _ mx (by norm_num) (by norm_num) x hx).smooth
  obtain ⟨Y, Y1, Y2, -⟩ := (Hero.covers _ my (by norm_num) (by norm_num) y hy).smooth
  obtain ⟨Z, Z1, Z2, -⟩ := (Hero.covers _ mz (by norm_num) (by norm_num) z hz).smooth
  obtain ⟨D, D1, D2, -⟩ := (Hero.covers _ md (by norm_num) (by norm_num) d hd).smooth
  obtain ⟨R, R1, R2, -⟩ := hs.smooth
  obtain ⟨Lx, lx⟩ := Hero.slope_of_smooth _ (X1.mul (D1.mul R1))
  obtain ⟨Ly, ly⟩ := Hero.slope_of_smooth _ (Y1.mul (D1.mul R1))
  obtain ⟨Lz, lz⟩ := Hero.slope_of_smooth _ (Z1.mul (D1.mul R1))
  have tr : ∀ (V : VSPD ℝ) (F : ℝ → ℝ) (L M : ℝ), L ≤ M → (∀ t ∈ Set.Icc (360:ℝ) 780, Spec.curve V t = F t) →
      Spec.Slope L (fun t => F t * (D t * R t)) → Spec.Slope M fun t => Spec.curve V t * (Spec.curve d t * Spec.curve s t) := by
    intro V F L M hLM hF h a ha b hb
    simp only
    rw [hF a ha, hF b hb, D2 a ha, D2 b hb, R2 a ha, R2 b hb]
    exact (h a ha b hb).trans (mul_le_mul_of_nonneg_right hLM (abs_nonneg _))
  exact ⟨max Lx (max Ly Lz), tr x X Lx _ (le_max_left _ _) X2 lx, tr y Y Ly _ ((le_max_left _ _).trans (le_max_right _ _)) Y2 ly,
    tr z Z Lz _ ((le_max_right _ _).trans (le_max_right _ _)) Z2 lz⟩

/-- C120 [R]: with the shipped observer and D65 and any reflectance of two or more evenly spaced samples that covers 360..780 nm,
the estimates converge as the number of samples grows, at a rate that does not depend on the random numbers: there is one bound
`L` that works for every number of samples and every outcome. -/
theorem C120_shipped (x y z d s : VSPD ℝ) (hx : Spectra.vspd Spectra.xBar = .ok x) (hy : Spectra.vspd Spectra.yBar = .ok y)
    (hz : Spectra.vspd Spectra.zBar = .ok z) (hd : Spectra.vspd Spectra.d65 = .ok d) (hs : Spec.Covers s) :
    ∃ L, ∀ us : List ℝ, us ≠ [] → 4 ∣ us.length → (∀ u ∈ us, 0 ≤ u ∧ u < 1) →
      ∃ c, heroXyz (spragueEval x) (spragueEval y) (spragueEval z) (spragueEval d) (spragueEval s) us = .ok c ∧
        |c.x - 4 / 420 * ∫ t in (360:ℝ)..780, Spec.curve x t * (Spec.curve d t * Spec.curve s t)| ≤ L / us.length ∧
        |c.y - 4 / 420 * ∫ t in (360:ℝ)..780, Spec.curve y t * (Spec.curve d t * Spec.curve s t)| ≤ L / us.length ∧
        |c.z - 4 / 420 * ∫ t in (360:ℝ)..780, Spec.curve z t * (Spec.curve d t * Spec.curve s t)| ≤ L / us.length := by
  obtain ⟨mx, my, mz, md⟩ := Hero.listed
  obtain ⟨-, -, -, X3⟩ := (Hero.covers _ mx (by norm_num) (by norm_num) x hx).smooth
  obtain ⟨-, -, -, Y3⟩ := (Hero.covers _ my (by norm_num) (by norm_num) y hy).smooth
  obtain ⟨-, -, -, Z3⟩ := (Hero.covers _ mz (by norm_num) (by norm_num) z hz).smooth
  obtain ⟨-, -, -, D3⟩ := (Hero.covers _ md (by norm_num) (by norm_num) d hd).smooth
  obtain ⟨-, -, -, R3⟩ := hs.smooth
  obtain ⟨L, lx, ly, lz⟩ := Hero.slopes x y z d s hx hy hz hd hs
  exact ⟨1680 * L, fun us u0 u1 u2 => C120_converges _ _ _ _ _ _ _ _ _ _ X3 Y3 Z3 D3 R3 L lx ly lz us u0 u1 u2⟩

/-- the hypotheses are met: the shipped tables load, and D65 covers the range -/
example : ∃ x y z d : VSPD ℝ, Spectra.vspd Spectra.xBar = .ok x ∧ Spectra.vspd Spectra.yBar = .ok y ∧
    Spectra.vspd Spectra.zBar = .ok z ∧ Spectra.vspd Spectra.d65 = .ok d ∧ Spec.Covers d := by
  have hX := C70_loads_real _ Hero.listed.1
  have hY := C70_loads_real _ Hero.listed.2.1
  have hZ := C70_loads_real _ Hero.listed.2.2.1
  have hD := C70_loads_real _ Hero.listed.2.2.2
  exact ⟨_, _, _, _, hX, hY, hZ, hD, Hero.covers _ Hero.listed.2.2.2 (by norm_num) (by norm_num) _ hD⟩

/-- C120 [R]: the estimates are not normalised: with an illuminant `k` times as strong they come out `k` times as large, while
`to_xyz`, which they are compared with, does not depend on the power of the illuminant (C55). -/
theorem C120_unnormalised (xb yb zb ill rho : ℝ → Res ℝ) (k : ℝ) (us : List ℝ) :
    heroXyz xb yb zb (fun l => (ill l).map (k * ·)) rho us =
      (heroXyz xb yb zb ill rho us).map fun c => ⟨k * c.x, k * c.y, k * c.z⟩ := by
  have z0 : (Flt.lit 0.0 : ℝ) = 0 := by simp only [flt_lit]; norm_num
  have step : ∀ (acc : XYZ ℝ) (l : ℝ), heroStep xb yb zb (fun l => (ill l).map (k * ·)) rho ⟨k * acc.x, k * acc.y, k * acc.z⟩ l =
      (heroStep xb yb zb ill rho acc l).map fun c => ⟨k * c.x, k * c.y, k * c.z⟩ := by
    intro acc l
    unfold heroStep
    beta_reduce
    cases rho l with
    | error e => rfl
    | ok r =>
    cases ill l with
    | error e => rfl
    | ok d =>
    cases xb l with
    | error e => rfl
    | ok x =>
    cases yb l with
    | error e => rfl
    | ok y =>
    cases zb l with
    | error e => rfl
    | ok z =>
      show Except.ok _ = Except.ok _
      congr 1
      refine XYZ.ext ?_ ?_ ?_
      · show k * acc.x + x * (k * d * r) = k * (acc.x + x * (d * r)); ring
      · show k * acc.y + y * (k * d * r) = k * (acc.y + y * (d * r)); ring
      · show k * acc.z + z * (k * d * r) = k * (acc.z + z * (d * r)); ring
  have fold : ∀ (ls : List ℝ) (acc : XYZ ℝ),
      ls.foldlM (heroStep xb yb zb (fun l => (ill l).map (k * ·)) rho) ⟨k * acc.x, k * acc.y, k * acc.z⟩ =
      (ls.foldlM (heroStep xb yb zb ill rho) acc).map fun c => ⟨k * c.x, k * c.y, k * c.z⟩ := by
    intro ls
    induction ls with
    | nil => intro acc; rfl
    | cons l t ih =>
      intro acc
      rw [List.foldlM_cons, List.foldlM_cons, step]
      cases heroStep xb yb zb ill rho acc l with
      | error e => rfl
      | ok a => exact ih a
  unfold heroXyz
  rw [Hero.flat, Hero.flat]
  have e : (XYZ.fromScalar (Flt.lit 0.0) : XYZ ℝ) = ⟨k * (XYZ.fromScalar (Flt.lit 0.0) : XYZ ℝ).x,
      k * (XYZ.fromScalar (Flt.lit 0.0) : XYZ ℝ).y, k * (XYZ.fromScalar (Flt.lit 0.0) : XYZ ℝ).z⟩ := by
    simp only [XYZ.fromScalar, z0, mul_zero]
  conv_lhs => rw [e, fold]
  cases (us.zipIdx.flatMap fun q => heroLambda us.length q.2 q.1).foldlM (heroStep xb yb zb ill rho)
      (XYZ.fromScalar (Flt.lit 0.0)) with
  | error e => rfl
  | ok a =>
    show Except.ok _ = Except.ok _
    congr 1
    refine XYZ.ext ?_ ?_ ?_
    · exact mul_div_assoc _ _ _
    · exact mul_div_assoc _ _ _
    · exact mul_div_assoc _ _ _

section
variable [Libm Fmt.b64]

/-- a shipped table in f64 follows the curve through the listed values -/
theorem Hero.draws_shipped (hp : PowiAccurate Fmt.b64) (e : Spec.Listing) (he : e ∈ Spec.shipped) (h1 : e.start ≤ 360)
    (h2 : 780 ≤ e.stop) (V : ℚ) (hV : 1 / 2 ^ 20 ≤ V) (hV' : V ≤ 2 ^ 20) (hv : ∀ p ∈ e.table, |p.2| ≤ V)
    (s : VSPD (FP Fmt.b64)) (hs : Spectra.vspd e.table = .ok s) (S : VSPD ℝ) (hS : Spectra.vspd e.table = .ok S) :
    Spec.DrawsF (spragueEval s) (Spec.curve S) (2 * V) := by
  have hV0 : (0:ℝ) < V := by exact_mod_cast lt_of_lt_of_le (by positivity) hV
  intro x hx x1 x2
  have g1 : (e.start : ℚ) ≤ x.val := le_trans (by exact_mod_cast h1) x1
  have g2 : x.val ≤ e.stop := le_trans x2 (by exact_mod_cast h2)
  obtain ⟨v, w, a, b, c, d⟩ := C87_shipped hp e he s hs S hS V hV hV' hv x hx g1 g2
  refine ⟨v, a, b, ?_, ?_⟩
  · unfold Spec.curve
    rw [c]
    norm_num at d ⊢
    linarith
  · obtain ⟨g, hlen, hi, hstop, -⟩ := vspd_shipped e he
    have hcov := Hero.covers e he h1 h2 S hS
    obtain ⟨x0, dd, hdd, -, -, ev⟩ := hcov.even
    rw [C70_loads_real e he] at hS
    cases hS
    have hrl : (Spec.rows e.table : List (Sample ℝ)).length = e.table.length := by simp [Spec.rows]
    have hsort : (⟨Spec.rows e.table, SpdShape.new e.start e.stop e.interval⟩ : VSPD ℝ).wavelengths.Pairwise (· < ·) := by
      rw [List.pairwise_iff_getElem]
      intro i j hi hj hij
      have hi' : i < (Spec.rows e.table : List (Sample ℝ)).length := by simpa [VSPD.wavelengths] using hi
      have hj' : j < (Spec.rows e.table : List (Sample ℝ)).length := by simpa [VSPD.wavelengths] using hj
      have ei := ev i _ (List.getElem?_eq_getElem hi')
      have ej := ev j _ (List.getElem?_eq_getElem hj')
      simp only [VSPD.wavelengths, List.getElem_map]
      rw [ei, ej]
      have : (i : ℝ) < j := by exact_mod_cast hij
      nlinarith
    have ha : (Spec.rows e.table : List (Sample ℝ)).head? = some ((Spec.rows e.table : List (Sample ℝ))[0]'(by omega)) := by
      rw [List.head?_eq_getElem?]; exact List.getElem?_eq_getElem (by omega)
    have hz : (Spec.rows e.table : List (Sample ℝ)).getLast? =
        some ((Spec.rows e.table : List (Sample ℝ))[(Spec.rows e.table : List (Sample ℝ)).length - 1]'(by omega)) := by
      rw [List.getLast?_eq_getElem?]; exact List.getElem?_eq_getElem (by omega)
    have hfst : ∀ k (hk : k < e.table.length), (e.table[k]).1 = (e.start : ℚ) + k * e.interval := by
      intro k hk
      have h3 : (e.table.map Prod.fst)[k]? = ((List.range e.table.length).map fun k : ℕ =>
          (e.start : ℚ) + k * e.interval)[k]? := by
        rw [show e.table.map Prod.fst = _ from g]
      rw [List.getElem?_map, List.getElem?_eq_getElem hk, List.getElem?_map, List.getElem?_range hk] at h3
      simpa using h3
    obtain ⟨w', e1, e2⟩ := C88_bound _ _ _ (by simp only [hrl]; exact hlen) ha hz hsort (V : ℝ) (by
      intro p hp
      simp only [Spec.rows, List.mem_map] at hp
      obtain ⟨q, hq, rfl⟩ := hp
      simp only [flt_lit]
      exact_mod_cast hv q hq) (x.val : ℝ) (by
        simp only [Spec.rows, List.getElem_map, flt_lit, hfst 0 (by omega)]
        have : (e.start : ℝ) ≤ x.val := by exact_mod_cast g1
        push_cast
        linarith) (by
        simp only [Spec.rows, List.getElem_map, flt_lit, List.length_map]
        rw [hfst (e.table.length - 1) (by omega)]
        have : (x.val : ℝ) ≤ e.stop := by exact_mod_cast g2
        have h5 : ((e.start : ℝ) + ((e.table.length - 1 : ℕ) : ℝ) * e.interval) = e.stop := by exact_mod_cast hstop
        push_cast
        linarith)
    unfold Spec.curve
    rw [e1]
    refine e2.trans ?_
    linarith

/-- any reflectance in f64 follows the curve through its samples -/
theorem Hero.draws_own (hp : PowiAccurate Fmt.b64) (s : VSPD (FP Fmt.b64)) (a b z : Sample (FP Fmt.b64))
    (h : Spec.GoodGrid s a b z) (h6 : 6 ≤ s.samples.length) (ha : a.nm.val ≤ 360) (hz : 780 ≤ z.nm.val) (V : ℝ)
    (hV : 1 / 2 ^ 60 ≤ V) (hV' : V ≤ 2 ^ 60) (hv : ∀ p ∈ s.samples, p.v.isFinite = true ∧ |(p.v.val : ℝ)| ≤ V)
    (S : VSPD ℝ) (hS : S.samples = s.samples.map fun p => ⟨(p.nm.val : ℝ), (p.v.val : ℝ)⟩) :
    Spec.DrawsF (spragueEval s) (Spec.curve S) (2 * V) := by
  have hV0 : (0:ℝ) < V := lt_of_lt_of_le (by positivity) hV
  intro x hx x1 x2
  obtain ⟨v, w, e1, e2, e3, e4⟩ := C87_sprague std_b64 hp s a b z h V hV hV' hv S hS x hx (ha.trans x1) (x2.trans hz)
  refine ⟨v, e1, e2, ?_, ?_⟩
  · unfold Spec.curve
    rw [e3]
    rw [u_b64] at e4
    push_cast at e4
    refine e4.trans ?_
    have : (8940 * (1 / 2 ^ 53) : ℝ) * V ≤ (2 / 10 ^ 12 * 2) * V := mul_le_mul_of_nonneg_right (by norm_num) hV0.le
    linarith
  · obtain ⟨w', f1, f2⟩ := C88_bound S ⟨a.nm.val, a.v.val⟩ ⟨z.nm.val, z.v.val⟩ (by rw [hS, List.length_map]; exact h6)
      (by rw [hS, List.head?_map, List.head?_eq_getElem?, h.first]; rfl)
      (by rw [hS, List.getLast?_map, h.last]; rfl)
      (by
        unfold VSPD.wavelengths
        rw [hS, List.map_map, List.pairwise_map]
        exact h.incr.imp fun hh => by
          simp only [Function.comp]
          exact_mod_cast hh) V (by
        intro p hp'
        rw [hS] at hp'
        obtain ⟨q, hq, rfl⟩ := List.mem_map.1 hp'
        exact (hv q hq).2) (x.val : ℝ) (by show ((a.nm.val : ℚ) : ℝ) ≤ x.val; exact_mod_cast ha.trans x1)
        (by show ((x.val : ℚ) : ℝ) ≤ (z.nm.val : ℚ); exact_mod_cast x2.trans hz)
    unfold Spec.curve
    rw [f1]
    refine f2.trans ?_
    linarith

/-- C120 [F]: the program with the shipped observer and D65 in f64, for any reflectance of six or more samples that covers
360..780 nm with values up to `V`: whatever numbers from 0 to 1 are drawn there is no panic and the result is finite, within
3360/16384 times the slope bound `L` plus 2e-7 `V` of 4/420 of the integrals of the exact curves. -/
theorem C120_shipped_f64 (hp : PowiAccurate Fmt.b64) (x y z d s : VSPD (FP Fmt.b64)) (hx : Spectra.vspd Spectra.xBar = .ok x)
    (hy : Spectra.vspd Spectra.yBar = .ok y) (hz : Spectra.vspd Spectra.zBar = .ok z) (hd : Spectra.vspd Spectra.d65 = .ok d)
    (X Y Z D S : VSPD ℝ) (hX : Spectra.vspd Spectra.xBar = .ok X) (hY : Spectra.vspd Spectra.yBar = .ok Y)
    (hZ : Spectra.vspd Spectra.zBar = .ok Z) (hD : Spectra.vspd Spectra.d65 = .ok D)
    (hS : S.samples = s.samples.map fun p => ⟨(p.nm.val : ℝ), (p.v.val : ℝ)⟩) (a b w : Sample (FP Fmt.b64))
    (h : Spec.GoodGrid s a b w) (h6 : 6 ≤ s.samples.length) (ha : a.nm.val ≤ 360) (hw : 780 ≤ w.nm.val) (V : ℝ)
    (hV : 1 / 2 ^ 9 ≤ V) (hV' : V ≤ 2 ^ 9) (hv : ∀ p ∈ s.samples, p.v.isFinite = true ∧ |(p.v.val : ℝ)| ≤ V) (L : ℝ)
    (lx : Spec.Slope L fun t => Spec.curve X t * (Spec.curve D t * Spec.curve S t))
    (ly : Spec.Slope L fun t => Spec.curve Y t * (Spec.curve D t * Spec.curve S t))
    (lz : Spec.Slope L fun t => Spec.curve Z t * (Spec.curve D t * Spec.curve S t))
    (us : List (FP Fmt.b64)) (hl : us.length = heroSamples)
    (hu : ∀ u ∈ us, u.isFinite = true ∧ 0 ≤ u.val ∧ u.val ≤ 1) :
    ∃ c, heroXyz (spragueEval x) (spragueEval y) (spragueEval z) (spragueEval d) (spragueEval s) us = .ok c ∧
      (c.x.isFinite = true ∧ |(c.x.val : ℝ) - 4 / 420 * ∫ t in (360:ℝ)..780,
        Spec.curve X t * (Spec.curve D t * Spec.curve S t)| ≤ 3360 * L / 16384 + 2 / 10 ^ 7 * V) ∧
      (c.y.isFinite = true ∧ |(c.y.val : ℝ) - 4 / 420 * ∫ t in (360:ℝ)..780,
        Spec.curve Y t * (Spec.curve D t * Spec.curve S t)| ≤ 3360 * L / 16384 + 2 / 10 ^ 7 * V) ∧
      (c.z.isFinite = true ∧ |(c.z.val : ℝ) - 4 / 420 * ∫ t in (360:ℝ)..780,
        Spec.curve Z t * (Spec.curve D t * Spec.curve S t)| ≤ 3360 * L / 16384 + 2 / 10 ^ 7 * V) := by
  obtain ⟨mx, my, mz, md⟩ := Hero.listed
  have hV0 : (0:ℝ) < V := lt_of_lt_of_le (by positivity) hV
  have bx := Hero.draws_shipped hp _ mx (by norm_num) (by norm_num) 2 (by norm_num) (by norm_num) (by decide +kernel) x hx X hX
  have bY := Hero.draws_shipped hp _ my (by norm_num) (by norm_num) 2 (by norm_num) (by norm_num) (by decide +kernel) y hy Y hY
  have bz := Hero.draws_shipped hp _ mz (by norm_num) (by norm_num) 2 (by norm_num) (by norm_num) (by decide +kernel) z hz Z hZ
  have bd := Hero.draws_shipped hp _ md (by norm_num) (by norm_num) 120 (by norm_num) (by norm_num) (by decide +kernel) d hd D hD
  have bs := Hero.draws_own hp s a b w h h6 ha hw V (le_trans (by norm_num) hV) (hV'.trans (by norm_num)) hv S hS
  obtain ⟨c, e, ⟨c1, c2⟩, ⟨c3, c4⟩, ⟨c5, c6⟩⟩ := C120_f64 _ _ _ _ _ _ _ _ _ _ _ _ _ bx bY bz bd bs (by norm_num) (by norm_num)
    (by norm_num) (by norm_num) (by linarith) (by linarith) L lx ly lz us hl hu
  have t : (1 / 10 ^ 10 : ℝ) * (2 * ((2 : ℚ) : ℝ) * (2 * ((120 : ℚ) : ℝ) * (2 * V))) ≤ 2 / 10 ^ 7 * V := by
    push_cast
    have : (1 / 10 ^ 10 * (4 * (240 * 2)) : ℝ) * V ≤ 2 / 10 ^ 7 * V := mul_le_mul_of_nonneg_right (by norm_num) hV0.le
    linarith
  exact ⟨c, e, ⟨c1, c2.trans (by linarith)⟩, ⟨c3, c4.trans (by linarith)⟩, ⟨c5, c6.trans (by linarith)⟩⟩

/-- one half at 300, 400, ..., 800 nm -/
def halfGrey : VSPD (FP Fmt.b64) :=
  ⟨[⟨FP.lit 300, FP.lit (1/2)⟩, ⟨FP.lit 400, FP.lit (1/2)⟩, ⟨FP.lit 500, FP.lit (1/2)⟩, ⟨FP.lit 600, FP.lit (1/2)⟩,
    ⟨FP.lit 700, FP.lit (1/2)⟩, ⟨FP.lit 800, FP.lit (1/2)⟩], SpdShape.new (FP.lit 300) (FP.lit 800) (FP.lit 100)⟩

/-- the hypotheses are met: a grey reflectance, and every number drawn one half -/
example (hp : PowiAccurate Fmt.b64) (x y z d : VSPD (FP Fmt.b64)) (hx : Spectra.vspd Spectra.xBar = .ok x)
    (hy : Spectra.vspd Spectra.yBar = .ok y) (hz : Spectra.vspd Spectra.zBar = .ok z) (hd : Spectra.vspd Spectra.d65 = .ok d) :
    ∃ c, heroXyz (spragueEval x) (spragueEval y) (spragueEval z) (spragueEval d) (spragueEval halfGrey)
      (List.replicate heroSamples (FP.lit (1/2))) = .ok c ∧ c.x.isFinite = true := by
  obtain ⟨mx, my, mz, md⟩ := Hero.listed
  have hX := C70_loads_real _ mx
  have hY := C70_loads_real _ my
  have hZ := C70_loads_real _ mz
  have hD := C70_loads_real _ md
  let S : VSPD ℝ := ⟨halfGrey.samples.map fun p => ⟨(p.nm.val : ℝ), (p.v.val : ℝ)⟩, SpdShape.new 300 800 100⟩
  have v1 : (FP.lit (1/2) : FP Fmt.b64).isFinite = true ∧ (FP.lit (1/2) : FP Fmt.b64).val = 1/2 := of_decide_eq_true (by krefl)
  have v3 : (FP.lit 300 : FP Fmt.b64).isFinite = true ∧ (FP.lit 300 : FP Fmt.b64).val = 300 := of_decide_eq_true (by krefl)
  have v4 : (FP.lit 400 : FP Fmt.b64).isFinite = true ∧ (FP.lit 400 : FP Fmt.b64).val = 400 := of_decide_eq_true (by krefl)
  have v5 : (FP.lit 500 : FP Fmt.b64).isFinite = true ∧ (FP.lit 500 : FP Fmt.b64).val = 500 := of_decide_eq_true (by krefl)
  have v6 : (FP.lit 600 : FP Fmt.b64).isFinite = true ∧ (FP.lit 600 : FP Fmt.b64).val = 600 := of_decide_eq_true (by krefl)
  have v7 : (FP.lit 700 : FP Fmt.b64).isFinite = true ∧ (FP.lit 700 : FP Fmt.b64).val = 700 := of_decide_eq_true (by krefl)
  have v8 : (FP.lit 800 : FP Fmt.b64).isFinite = true ∧ (FP.lit 800 : FP Fmt.b64).val = 800 := of_decide_eq_true (by krefl)
  have good : Spec.GoodGrid halfGrey ⟨FP.lit 300, FP.lit (1/2)⟩ ⟨FP.lit 400, FP.lit (1/2)⟩ ⟨FP.lit 800, FP.lit (1/2)⟩ := by
    refine ⟨rfl, rfl, rfl, ?_, ?_, ?_⟩
    · simp only [halfGrey, List.forall_mem_cons, List.not_mem_nil, IsEmpty.forall_iff, implies_true, and_true, v3, v4, v5, v6,
        v7, v8]
      norm_num
    · simp only [halfGrey, List.pairwise_cons, List.forall_mem_cons, List.not_mem_nil, IsEmpty.forall_iff, implies_true,
        and_true, List.Pairwise.nil, v3, v4, v5, v6, v7, v8]
      norm_num
    · rw [u_b64, v3.2, v4.2, v8.2]; norm_num
  have cov : Spec.Covers S := by
    refine ⟨by norm_num [S, halfGrey], 300, 100, by norm_num, by norm_num, by norm_num [S, halfGrey], ?_⟩
    intro k p hk
    simp only [S, halfGrey, List.map_cons, List.map_nil, v3, v4, v5, v6, v7, v8] at hk
    match k with
    | 0 | 1 | 2 | 3 | 4 | 5 =>
      simp only [List.getElem?_cons_succ, List.getElem?_cons_zero, Option.some.injEq] at hk
      subst hk; norm_num
    | k + 6 => simp at hk
  obtain ⟨L, lx, ly, lz⟩ := Hero.slopes _ _ _ _ S hX hY hZ hD cov
  obtain ⟨c, e, h, -, -⟩ := C120_shipped_f64 hp x y z d halfGrey hx hy hz hd _ _ _ _ S hX hY hZ hD rfl _ _ _ good (by decide)
    (by rw [v3.2]; norm_num) (by rw [v8.2]; norm_num) 1 (by norm_num) (by norm_num) (by
      simp only [halfGrey, List.forall_mem_cons, List.not_mem_nil, IsEmpty.forall_iff, implies_true, and_true, v1]
      norm_num [abs_le]) L lx ly lz (List.replicate heroSamples (FP.lit (1/2))) (List.length_replicate ..)
    (fun u hu => by rw [List.eq_of_mem_replicate hu, v1.2]; exact ⟨v1.1, by norm_num, by norm_num⟩)
  exact ⟨c, e, h.1⟩

end

end CS

import Verif.Lemmas.FPLab
import Verif.Props.SpragueShipped

/-!
# L*a*b* in floating point (C89)

The exact values are what the same code computes in exact arithmetic. `u` is half an ulp of 1: 1.1e-16 in
f64, 6e-8 in f32.
-/

namespace CS

section
variable {f : Fmt} [Libm f]

/-- a colour with finite components -/
def Spec.FinXyz (v : XYZ (FP f)) : Prop := v.x.isFinite = true ∧ v.y.isFinite = true ∧ v.z.isFinite = true
/-- L*a*b* coordinates that are finite -/
def Spec.FinLab (l : Lab (FP f)) : Prop := l.L.isFinite = true ∧ l.a.isFinite = true ∧ l.b.isFinite = true

omit [Libm f] in
/-- the number a colour stands for -/
noncomputable def Spec.realXyz (v : XYZ (FP f)) : XYZ ℝ := ⟨v.x.val, v.y.val, v.z.val⟩
/-- the number L*a*b* coordinates stand for -/
noncomputable def Spec.realLab (l : Lab (FP f)) : Lab ℝ := ⟨l.L.val, l.a.val, l.b.val⟩

/-- a reference white: finite components between `2^-20` and `2^20` -/
def Spec.White (w : XYZ (FP f)) : Prop := Spec.FinXyz w ∧
  (1 / 2 ^ 20 ≤ w.x.val ∧ w.x.val ≤ 2 ^ 20) ∧ (1 / 2 ^ 20 ≤ w.y.val ∧ w.y.val ≤ 2 ^ 20) ∧
  (1 / 2 ^ 20 ≤ w.z.val ∧ w.z.val ≤ 2 ^ 20)

/-- every component is between `lo` and `hi` times that of the white -/
def Spec.Within (v w : XYZ (FP f)) (lo hi : ℚ) : Prop :=
  (lo * w.x.val ≤ v.x.val ∧ v.x.val ≤ hi * w.x.val) ∧ (lo * w.y.val ≤ v.y.val ∧ v.y.val ≤ hi * w.y.val) ∧
  (lo * w.z.val ≤ v.z.val ∧ v.z.val ≤ hi * w.z.val)

/-! ### One component -/

/-- the quotient by the white -/
theorem ratio_fp (hf : Std f) {v w : FP f} (hv : v.isFinite = true) (hw : w.isFinite = true)
    (w1 : 1 / 2 ^ 20 ≤ w.val) {T : ℝ} (hT : (v.val : ℝ) / w.val = T) (hT5 : |T| ≤ 5) :
    (v / w).isFinite = true ∧ |((v / w).val : ℝ) - T| ≤ f.u * |T| + f.u / 2 ^ 100 := by
  obtain ⟨u0, u1, u2⟩ := hf.u_bounds
  have wp : 0 < w.val := lt_of_lt_of_le (by positivity) w1
  obtain ⟨a, b⟩ := FP.div_err hv hw wp.ne' (pow_le_emax hf.wide (q := v.val / w.val) (by
    have : |((v.val / w.val : ℚ) : ℝ)| ≤ 5 := by push_cast; rw [hT]; exact hT5
    have : |v.val / w.val| ≤ (5:ℚ) := by exact_mod_cast this
    exact this.trans (by norm_num)))
  refine ⟨a, ?_⟩
  have b' : |((v / w).val : ℝ) - v.val / w.val| ≤ |(v.val : ℝ) / w.val| * f.u + f.eta := by qcast b
  rw [hT] at b'
  have : (f.u : ℝ) / 2 ^ 124 ≤ f.u / 2 ^ 100 := div_le_div_of_nonneg_left u0.le (by positivity) (by norm_num)
  linarith

/-- one companded component of `xyz_to_lab` -/
theorem comp_fp (hf : Std f) (hp : PowAccurate f) {v w : FP f} (hv : v.isFinite = true) (hw : w.isFinite = true)
    (w1 : 1 / 2 ^ 20 ≤ w.val) (h1 : -(8 / 100) * w.val ≤ v.val) (h2 : v.val ≤ 3 / 2 * w.val) :
    Tr 1 (labF (v / w)) (labF ((v.val : ℝ) / w.val)) (115 / 100) (77 / 10) := by
  obtain ⟨u0, u1, u2⟩ := hf.u_bounds
  have u9 : (f.u : ℝ) ≤ 1 / 10 ^ 7 := u1.trans (by norm_num)
  have wp : (0:ℝ) < w.val := by
    have : 0 < w.val := lt_of_lt_of_le (by positivity) w1
    exact_mod_cast this
  have h1r : -(8 / 100) * (w.val : ℝ) ≤ v.val := by qcast h1
  have h2r : (v.val : ℝ) ≤ 3 / 2 * w.val := by qcast h2
  set T : ℝ := (v.val : ℝ) / w.val with hT
  have T1 : -(8 / 100) ≤ T := by rw [hT, le_div_iff₀ wp]; exact h1r
  have T2 : T ≤ 3 / 2 := by rw [hT, div_le_iff₀ wp]; exact h2r
  have T5 : |T| ≤ 3 / 2 := abs_le.2 ⟨by linarith, T2⟩
  obtain ⟨a, b⟩ := ratio_fp hf hv hw w1 hT.symm (by linarith)
  have hsm : (f.u : ℝ) / 2 ^ 100 ≤ 1 / 1000 * f.u := by
    rw [div_eq_mul_one_div, mul_comm]
    exact mul_le_mul_of_nonneg_right (by norm_num) u0.le
  have hF : labF T ≤ 1146 / 1000 ∧ -(49 / 100) ≤ labF T := by
    constructor
    · by_contra hc
      have := labG_expand (not_le.1 hc).le
      rw [labG_labF, labG_alt, if_neg (by norm_num)] at this
      have := not_le.1 hc
      norm_num at *; linarith
    · by_contra hc
      have := labG_expand (not_le.1 hc).le
      rw [labG_labF, labG_alt, if_pos (by norm_num)] at this
      have := not_le.1 hc
      norm_num at *; linarith
  have hrel := labF_rel2 (x := ((v / w).val : ℝ)) (y := T) (t := f.u) (e := f.u / 2 ^ 100)
    (by norm_num at u9 ⊢; linarith) b (by linarith) (by linarith) u0.le (by positivity)
  obtain ⟨b1, b2⟩ := abs_le.1 b
  have hu5 : f.u * |T| ≤ f.u * (3 / 2) := mul_le_mul_of_nonneg_left T5 u0.le
  obtain ⟨c1, c2⟩ := abs_le.1 hrel
  obtain ⟨d1, d2⟩ := labF_err hf hp a (by norm_num at u9; linarith) (by norm_num at u9; linarith)
    (B := 115 / 100) (by norm_num) (by norm_num at u9; linarith)
  refine ⟨d1, by rw [mul_one, abs_le]; constructor <;> linarith, ?_⟩
  have t := abs_add_le (((labF (v / w)).val : ℝ) - labF ((v / w).val : ℝ)) (labF ((v / w).val : ℝ) - labF T)
  rw [sub_add_sub_cancel] at t
  rw [mul_one]
  linarith

theorem tr_of (hf : Std f) (n : ℕ) (q : ℚ) {c : FP f} (hc : c = Flt.lit q) (h0 : 0 < n := by norm_num)
    (hn : n ≤ 2 ^ 24 := by norm_num) (hq : q = n := by norm_num) : Tr 1 c (n : ℝ) n 0 := by
  subst hc
  exact ⟨(lit_natural hf n h0 hn q hq).1, by simp, by rw [lit_val hf n q h0 hn hq]; simp⟩

/-- the last steps of `xyz_to_lab` -/
theorem lab_of (hf : Std f) {fx fy fz : FP f} {X Y Z M k : ℝ} (hx : Tr 1 fx X M k) (hy : Tr 1 fy Y M k)
    (hz : Tr 1 fz Z M k) (hk : 0 ≤ k) (hk2 : k ≤ 30) (hM2 : M ≤ 2) (hM0 : 0 ≤ M) :
    Tr 1 (Flt.lit 116.0 * fy - Flt.lit 16.0) (116 * Y - 16) (116 * M + 16) (117 * k + 233 * M + 18) ∧
    Tr 1 (Flt.lit 500.0 * (fx - fy)) (500 * (X - Y)) (1000 * M) (1001 * k + 2001 * M + 1) ∧
    Tr 1 (Flt.lit 200.0 * (fy - fz)) (200 * (Y - Z)) (400 * M) (401 * k + 801 * M + 1) := by
  have h16 := tr_of hf 16 16.0 (c := (Flt.lit 16.0 : FP f)) rfl
  have m : Tr 1 (Flt.lit 116.0 * fy) (116 * Y) (116 * M) (1161 / 10 * k + 1161 / 10 * M + 1) :=
    Tr.mulc hf scale_one (lit_fin hf 116 116.0) (by rw [lit_val hf 116 116.0]; norm_num) hy (B := 116)
      (by norm_num) hk le_rfl (by linarith) (by linarith) (by unfold rnd; norm_num; linarith)
  have d1 : Tr 1 (fx - fy) (X - Y) (2 * M) (20001 / 10000 * k + 2 * M + 1 / 10 ^ 6) :=
    hx.sub hf scale_one hy hk hk (by linarith) (by linarith) (by linarith) (by unfold rnd; norm_num; linarith)
  have d2 : Tr 1 (fy - fz) (Y - Z) (2 * M) (20001 / 10000 * k + 2 * M + 1 / 10 ^ 6) :=
    hy.sub hf scale_one hz hk hk (by linarith) (by linarith) (by linarith) (by unfold rnd; norm_num; linarith)
  refine ⟨?_, ?_, ?_⟩
  · refine m.sub hf scale_one h16 (by linarith) le_rfl (by norm_num) (by linarith) (by linarith) ?_
    unfold rnd; norm_num; linarith
  · refine Tr.mulc hf scale_one (lit_fin hf 500 500.0) (by rw [lit_val hf 500 500.0]; norm_num) d1 (B := 500)
      (by norm_num) (by linarith) (by linarith) (by linarith) (by linarith) (by unfold rnd; norm_num; linarith)
  · refine Tr.mulc hf scale_one (lit_fin hf 200 200.0) (by rw [lit_val hf 200 200.0]; norm_num) d2 (B := 200)
      (by norm_num) (by linarith) (by linarith) (by linarith) (by linarith) (by unfold rnd; norm_num; linarith)

/-- `xyz_to_lab`, with magnitudes -/
theorem xyzToLab_tr (hf : Std f) (hp : PowAccurate f) (v w : XYZ (FP f)) (hv : Spec.FinXyz v) (hw : Spec.White w)
    (h : Spec.Within v w (-(8 / 100)) (3 / 2)) :
    Tr 1 (xyzToLab v w).L (116 * labF ((v.y.val : ℝ) / w.y.val) - 16) (1494 / 10) 1187 ∧
    Tr 1 (xyzToLab v w).a (500 * (labF ((v.x.val : ℝ) / w.x.val) - labF ((v.y.val : ℝ) / w.y.val))) 1150 10011 ∧
    Tr 1 (xyzToLab v w).b (200 * (labF ((v.y.val : ℝ) / w.y.val) - labF ((v.z.val : ℝ) / w.z.val))) 460 4011 := by
  obtain ⟨v1, v2, v3⟩ := hv
  obtain ⟨⟨w1, w2, w3⟩, ⟨wx, -⟩, ⟨wy, -⟩, ⟨wz, -⟩⟩ := hw
  obtain ⟨⟨x1, x2⟩, ⟨y1, y2⟩, z1, z2⟩ := h
  have cx := comp_fp hf hp v1 w1 wx x1 x2
  have cy := comp_fp hf hp v2 w2 wy y1 y2
  have cz := comp_fp hf hp v3 w3 wz z1 z2
  obtain ⟨a, b, c⟩ := lab_of hf cx cy cz (by norm_num) (by norm_num) (by norm_num) (by norm_num)
  exact ⟨a.mono scale_one (by norm_num) (by norm_num), b.mono scale_one (by norm_num) (by norm_num),
    c.mono scale_one (by norm_num) (by norm_num)⟩

/-! ## C89 -/

/-- C89 [F]: `xyz_to_lab` of a colour between -0.08 and 1.5 times the white is finite and, in f32 and f64,
within `1200 u`, `10100 u` and `4100 u` of the exact L*, a* and b* (1.4e-13, 1.2e-12, 5e-13 in f64), also
where rounding makes it take the other branch. `powf` is assumed accurate to two ulps. -/
theorem C89_xyz_to_lab (hf : Std f) (hp : PowAccurate f) (v w : XYZ (FP f)) (hv : Spec.FinXyz v)
    (hw : Spec.White w) (h : Spec.Within v w (-(8 / 100)) (3 / 2)) :
    let r := Spec.realLab (xyzToLab v w)
    let e := xyzToLab (Spec.realXyz v) (Spec.realXyz w)
    Spec.FinLab (xyzToLab v w) ∧
    |r.L - e.L| ≤ 1200 * f.u ∧ |r.a - e.a| ≤ 10100 * f.u ∧ |r.b - e.b| ≤ 4100 * f.u := by
  intro r e
  obtain ⟨a, b, c⟩ := xyzToLab_tr hf hp v w hv hw h
  have u0 := hf.u_bounds.1
  have he : e = ⟨116 * labF ((v.y.val : ℝ) / w.y.val) - 16,
      500 * (labF ((v.x.val : ℝ) / w.x.val) - labF ((v.y.val : ℝ) / w.y.val)),
      200 * (labF ((v.y.val : ℝ) / w.y.val) - labF ((v.z.val : ℝ) / w.z.val))⟩ := xyzToLab_eq _ _
  rw [he]
  have a1 := a.err
  have b1 := b.err
  have c1 := c.err
  rw [mul_one] at a1 b1 c1
  exact ⟨⟨a.fin, b.fin, c.fin⟩, a1.trans (by linarith), b1.trans (by linarith), c1.trans (by linarith)⟩

/-- the product with the white -/
theorem times_white (hf : Std f) {c w : FP f} (hc : c.isFinite = true) (hw : w.isFinite = true)
    (w1 : 1 / 2 ^ 20 ≤ w.val) (w2 : w.val ≤ 2 ^ 20) (h5 : |(c.val : ℝ)| ≤ 5) :
    (c * w).isFinite = true ∧
    |((c * w).val : ℝ) - c.val * w.val| ≤ (f.u * |(c.val : ℝ)| + f.u / 2 ^ 100) * w.val := by
  obtain ⟨u0, u1, u2⟩ := hf.u_bounds
  have wp : 0 < w.val := lt_of_lt_of_le (by positivity) w1
  have wpr : (0:ℝ) < w.val := by exact_mod_cast wp
  have w1r : (1:ℝ) / 2 ^ 20 ≤ w.val := by qcast w1
  have w2r : (w.val : ℝ) ≤ 2 ^ 20 := by exact_mod_cast w2
  obtain ⟨a, b⟩ := FP.mul_err hc hw (pow_le_emax hf.wide (q := c.val * w.val) (by
    have : |((c.val * w.val : ℚ) : ℝ)| ≤ 2 ^ 61 := by
      push_cast
      rw [abs_mul, abs_of_pos wpr]
      have := mul_le_mul h5 w2r wpr.le (by norm_num)
      exact this.trans (by norm_num)
    exact_mod_cast this))
  refine ⟨a, ?_⟩
  have b' : |((c * w).val : ℝ) - c.val * w.val| ≤ |(c.val : ℝ) * w.val| * f.u + f.eta := by qcast b
  rw [abs_mul, abs_of_pos wpr] at b'
  have : (f.u : ℝ) / 2 ^ 124 ≤ f.u / 2 ^ 100 * w.val := by
    have e : (f.u : ℝ) / 2 ^ 100 * (1 / 2 ^ 20) ≤ f.u / 2 ^ 100 * w.val :=
      mul_le_mul_of_nonneg_left w1r (by positivity)
    refine le_trans ?_ e
    rw [div_mul_div_comm, mul_one]
    exact div_le_div_of_nonneg_left u0.le (by positivity) (by norm_num)
  linarith

/-- one component of `lab_to_xyz`, in terms of the companded coordinate `F` it stands for -/
theorem back_fp (hf : Std f) {c w : FP f} (hc : c.isFinite = true) (hw : w.isFinite = true)
    (w1 : 1 / 2 ^ 20 ≤ w.val) (w2 : w.val ≤ 2 ^ 20) {F k B : ℝ} (h : |labF (c.val : ℝ) - F| ≤ k * f.u)
    (F1 : -(51 / 100) ≤ F) (F2 : F ≤ B) (hB : B ≤ 165 / 100) (hB1 : 1 ≤ B) (hk : 0 ≤ k) (hk2 : k ≤ 100) :
    (c * w).isFinite = true ∧
    |((c * w).val : ℝ) - labG F * w.val| ≤ (3 * (B + 1 / 10 ^ 4) ^ 2 * k + 5) * f.u * w.val ∧
    |(c.val : ℝ)| ≤ 46 / 10 ∧ -(85 / 1000) ≤ (c.val : ℝ) := by
  obtain ⟨u0, u1, u2⟩ := hf.u_bounds
  have u9 : (f.u : ℝ) ≤ 1 / 10 ^ 7 := u1.trans (by norm_num)
  have wpr : (0:ℝ) < w.val := by
    have : 0 < w.val := lt_of_lt_of_le (by positivity) w1
    exact_mod_cast this
  have ku : k * (f.u : ℝ) ≤ 1 / 10 ^ 5 := by
    have := mul_le_mul hk2 u9 u0.le (by norm_num)
    norm_num at this ⊢; linarith
  obtain ⟨h1, h2⟩ := abs_le.1 h
  have lip := labG_lip (φ := F) (ψ := labF (c.val : ℝ)) (B := B + 1 / 10 ^ 4) (by linarith)
    (by norm_num at ku ⊢; linarith) (by norm_num; linarith)
  rw [labG_labF] at lip
  have hcb : (c.val : ℝ) ≤ 46 / 10 ∧ -(85 / 1000) ≤ (c.val : ℝ) := by
    constructor
    · have := labG_expand (show labF (c.val : ℝ) ≤ 166 / 100 by norm_num at ku; linarith)
      rw [labG_labF, labG_alt, if_neg (by norm_num)] at this
      norm_num at this ku; linarith
    · have := labG_expand (show -(511 / 1000) ≤ labF (c.val : ℝ) by norm_num at ku; linarith)
      rw [labG_labF, labG_alt, if_pos (by norm_num)] at this
      norm_num at this ku; linarith
  have hca : |(c.val : ℝ)| ≤ 46 / 10 := abs_le.2 ⟨by linarith, hcb.1⟩
  obtain ⟨a, b⟩ := times_white hf hc hw w1 w2 (by linarith)
  refine ⟨a, ?_, hca, hcb.2⟩
  have t := abs_add_le (((c * w).val : ℝ) - c.val * w.val) (c.val * w.val - labG F * w.val)
  rw [sub_add_sub_cancel, ← sub_mul, abs_mul, abs_of_pos wpr] at t
  have e1 : |(c.val : ℝ) - labG F| ≤ 3 * (B + 1 / 10 ^ 4) ^ 2 * (k * f.u) :=
    lip.trans (mul_le_mul_of_nonneg_left h (by positivity))
  have e2 := mul_le_mul_of_nonneg_right e1 wpr.le
  have e3 : f.u * |(c.val : ℝ)| + f.u / 2 ^ 100 ≤ 5 * f.u := by
    have := mul_le_mul_of_nonneg_left hca u0.le
    have : (f.u : ℝ) / 2 ^ 100 ≤ 1 / 10 * f.u := by
      rw [div_eq_mul_one_div, mul_comm]
      exact mul_le_mul_of_nonneg_right (by norm_num) u0.le
    linarith
  have e4 := mul_le_mul_of_nonneg_right e3 wpr.le
  have e5 : (3 * (B + 1 / 10 ^ 4) ^ 2 * k + 5) * f.u * w.val =
    3 * (B + 1 / 10 ^ 4) ^ 2 * (k * f.u) * w.val + 5 * f.u * w.val := by ring
  rw [e5]
  linarith

/-- L*a*b* coordinates with L* between 0 and 100, a* and b* between -128 and 128 -/
def Spec.LabBox (l : Lab (FP f)) : Prop :=
  (0 ≤ l.L.val ∧ l.L.val ≤ 100) ∧ |l.a.val| ≤ 128 ∧ |l.b.val| ≤ 128

/-- the companded coordinates `lab_to_xyz` starts from -/
theorem back_space (hf : Std f) (hq : PowiAccurate f) (l : Lab (FP f)) (hl : Spec.FinLab l) (hb : Spec.LabBox l) :
    let fy := (l.L + Flt.lit 16.0) / Flt.lit 116.0
    let cx := labGx ((l.a / Flt.lit 500.0) + fy)
    let cy := labGy l.L
    let cz := labGx (fy - (l.b / Flt.lit 200.0))
    (cx.isFinite = true ∧ cy.isFinite = true ∧ cz.isFinite = true) ∧
    |labF (cx.val : ℝ) - ((l.a.val : ℝ) / 500 + ((l.L.val : ℝ) + 16) / 116)| ≤ 12 * f.u ∧
    |labF (cy.val : ℝ) - ((l.L.val : ℝ) + 16) / 116| ≤ 12 * f.u ∧
    |labF (cz.val : ℝ) - (((l.L.val : ℝ) + 16) / 116 - (l.b.val : ℝ) / 200)| ≤ 12 * f.u := by
  intro fy cx cy cz
  obtain ⟨u0, u1, u2⟩ := hf.u_bounds
  have u9 : (f.u : ℝ) ≤ 1 / 10 ^ 7 := u1.trans (by norm_num)
  obtain ⟨l1, l2, l3⟩ := hl
  obtain ⟨⟨b1, b2⟩, b3, b4⟩ := hb
  have b1r : (0:ℝ) ≤ l.L.val := by exact_mod_cast b1
  have b2r : (l.L.val : ℝ) ≤ 100 := by exact_mod_cast b2
  have b3r : |(l.a.val : ℝ)| ≤ 128 := by exact_mod_cast b3
  have b4r : |(l.b.val : ℝ)| ≤ 128 := by exact_mod_cast b4
  obtain ⟨a1, a2⟩ := abs_le.1 b3r
  obtain ⟨a3, a4⟩ := abs_le.1 b4r
  have hy := fy_tr hf l1 (by linarith) (by linarith)
  have ha : Tr 1 (l.a / Flt.lit 500.0) ((l.a.val : ℝ) / 500) (256 / 1000) (257 / 1000) :=
    (Tr.exact (M := 128) l2 (by linarith)).divc hf scale_one (lit_fin hf 500 500.0)
      (by rw [lit_val hf 500 500.0]; norm_num) (by norm_num)
  have hbb : Tr 1 (l.b / Flt.lit 200.0) ((l.b.val : ℝ) / 200) (64 / 100) (641 / 1000) :=
    (Tr.exact (M := 128) l3 (by linarith)).divc hf scale_one (lit_fin hf 200 200.0)
      (by rw [lit_val hf 200 200.0]; norm_num) (by norm_num)
  have hx : Tr 1 (l.a / Flt.lit 500.0 + fy) ((l.a.val : ℝ) / 500 + ((l.L.val : ℝ) + 16) / 116) (1472 / 1000)
      (418 / 100) := ha.add hf scale_one hy
  have hz : Tr 1 (fy - l.b / Flt.lit 200.0) (((l.L.val : ℝ) + 16) / 116 - (l.b.val : ℝ) / 200) (1856 / 1000)
      (495 / 100) := hy.sub hf scale_one hbb
  have ex := hx.err
  have ez := hz.err
  rw [mul_one] at ex ez
  obtain ⟨ex1, ex2⟩ := abs_le.1 ex
  obtain ⟨ez1, ez2⟩ := abs_le.1 ez
  obtain ⟨x1, x2⟩ := labGx_back hf hq hx.fin (by norm_num at u9; linarith) (by norm_num at u9; linarith)
  obtain ⟨z1, z2⟩ := labGx_back hf hq hz.fin (by norm_num at u9; linarith) (by norm_num at u9; linarith)
  obtain ⟨y1, y2⟩ := labGy_back hf hq l1 (by linarith) (by linarith)
  refine ⟨⟨x1, y1, z1⟩, ?_, y2.trans (by linarith), ?_⟩
  · have t := abs_add_le (labF (cx.val : ℝ) - ((l.a / Flt.lit 500.0 + fy).val : ℝ))
      (((l.a / Flt.lit 500.0 + fy).val : ℝ) - ((l.a.val : ℝ) / 500 + ((l.L.val : ℝ) + 16) / 116))
    rw [sub_add_sub_cancel] at t
    exact t.trans ((add_le_add x2 ex).trans (by linarith))
  · have t := abs_add_le (labF (cz.val : ℝ) - ((fy - l.b / Flt.lit 200.0).val : ℝ))
      (((fy - l.b / Flt.lit 200.0).val : ℝ) - (((l.L.val : ℝ) + 16) / 116 - (l.b.val : ℝ) / 200))
    rw [sub_add_sub_cancel] at t
    exact t.trans ((add_le_add z2 ez).trans (by linarith))

/-- C89 [F]: `lab_to_xyz` of L* in [0, 100], a* and b* in [-128, 128] is finite and within `105 u` times the
white of the exact colour, in f32 and f64 (1.2e-14 times the white in f64). `powi` is assumed accurate to
seven roundings. -/
theorem C89_lab_to_xyz (hf : Std f) (hq : PowiAccurate f) (l : Lab (FP f)) (w : XYZ (FP f)) (hl : Spec.FinLab l)
    (hb : Spec.LabBox l) (hw : Spec.White w) :
    let r := Spec.realXyz (labToXyz l w)
    let e := labToXyz (Spec.realLab l) (Spec.realXyz w)
    Spec.FinXyz (labToXyz l w) ∧
    |r.x - e.x| ≤ 105 * f.u * w.x.val ∧ |r.y - e.y| ≤ 105 * f.u * w.y.val ∧ |r.z - e.z| ≤ 105 * f.u * w.z.val := by
  intro r e
  obtain ⟨u0, u1, u2⟩ := hf.u_bounds
  obtain ⟨⟨c1, c2, c3⟩, x, y, z⟩ := back_space hf hq l hl hb
  obtain ⟨⟨w1, w2, w3⟩, ⟨wx, wx'⟩, ⟨wy, wy'⟩, ⟨wz, wz'⟩⟩ := hw
  obtain ⟨⟨b1, b2⟩, b3, b4⟩ := hb
  have b1r : (0:ℝ) ≤ l.L.val := by exact_mod_cast b1
  have b2r : (l.L.val : ℝ) ≤ 100 := by exact_mod_cast b2
  obtain ⟨a1, a2⟩ := abs_le.1 (show |(l.a.val : ℝ)| ≤ 128 by exact_mod_cast b3)
  obtain ⟨a3, a4⟩ := abs_le.1 (show |(l.b.val : ℝ)| ≤ 128 by exact_mod_cast b4)
  have he : e = ⟨labG ((l.a.val : ℝ) / 500 + ((l.L.val : ℝ) + 16) / 116) * w.x.val,
      labG (((l.L.val : ℝ) + 16) / 116) * w.y.val,
      labG (((l.L.val : ℝ) + 16) / 116 - (l.b.val : ℝ) / 200) * w.z.val⟩ := labToXyz_eq _ _
  obtain ⟨x1, x2, -⟩ := back_fp hf c1 w1 wx wx' x (B := 165 / 100) (by linarith) (by linarith) le_rfl
    (by norm_num) (by norm_num) (by norm_num)
  obtain ⟨y1, y2, -⟩ := back_fp hf c2 w2 wy wy' y (B := 165 / 100) (by linarith) (by linarith) le_rfl
    (by norm_num) (by norm_num) (by norm_num)
  obtain ⟨z1, z2, -⟩ := back_fp hf c3 w3 wz wz' z (B := 165 / 100) (by linarith) (by linarith) le_rfl
    (by norm_num) (by norm_num) (by norm_num)
  have fin : ∀ w : FP f, 1 / 2 ^ 20 ≤ w.val → (3 * (165 / 100 + 1 / 10 ^ 4) ^ 2 * 12 + 5) * f.u * (w.val : ℝ) ≤
      105 * f.u * w.val := by
    intro w hw
    have wpr : (0:ℝ) < w.val := by
      have : 0 < w.val := lt_of_lt_of_le (by positivity) hw
      exact_mod_cast this
    exact mul_le_mul_of_nonneg_right (mul_le_mul_of_nonneg_right (by norm_num) u0.le) wpr.le
  rw [he]
  exact ⟨⟨x1, y1, z1⟩, x2.trans (fin _ wx), y2.trans (fin _ wy), z2.trans (fin _ wz)⟩

/-- one component of the way to XYZ and back -/
theorem again_fp (hf : Std f) (hp : PowAccurate f) {c w : FP f} (hc : c.isFinite = true) (hw : w.isFinite = true)
    (w1 : 1 / 2 ^ 20 ≤ w.val) (w2 : w.val ≤ 2 ^ 20) {F : ℝ} (h : |labF (c.val : ℝ) - F| ≤ 12 * f.u)
    (F1 : -(51 / 100) ≤ F) (F2 : F ≤ 1641 / 1000) :
    Tr 1 (labF (c * w / w)) F (1641 / 1000) (236 / 10) := by
  obtain ⟨u0, u1, u2⟩ := hf.u_bounds
  have u9 : (f.u : ℝ) ≤ 1 / 10 ^ 7 := u1.trans (by norm_num)
  have wpr : (0:ℝ) < w.val := by
    have : 0 < w.val := lt_of_lt_of_le (by positivity) w1
    exact_mod_cast this
  obtain ⟨-, -, c5, c6⟩ := back_fp hf hc hw w1 w2 h F1 F2 (by norm_num) (by norm_num) (by norm_num) (by norm_num)
  obtain ⟨p1, p2⟩ := times_white hf hc hw w1 w2 (by linarith)
  have hsm : (f.u : ℝ) / 2 ^ 100 ≤ 1 / 1000 * f.u := by
    rw [div_eq_mul_one_div, mul_comm]
    exact mul_le_mul_of_nonneg_right (by norm_num) u0.le
  have hq : |((c * w).val : ℝ) / w.val - c.val| ≤ f.u * |(c.val : ℝ)| + f.u / 2 ^ 100 := by
    have e : ((c * w).val : ℝ) / w.val - c.val = (((c * w).val : ℝ) - c.val * w.val) / w.val := by
      field_simp
    rw [e, abs_div, abs_of_pos wpr, div_le_iff₀ wpr]; exact p2
  have hcu : f.u * |(c.val : ℝ)| ≤ f.u * 5 := mul_le_mul_of_nonneg_left (by linarith) u0.le
  set T := ((c * w).val : ℝ) / w.val with hT
  have hTa : |T| ≤ |(c.val : ℝ)| + (f.u * |(c.val : ℝ)| + f.u / 2 ^ 100) := by
    have := abs_add_le (T - c.val) c.val
    rw [sub_add_cancel] at this
    linarith
  obtain ⟨d1, d2⟩ := ratio_fp hf p1 hw w1 hT.symm (by norm_num at u9; linarith)
  have hd : |((c * w / w).val : ℝ) - c.val| ≤ 201 / 100 * f.u * |(c.val : ℝ)| + 3 * (f.u / 2 ^ 100) := by
    have t := abs_add_le (((c * w / w).val : ℝ) - T) (T - c.val)
    rw [sub_add_sub_cancel] at t
    have e1 : f.u * |T| ≤ f.u * (|(c.val : ℝ)| + (f.u * |(c.val : ℝ)| + f.u / 2 ^ 100)) :=
      mul_le_mul_of_nonneg_left hTa u0.le
    have e2 : (f.u : ℝ) * (f.u * |(c.val : ℝ)|) ≤ 1 / 100 * (f.u * |(c.val : ℝ)|) :=
      mul_le_mul_of_nonneg_right (by norm_num at u9; linarith) (by positivity)
    have e3 : (f.u : ℝ) * (f.u / 2 ^ 100) ≤ 1 * (f.u / 2 ^ 100) :=
      mul_le_mul_of_nonneg_right (by norm_num at u9; linarith) (by positivity)
    rw [mul_add, mul_add] at e1
    linarith
  obtain ⟨c7, c8⟩ := abs_le.1 c5
  have hrel := labF_rel2 (x := ((c * w / w).val : ℝ)) (y := c.val) (t := 201 / 100 * f.u) (e := 3 * (f.u / 2 ^ 100))
    (by norm_num at u9 ⊢; linarith) hd (by linarith) (by linarith) (by positivity) (by positivity)
  obtain ⟨g1, g2⟩ := abs_le.1 hd
  obtain ⟨g3, g4⟩ := abs_le.1 hrel
  obtain ⟨h1, h2⟩ := abs_le.1 h
  have u5 : 201 / 100 * f.u * |(c.val : ℝ)| ≤ 201 / 100 * f.u * 5 :=
    mul_le_mul_of_nonneg_left (by linarith) (by positivity)
  obtain ⟨k1, k2⟩ := labF_err hf hp d1 (by norm_num at u9; linarith) (by norm_num at u9; linarith)
    (B := 1645 / 1000) (by norm_num) (by norm_num at u9; linarith)
  refine ⟨k1, by rw [mul_one, abs_le]; constructor <;> linarith, ?_⟩
  have t1 := abs_add_le (((labF (c * w / w)).val : ℝ) - labF ((c * w / w).val : ℝ))
    (labF ((c * w / w).val : ℝ) - labF (c.val : ℝ))
  rw [sub_add_sub_cancel] at t1
  have t2 := abs_add_le (((labF (c * w / w)).val : ℝ) - labF (c.val : ℝ)) (labF (c.val : ℝ) - F)
  rw [sub_add_sub_cancel] at t2
  rw [mul_one]
  linarith

/-- C89 [F]: going from L*a*b* (L* in [0, 100], a* and b* in [-128, 128]) to XYZ and back in f32 and f64
returns the coordinates up to `3200 u`, `27000 u` and `11000 u`: 3.6e-13, 3e-12 and 1.3e-12 in f64. -/
theorem C89_lab_xyz_lab (hf : Std f) (hp : PowAccurate f) (hq : PowiAccurate f) (l : Lab (FP f)) (w : XYZ (FP f))
    (hl : Spec.FinLab l) (hb : Spec.LabBox l) (hw : Spec.White w) :
    let m := xyzToLab (labToXyz l w) w
    Spec.FinLab m ∧ |(m.L.val : ℝ) - l.L.val| ≤ 3200 * f.u ∧ |(m.a.val : ℝ) - l.a.val| ≤ 27000 * f.u ∧
      |(m.b.val : ℝ) - l.b.val| ≤ 11000 * f.u := by
  intro m
  obtain ⟨u0, u1, u2⟩ := hf.u_bounds
  obtain ⟨⟨c1, c2, c3⟩, x, y, z⟩ := back_space hf hq l hl hb
  obtain ⟨⟨w1, w2, w3⟩, ⟨wx, wx'⟩, ⟨wy, wy'⟩, ⟨wz, wz'⟩⟩ := hw
  obtain ⟨⟨b1, b2⟩, b3, b4⟩ := hb
  have b1r : (0:ℝ) ≤ l.L.val := by exact_mod_cast b1
  have b2r : (l.L.val : ℝ) ≤ 100 := by exact_mod_cast b2
  obtain ⟨a1, a2⟩ := abs_le.1 (show |(l.a.val : ℝ)| ≤ 128 by exact_mod_cast b3)
  obtain ⟨a3, a4⟩ := abs_le.1 (show |(l.b.val : ℝ)| ≤ 128 by exact_mod_cast b4)
  have tx := again_fp hf hp c1 w1 wx wx' x (by linarith) (by linarith)
  have ty := again_fp hf hp c2 w2 wy wy' y (by linarith) (by linarith)
  have tz := again_fp hf hp c3 w3 wz wz' z (by linarith) (by linarith)
  obtain ⟨p, q, s⟩ := lab_of hf tx ty tz (by norm_num) (by norm_num) (by norm_num) (by norm_num)
  have pe := p.err
  have qe := q.err
  have se := s.err
  rw [mul_one] at pe qe se
  rw [show 116 * (((l.L.val : ℝ) + 16) / 116) - 16 = (l.L.val : ℝ) by ring] at pe
  rw [show 500 * ((l.a.val : ℝ) / 500 + ((l.L.val : ℝ) + 16) / 116 - ((l.L.val : ℝ) + 16) / 116) = (l.a.val : ℝ) by
    ring] at qe
  rw [show 200 * (((l.L.val : ℝ) + 16) / 116 - (((l.L.val : ℝ) + 16) / 116 - (l.b.val : ℝ) / 200)) = (l.b.val : ℝ) by
    ring] at se
  exact ⟨⟨p.fin, q.fin, s.fin⟩, pe.trans (by linarith), qe.trans (by linarith), se.trans (by linarith)⟩

/-- the companded coordinates of a colour between -0.01 and 1.5 times the white -/
theorem labF_range {v w : FP f} (w1 : 1 / 2 ^ 20 ≤ w.val) (h1 : -(1 / 100) * w.val ≤ v.val)
    (h2 : v.val ≤ 3 / 2 * w.val) :
    6 / 100 ≤ labF ((v.val : ℝ) / w.val) ∧ labF ((v.val : ℝ) / w.val) ≤ 1146 / 1000 ∧
    labG (labF ((v.val : ℝ) / w.val)) * w.val = v.val := by
  have wp : (0:ℝ) < w.val := by
    have : 0 < w.val := lt_of_lt_of_le (by positivity) w1
    exact_mod_cast this
  have h1r : -(1 / 100) * (w.val : ℝ) ≤ v.val := by qcast h1
  have h2r : (v.val : ℝ) ≤ 3 / 2 * w.val := by qcast h2
  have e := labG_labF ((v.val : ℝ) / w.val)
  refine ⟨?_, ?_, by rw [e]; exact div_mul_cancel₀ _ wp.ne'⟩
  · by_contra hc
    have := labG_expand (not_le.1 hc).le
    rw [e, labG_alt, if_pos (by norm_num)] at this
    have T1 : -(1 / 100) ≤ (v.val : ℝ) / w.val := by rw [le_div_iff₀ wp]; exact h1r
    have := not_le.1 hc
    norm_num at *; linarith
  · by_contra hc
    have := labG_expand (not_le.1 hc).le
    rw [e, labG_alt, if_neg (by norm_num)] at this
    have T2 : (v.val : ℝ) / w.val ≤ 3 / 2 := by rw [div_le_iff₀ wp]; exact h2r
    have := not_le.1 hc
    norm_num at *; linarith

/-- C89 [F]: going from XYZ (between -0.01 and 1.5 times the white) to L*a*b* and back in f32 and f64 returns
the colour up to `195 u` times the white: 2.2e-14 in f64. -/
theorem C89_xyz_lab_xyz (hf : Std f) (hp : PowAccurate f) (hq : PowiAccurate f) (v w : XYZ (FP f))
    (hv : Spec.FinXyz v) (hw : Spec.White w) (h : Spec.Within v w (-(1 / 100)) (3 / 2)) :
    let r := labToXyz (xyzToLab v w) w
    Spec.FinXyz r ∧ |(r.x.val : ℝ) - v.x.val| ≤ 195 * f.u * w.x.val ∧
      |(r.y.val : ℝ) - v.y.val| ≤ 195 * f.u * w.y.val ∧ |(r.z.val : ℝ) - v.z.val| ≤ 195 * f.u * w.z.val := by
  intro r
  obtain ⟨u0, u1, u2⟩ := hf.u_bounds
  have u9 : (f.u : ℝ) ≤ 1 / 10 ^ 7 := u1.trans (by norm_num)
  have hwp : ∀ c : FP f, 1 / 2 ^ 20 ≤ c.val → 0 < c.val := fun c hc => lt_of_lt_of_le (by positivity) hc
  obtain ⟨tL, ta, tb⟩ := xyzToLab_tr hf hp v w hv hw (by
    obtain ⟨-, ⟨wx, -⟩, ⟨wy, -⟩, ⟨wz, -⟩⟩ := hw
    obtain ⟨⟨x1, x2⟩, ⟨y1, y2⟩, z1, z2⟩ := h
    have := hwp _ wx
    have := hwp _ wy
    have := hwp _ wz
    exact ⟨⟨by linarith, x2⟩, ⟨by linarith, y2⟩, by linarith, z2⟩)
  obtain ⟨⟨w1, w2, w3⟩, ⟨wx, wx'⟩, ⟨wy, wy'⟩, ⟨wz, wz'⟩⟩ := hw
  obtain ⟨⟨x1, x2⟩, ⟨y1, y2⟩, z1, z2⟩ := h
  obtain ⟨gx1, gx2, gx⟩ := labF_range wx x1 x2
  obtain ⟨gy1, gy2, gy⟩ := labF_range wy y1 y2
  obtain ⟨gz1, gz2, gz⟩ := labF_range wz z1 z2
  generalize labF ((v.x.val : ℝ) / w.x.val) = X at *
  generalize labF ((v.y.val : ℝ) / w.y.val) = Y at *
  generalize labF ((v.z.val : ℝ) / w.z.val) = Z at *
  generalize hl : xyzToLab v w = l at *
  have eL := tL.err
  rw [mul_one] at eL
  obtain ⟨eL1, eL2⟩ := abs_le.1 eL
  have L1 : -10 ≤ (l.L.val : ℝ) := by norm_num at u9; linarith
  have L2 : (l.L.val : ℝ) ≤ 125 := by norm_num at u9; linarith
  have hFy : |((l.L.val : ℝ) + 16) / 116 - Y| ≤ 1024 / 100 * f.u := by
    rw [abs_le]; constructor <;> linarith
  have fy0 := fy_tr hf tL.fin L1 L2
  have fy : Tr 1 ((l.L + Flt.lit 16.0) / Flt.lit 116.0) Y (1146 / 1000) (127 / 10) := by
    refine ⟨fy0.fin, by rw [mul_one, abs_le]; constructor <;> linarith, ?_⟩
    have t := abs_add_le (((((l.L + Flt.lit 16.0) / Flt.lit 116.0 : FP f)).val : ℝ) - ((l.L.val : ℝ) + 16) / 116)
      (((l.L.val : ℝ) + 16) / 116 - Y)
    rw [sub_add_sub_cancel] at t
    have e0 := fy0.err
    rw [mul_one] at e0 ⊢
    exact t.trans ((add_le_add e0 hFy).trans (by linarith))
  have fa : Tr 1 (l.a / Flt.lit 500.0) (X - Y) (23 / 10) (2233 / 100) :=
    (ta.divc hf scale_one (lit_fin hf 500 500.0) (C := 500) (by rw [lit_val hf 500 500.0]; norm_num)
      (by norm_num)).congr (by ring)
  have fb : Tr 1 (l.b / Flt.lit 200.0) (Y - Z) (23 / 10) (2237 / 100) :=
    (tb.divc hf scale_one (lit_fin hf 200 200.0) (C := 200) (by rw [lit_val hf 200 200.0]; norm_num)
      (by norm_num)).congr (by ring)
  have fx : Tr 1 (l.a / Flt.lit 500.0 + (l.L + Flt.lit 16.0) / Flt.lit 116.0) X (345 / 100) (386 / 10) :=
    (fa.add hf scale_one fy).congr (by ring)
  have fz : Tr 1 ((l.L + Flt.lit 16.0) / Flt.lit 116.0 - l.b / Flt.lit 200.0) Z (345 / 100) (386 / 10) :=
    (fy.sub hf scale_one fb).congr (by ring)
  have ex := fx.err
  have ez := fz.err
  rw [mul_one] at ex ez
  obtain ⟨ex1, ex2⟩ := abs_le.1 ex
  obtain ⟨ez1, ez2⟩ := abs_le.1 ez
  obtain ⟨c1, bx⟩ := labGx_back hf hq fx.fin (by norm_num at u9; linarith) (by norm_num at u9; linarith)
  obtain ⟨c3, bz⟩ := labGx_back hf hq fz.fin (by norm_num at u9; linarith) (by norm_num at u9; linarith)
  obtain ⟨c2, by'⟩ := labGy_back hf hq tL.fin L1 L2
  have kx := (abs_add_le _ _).trans (add_le_add bx ex)
  have kz := (abs_add_le _ _).trans (add_le_add bz ez)
  have ky := (abs_add_le _ _).trans (add_le_add by' hFy)
  rw [sub_add_sub_cancel] at kx ky kz
  obtain ⟨r1, r2, -⟩ := back_fp hf c1 w1 wx wx' (k := 46) (B := 1146 / 1000) (kx.trans (by linarith)) (by linarith) gx2
    (by norm_num) (by norm_num) (by norm_num) (by norm_num)
  obtain ⟨r3, r4, -⟩ := back_fp hf c2 w2 wy wy' (k := 46) (B := 1146 / 1000) (ky.trans (by linarith)) (by linarith) gy2
    (by norm_num) (by norm_num) (by norm_num) (by norm_num)
  obtain ⟨r5, r6, -⟩ := back_fp hf c3 w3 wz wz' (k := 46) (B := 1146 / 1000) (kz.trans (by linarith)) (by linarith) gz2
    (by norm_num) (by norm_num) (by norm_num) (by norm_num)
  have fin : ∀ w : FP f, 1 / 2 ^ 20 ≤ w.val → (3 * (1146 / 1000 + 1 / 10 ^ 4) ^ 2 * 46 + 5) * f.u * (w.val : ℝ) ≤
      195 * f.u * w.val := by
    intro w hw
    have wpr : (0:ℝ) < w.val := by exact_mod_cast hwp _ hw
    exact mul_le_mul_of_nonneg_right (mul_le_mul_of_nonneg_right (by norm_num) u0.le) wpr.le
  rw [gx] at r2
  rw [gy] at r4
  rw [gz] at r6
  subst hl
  exact ⟨⟨r1, r3, r5⟩, r2.trans (fin _ wx), r4.trans (fin _ wy), r6.trans (fin _ wz)⟩

end

/-- Not vacuous: with correctly rounded functions, a colour under D50 in f64, there and back. -/
example : ∃ (_ : Libm Fmt.b64) (v w : XYZ (FP Fmt.b64)),
    (v.x.val = 1 / 4 ∧ v.y.val = 1 / 2 ∧ v.z.val = 1 / 512) ∧ (w.x.val = 247 / 256 ∧ w.y.val = 1 ∧ w.z.val = 211 / 256) ∧
    |((labToXyz (xyzToLab v w) w).z.val : ℝ) - 1 / 512| ≤ 2e-14 ∧
    |((xyzToLab v w).L.val : ℝ) - (xyzToLab (⟨1 / 4, 1 / 2, 1 / 512⟩ : XYZ ℝ) ⟨247 / 256, 1, 211 / 256⟩).L| ≤ 2e-13 := by
  letI := idealLibm Fmt.b64
  have r1 : IsRep Fmt.b64 (1 / 4) := by decide +kernel
  have r2 : IsRep Fmt.b64 (1 / 2) := by decide +kernel
  have r3 : IsRep Fmt.b64 (1 / 512) := by decide +kernel
  have r4 : IsRep Fmt.b64 (247 / 256) := by decide +kernel
  have r5 : IsRep Fmt.b64 1 := by decide +kernel
  have r6 : IsRep Fmt.b64 (211 / 256) := by decide +kernel
  have hw : Spec.White (⟨.fin _ r4, .fin _ r5, .fin _ r6⟩ : XYZ (FP Fmt.b64)) := by
    refine ⟨⟨rfl, rfl, rfl⟩, ?_⟩
    simp only [FP.val]; norm_num
  have hv : Spec.Within (⟨.fin _ r1, .fin _ r2, .fin _ r3⟩ : XYZ (FP Fmt.b64)) ⟨.fin _ r4, .fin _ r5, .fin _ r6⟩
      (-(1 / 100)) (3 / 2) := by
    simp only [Spec.Within, FP.val]; norm_num
  have hv2 : Spec.Within (⟨.fin _ r1, .fin _ r2, .fin _ r3⟩ : XYZ (FP Fmt.b64)) ⟨.fin _ r4, .fin _ r5, .fin _ r6⟩
      (-(8 / 100)) (3 / 2) := by
    simp only [Spec.Within, FP.val]; norm_num
  have hu : ((Fmt.b64.u : ℚ) : ℝ) = 1 / 2 ^ 53 := by
    have : Fmt.b64.u = 1 / 2 ^ 53 := by decide +kernel
    rw [this]; norm_num
  obtain ⟨-, -, -, z⟩ := C89_xyz_lab_xyz std_b64 (ideal_pow std_b64) (ideal_powi std_b64) _ _ ⟨rfl, rfl, rfl⟩ hw hv
  obtain ⟨-, L, -⟩ := C89_xyz_to_lab std_b64 (ideal_pow std_b64) _ _ ⟨rfl, rfl, rfl⟩ hw hv2
  refine ⟨idealLibm Fmt.b64, ⟨.fin _ r1, .fin _ r2, .fin _ r3⟩, ⟨.fin _ r4, .fin _ r5, .fin _ r6⟩, ⟨rfl, rfl, rfl⟩, ⟨rfl, rfl, rfl⟩, ?_, ?_⟩
  · have e : ((1 / 512 : ℚ) : ℝ) = 1 / 512 := by norm_num
    have e2 : ((211 / 256 : ℚ) : ℝ) = 211 / 256 := by norm_num
    rw [hu] at z
    simp only [FP.val] at z
    rw [e, e2] at z
    exact z.trans (by norm_num)
  · rw [hu] at L
    have e : (Spec.realXyz (⟨.fin _ r1, .fin _ r2, .fin _ r3⟩ : XYZ (FP Fmt.b64))) = ⟨1 / 4, 1 / 2, 1 / 512⟩ := by
      simp only [Spec.realXyz, FP.val]; norm_num
    have e2 : (Spec.realXyz (⟨.fin _ r4, .fin _ r5, .fin _ r6⟩ : XYZ (FP Fmt.b64))) = ⟨247 / 256, 1, 211 / 256⟩ := by
      simp only [Spec.realXyz, FP.val]; norm_num
    rw [e, e2] at L
    exact L.trans (by norm_num)

/-- Not vacuous: L*a*b* (60, 40, -80) in f32 under a white (1, 1, 1). -/
example : ∃ (_ : Libm Fmt.b32) (l : Lab (FP Fmt.b32)) (w : XYZ (FP Fmt.b32)),
    (l.L.val = 60 ∧ l.a.val = 40 ∧ l.b.val = -80) ∧ Spec.FinXyz (labToXyz l w) ∧
    |((xyzToLab (labToXyz l w) w).a.val : ℝ) - 40| ≤ 2e-3 := by
  letI := idealLibm Fmt.b32
  have r1 : IsRep Fmt.b32 60 := by decide +kernel
  have r2 : IsRep Fmt.b32 40 := by decide +kernel
  have r3 : IsRep Fmt.b32 (-80) := by decide +kernel
  have r5 : IsRep Fmt.b32 1 := by decide +kernel
  have hw : Spec.White (⟨.fin _ r5, .fin _ r5, .fin _ r5⟩ : XYZ (FP Fmt.b32)) := by
    refine ⟨⟨rfl, rfl, rfl⟩, ?_⟩
    simp only [FP.val]; norm_num
  have hb : Spec.LabBox (⟨.fin _ r1, .fin _ r2, .fin _ r3⟩ : Lab (FP Fmt.b32)) := by
    simp only [Spec.LabBox, FP.val]; norm_num [abs_le]
  have hu : ((Fmt.b32.u : ℚ) : ℝ) = 1 / 2 ^ 24 := by
    have : Fmt.b32.u = 1 / 2 ^ 24 := by decide +kernel
    rw [this]; norm_num
  obtain ⟨hF, -⟩ := C89_lab_to_xyz std_b32 (ideal_powi std_b32) _ _ ⟨rfl, rfl, rfl⟩ hb hw
  obtain ⟨-, -, z, -⟩ := C89_lab_xyz_lab std_b32 (ideal_pow std_b32) (ideal_powi std_b32) _ _ ⟨rfl, rfl, rfl⟩ hb hw
  refine ⟨idealLibm Fmt.b32, ⟨.fin _ r1, .fin _ r2, .fin _ r3⟩, ⟨.fin _ r5, .fin _ r5, .fin _ r5⟩, ⟨rfl, rfl, rfl⟩, hF, ?_⟩
  rw [hu] at z
  have e : (((FP.fin 40 r2 : FP Fmt.b32).val : ℚ) : ℝ) = 40 := by
    show ((40 : ℚ) : ℝ) = _; norm_num
  rw [e] at z
  exact z.trans (by norm_num)

end CS

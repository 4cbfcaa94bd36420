import Verif.Props.Convert
import Verif.Lemmas.Steps
import Verif.Lemmas.TripEval32
import Verif.Lemmas.TripEval64
import Verif.Props.Deep16
import Verif.Props.CurvesF

/-!
# The two example programs in floating point (C121)
-/

namespace CS

/-! ### specification -/

/-- both programs succeed on every image, and corresponding bytes differ by at most one -/
def Spec.SameImages {f : Fmt} [Libm f] (r s : Res (ColorSpaceRGB (FP f))) : Prop :=
  ∃ src dst, r = .ok src ∧ s = .ok dst ∧ ∀ bytes, ∃ out out',
    convertDirect src dst bytes = .ok out ∧ convertSteps src dst bytes = .ok out' ∧
    out.length = 3 * (bytes.length / 3) ∧ out'.length = out.length ∧
    ∀ (i : ℕ) (a b : UInt8), out[i]? = some a → out'[i]? = some b →
      a.toNat ≤ b.toNat + 1 ∧ b.toNat ≤ a.toNat + 1

/-! ### codes -/

/-- a result is near `t`, or it is NaN and `t` is near zero -/
def NearOrNan {f : Fmt} (r : FP f) (t e : ℝ) : Prop :=
  (r.isNaN = true ∧ |t| ≤ e) ∨ (r.isFinite = true ∧ |(r.val : ℝ) - t| ≤ e)

section
variable {f : Fmt} [Libm f]

/-- the code is within half a step of the clamped value -/
theorem code_clamped (hf : Std f) {r : FP f} (hr : r.isFinite = true) :
    |((quant8 r).toNat : ℝ) - 255 * max 0 (min 1 (r.val : ℝ))| ≤ 1 / 2 + 1 / 2 ^ 16 := by
  have hp : 8 ≤ f.p := le_trans (by norm_num) hf.p24
  have z1 : (Flt.lit 0 : FP f).isFinite = true ∧ (Flt.lit 0 : FP f).val = 0 := by
    show (FP.lit 0 : FP f).isFinite = true ∧ (FP.lit 0 : FP f).val = 0
    rw [FP.lit_zero]; exact ⟨rfl, rfl⟩
  have o1 : (Flt.lit 1 : FP f).isFinite = true ∧ (Flt.lit 1 : FP f).val = 1 := by
    rw [FP.flt_lit1]; exact ⟨rfl, rfl⟩
  rcases le_total r.val 0 with h | h
  · rw [(C02_quant8_saturates r hp).2.1 (FP.le_val hr z1.1 (by rw [z1.2]; exact h))]
    have h' : (r.val : ℝ) ≤ 0 := by exact_mod_cast h
    rw [max_eq_left ((min_le_right _ _).trans h')]
    norm_num
  · rcases le_total 1 r.val with h1 | h1
    · rw [(C02_quant8_saturates r hp).2.2 (FP.le_val o1.1 hr (by rw [o1.2]; exact h1))]
      have h' : (1 : ℝ) ≤ r.val := by exact_mod_cast h1
      rw [min_eq_left h', show ((255 : UInt8).toNat : ℝ) = 255 by norm_num [UInt8.toNat]]
      norm_num
    · have := C05_quant8_nearest_ieee r hp hr h h1
      have h0' : (0 : ℝ) ≤ r.val := by exact_mod_cast h
      have h1' : (r.val : ℝ) ≤ 1 := by exact_mod_cast h1
      rw [min_eq_right h1', max_eq_right h0']
      have k : (2:ℚ) ^ (7 - (f.p : ℤ)) ≤ 1 / 2 ^ 16 := by
        have : (2:ℚ) ^ (7 - (f.p : ℤ)) ≤ 2 ^ (-16 : ℤ) := by
          refine zpow_le_zpow_right₀ (by norm_num) ?_
          have := hf.p24
          omega
        refine this.trans ?_
        norm_num
      have h2 : |((quant8 r).toNat : ℚ) - 255 * r.val| ≤ 1 / 2 + 1 / 2 ^ 16 := this.trans (by linarith)
      have h3 : |(((quant8 r).toNat : ℚ) : ℝ) - 255 * (r.val : ℝ)| ≤ ((1 / 2 + 1 / 2 ^ 16 : ℚ) : ℝ) := by
        exact_mod_cast h2
      push_cast at h3
      exact h3

theorem clamp_lip (x y : ℝ) : |max 0 (min 1 x) - max 0 (min 1 y)| ≤ |x - y| := by
  refine (abs_max_sub_max_le_max _ _ _ _).trans ?_
  rw [sub_self, abs_zero, max_eq_right (abs_nonneg _)]
  refine (abs_min_sub_min_le_max _ _ _ _).trans ?_
  rw [sub_self, abs_zero, max_eq_right (abs_nonneg _)]

/-- near results have neighbouring codes -/
theorem codes_close (hf : Std f) {a b : FP f} {t t' e : ℝ} (ha : NearOrNan a t e) (hb : NearOrNan b t' e)
    (h : |t - t'| + 2 * e ≤ 0.0039) :
    (quant8 a).toNat ≤ (quant8 b).toNat + 1 ∧ (quant8 b).toNat ≤ (quant8 a).toNat + 1 := by
  have hp : 8 ≤ f.p := le_trans (by norm_num) hf.p24
  have key : ∀ {a : FP f} {t : ℝ}, NearOrNan a t e →
      ∃ v : ℝ, |v - t| ≤ e ∧ |((quant8 a).toNat : ℝ) - 255 * max 0 (min 1 v)| ≤ 1 / 2 + 1 / 2 ^ 16 := by
    rintro a t (⟨h1, h2⟩ | ⟨h1, h2⟩)
    · refine ⟨0, by rw [zero_sub, abs_neg]; exact h2, ?_⟩
      rw [(C02_quant8_saturates a hp).1 h1]
      norm_num
    · exact ⟨_, h2, code_clamped hf h1⟩
  obtain ⟨v, v1, v2⟩ := key ha
  obtain ⟨w, w1, w2⟩ := key hb
  have hvw : |v - w| ≤ 0.0039 := by
    have h1 := abs_add_le (v - t) (t - w)
    rw [sub_add_sub_cancel] at h1
    have h2 := abs_add_le (t - t') (t' - w)
    rw [sub_add_sub_cancel] at h2
    rw [abs_sub_comm] at w1
    linarith
  have hc := (clamp_lip v w).trans hvw
  have lt : |((quant8 a).toNat : ℝ) - (quant8 b).toNat| < 2 := by
    obtain ⟨p1, p2⟩ := abs_le.1 v2
    obtain ⟨q1, q2⟩ := abs_le.1 w2
    obtain ⟨r1, r2⟩ := abs_le.1 hc
    rw [abs_lt]
    generalize max 0 (min 1 v) = V at *
    generalize max 0 (min 1 w) = W at *
    norm_num at p1 p2 q1 q2 r1 r2
    constructor <;> linarith
  obtain ⟨l1, l2⟩ := abs_lt.1 lt
  have m1 : ((quant8 a).toNat : ℝ) < ((quant8 b).toNat + 2 : ℕ) := by push_cast; linarith
  have m2 : ((quant8 b).toNat : ℝ) < ((quant8 a).toNat + 2 : ℕ) := by push_cast; linarith
  have m1' : (quant8 a).toNat < (quant8 b).toNat + 2 := by exact_mod_cast m1
  have m2' : (quant8 b).toNat < (quant8 a).toNat + 2 := by exact_mod_cast m2
  omega

/-! ### power curves -/

theorem pow_enc (hf : Std f) (hp : PowAccurate f) {g : ℚ} (hg1 : 2 ≤ g) (hg2 : g ≤ 27 / 10) {x : FP f}
    (hx : x.isFinite = true) (h0 : (1:ℝ) / 2 ^ 52 ≤ x.val) (h1 : (x.val : ℝ) ≤ 1.01) :
    (Flt.powf x (FP.ofQ f false 1.0 / FP.ofQ f false g)).isFinite = true ∧
    |((Flt.powf x (FP.ofQ f false 1.0 / FP.ofQ f false g)).val : ℝ) - (x.val : ℝ) ^ (1 / (g : ℝ))| ≤ 4e-6 := by
  have g1 : (2:ℝ) ≤ g := by exact_mod_cast hg1
  have g2 : (g:ℝ) ≤ 27 / 10 := by qcast hg2
  have hgi : (1:ℝ) / g ≤ 1 / 2 := one_div_le_one_div_of_le (by norm_num) g1
  have hgi2 : (10:ℝ) / 27 ≤ 1 / g := by
    rw [le_div_iff₀ (by linarith)]; linarith
  have hx0 : (0:ℝ) < x.val := lt_of_lt_of_le (by positivity) h0
  have a0 := RelF.ofQ hf (q := g) (le_trans (by norm_num) hg1) (le_trans hg2 (by norm_num))
  have a2 := (RelF.ofQ_one (f := f)).div hf a0
    (by norm_num) (by norm_num) (by norm_num) (le_trans (by norm_num) hgi2) (le_trans hgi (by norm_num))
  have hlog := abs_log_le (X := (x.val : ℝ)) 52 h0 (le_trans h1 (by norm_num))
  have a3 := (RelF.exact hx (by exact_mod_cast hx0)).powf hf hp a2 (N := 50)
    (L := 52 * (6932 / 10000)) le_rfl (by norm_num) (by norm_num) (by norm_num)
    (le_trans (by norm_num) h0) (by norm_num at h1 ⊢; linarith) (by linarith) (by linarith)
    (by exact_mod_cast hlog) (by norm_num at hgi ⊢; linarith) (by norm_num at hgi ⊢; linarith)
  refine ⟨a3.fin, ?_⟩
  obtain ⟨s1, s2⟩ := RelF.small hf (n := 50) (by norm_num) (by norm_num)
  have hP : (x.val : ℝ) ^ (1 / (g:ℝ)) ≤ 1.01 := by
    rcases le_total (x.val : ℝ) 1 with h | h
    · exact le_trans (Real.rpow_le_one hx0.le h (by positivity)) (by norm_num)
    · refine le_trans ?_ h1
      calc _ ≤ (x.val : ℝ) ^ (1 : ℝ) := Real.rpow_le_rpow_of_exponent_le h (by linarith)
        _ = _ := Real.rpow_one _
  have h' := kap_pos f
  have hk : 50 * kap f * (1 + 50 * kap f) ≤ 3.1e-6 := by
    have : kap f ≤ 6.1e-8 := by
      unfold kap
      have : (f.u : ℝ) ≤ 1 / 2 ^ 24 := by qcast hf.hu
      norm_num at this ⊢
      linarith
    norm_num at this ⊢
    nlinarith
  refine (a3.err.to_abs s1 (le_trans s2 (by norm_num))).trans ?_
  calc _ ≤ 1.01 * (3.1e-6 : ℝ) := mul_le_mul hP hk (by positivity) (by norm_num)
    _ ≤ _ := by norm_num

theorem gexp_facts (hf : Std f) {g : ℚ} (hg1 : 2 ≤ g) (hg2 : g ≤ 27 / 10) :
    (FP.ofQ f false 1.0 / FP.ofQ f false g : FP f).isFinite = true ∧
    0 < (FP.ofQ f false 1.0 / FP.ofQ f false g : FP f).val ∧
    (FP.ofQ f false 1.0 / FP.ofQ f false g : FP f).val.den ≠ 1 := by
  have g1 : (2:ℝ) ≤ g := by exact_mod_cast hg1
  have g2 : (g:ℝ) ≤ 27 / 10 := by qcast hg2
  have hgi : (1:ℝ) / g ≤ 1 / 2 := one_div_le_one_div_of_le (by norm_num) g1
  have hgi2 : (10:ℝ) / 27 ≤ 1 / g := by
    rw [le_div_iff₀ (by linarith)]; linarith
  have a0 := RelF.ofQ hf (q := g) (le_trans (by norm_num) hg1) (le_trans hg2 (by norm_num))
  have a2 := (RelF.ofQ_one (f := f)).div hf a0
    (by norm_num) (by norm_num) (by norm_num) (le_trans (by norm_num) hgi2) (le_trans hgi (by norm_num))
  obtain ⟨s1, s2⟩ := RelF.small (f := f) hf (n := 0 + 1 + 1) (by norm_num) (by norm_num)
  have h3 := a2.err.to_abs s1 (le_trans s2 (by norm_num))
  have hfin := a2.fin
  have hpos0 := a2.err.xpos
  generalize (FP.ofQ f false 1.0 / FP.ofQ f false g : FP f) = v at *
  have hpos : 0 < v.val := by exact_mod_cast hpos0
  have hlt : v.val < 1 := by
    have hk : (0 + 1 + 1) * kap f * (1 + (0 + 1 + 1) * kap f) ≤ 1 / 10 := by
      norm_num at s1 s2 ⊢; nlinarith
    have h4 : (1:ℝ) / g * ((0 + 1 + 1) * kap f * (1 + (0 + 1 + 1) * kap f)) ≤ 1 / 2 * (1 / 10) :=
      mul_le_mul hgi hk (by positivity) (by norm_num)
    have h5 := (abs_le.1 h3).2
    have h6 : (v.val : ℝ) < 1 := by linarith
    exact_mod_cast h6
  refine ⟨hfin, hpos, fun h => ?_⟩
  have e : (v.val.num : ℚ) = v.val := (Rat.den_eq_one_iff _).1 h
  have h1 : (0:ℚ) < v.val.num := by rw [e]; exact hpos
  have h2 : (v.val.num : ℚ) < 1 := by rw [e]; exact hlt
  have h1' : 0 < v.val.num := by exact_mod_cast h1
  have h2' : v.val.num < 1 := by exact_mod_cast h2
  omega

omit [Libm f] in
theorem finite_between {a r b : FP f} (ha : a.isFinite = true) (hb : b.isFinite = true)
    (h1 : FP.le a r = true) (h2 : FP.le r b = true) : r.isFinite = true := by
  cases r with
  | nan => simp [FP.le, FP.ext] at h2
  | fin q h => rfl
  | nzero => rfl
  | pinf =>
    cases b with
    | nan => cases hb
    | pinf => cases hb
    | ninf => cases hb
    | nzero => simp [FP.le, FP.ext] at h2; cases h2
    | fin q h => simp [FP.le, FP.ext] at h2
  | ninf =>
    cases a with
    | nan => cases ha
    | pinf => cases ha
    | ninf => cases ha
    | nzero => simp [FP.le, FP.ext] at h1
    | fin q h => simp [FP.le, FP.ext] at h1

/-- the encoded value of any component up to 1.01, negative ones included -/
theorem pow_level (hf : Std f) (hp : PowAccurate f) (hm : PowMonotone f) (hn : PowNegative f)
    (hc : ∃ c : FP f, c.isFinite = true ∧ c.val = 1 / 2 ^ 52) {g : ℚ} (hg1 : 2 ≤ g) (hg2 : g ≤ 27 / 10)
    {x : FP f} (hx : x.isFinite = true) (h1 : (x.val : ℝ) ≤ 1.01) :
    NearOrNan (Flt.powf x (FP.ofQ f false 1.0 / FP.ofQ f false g)) (max (x.val : ℝ) 0 ^ (1 / (g : ℝ))) 1e-5 := by
  have g1 : (2:ℝ) ≤ g := by exact_mod_cast hg1
  have g2 : (g:ℝ) ≤ 27 / 10 := by qcast hg2
  have hgi2 : (10:ℝ) / 27 ≤ 1 / g := by
    rw [le_div_iff₀ (by linarith)]; linarith
  have gpos : (0:ℝ) < 1 / g := by positivity
  obtain ⟨p1, p2, p3⟩ := gexp_facts (f := f) hf hg1 hg2
  rcases lt_or_ge x.val 0 with h0 | h0
  · left
    refine ⟨hn.nan x _ hx p1 h0 p3, ?_⟩
    have h0' : (x.val : ℝ) ≤ 0 := by exact_mod_cast h0.le
    rw [max_eq_right h0', Real.zero_rpow gpos.ne']
    norm_num
  · right
    have h0' : (0:ℝ) ≤ x.val := by exact_mod_cast h0
    rw [max_eq_left h0']
    rcases le_total ((1:ℝ) / 2 ^ 52) (x.val : ℝ) with h | h
    · obtain ⟨a, b⟩ := pow_enc hf hp hg1 hg2 hx h h1
      exact ⟨a, b.trans (by norm_num)⟩
    · obtain ⟨c, c1, c2⟩ := hc
      have c2r : (c.val : ℝ) = 1 / 2 ^ 52 := by rw [c2]; norm_num
      obtain ⟨a, b⟩ := pow_enc hf hp hg1 hg2 c1 c2r.ge (by rw [c2r]; norm_num)
      have z1 : (FP.lit 0 : FP f).isFinite = true := by rw [FP.lit_zero]; rfl
      have z2 : (FP.lit 0 : FP f).val = 0 := by rw [FP.lit_zero]; rfl
      obtain ⟨y1, y2⟩ := hp.zero _ _ z1 p1 z2 p2
      have hxc : x.val ≤ c.val := by
        have : (x.val : ℝ) ≤ c.val := by rw [c2r]; exact h
        exact_mod_cast this
      have l1 := hm.mono (FP.lit 0) x _ p1 p2 (FP.le_val z1 z1 le_rfl) (FP.le_val z1 hx (by rw [z2]; exact h0))
      have l2 := hm.mono x c _ p1 p2 (FP.le_val z1 hx (by rw [z2]; exact h0)) (FP.le_val hx c1 hxc)
      clear p3 hn
      clear p1 p2
      generalize (FP.ofQ f false 1.0 / FP.ofQ f false g : FP f) = v at *
      have hfin : (Flt.powf x v).isFinite = true := finite_between y1 a l1 l2
      have v1 := FP.val_le y1 hfin l1
      have v2 := FP.val_le hfin a l2
      rw [y2] at v1
      have v1r : (0:ℝ) ≤ (Flt.powf x v).val := by exact_mod_cast v1
      have v2r : ((Flt.powf x v).val : ℝ) ≤ (Flt.powf c v).val := by exact_mod_cast v2
      have k1 : (x.val : ℝ) ^ (1 / (g:ℝ)) ≤ (c.val : ℝ) ^ (1 / (g:ℝ)) :=
        Real.rpow_le_rpow h0' (by rw [c2r]; exact h) gpos.le
      have k2 : (c.val : ℝ) ^ (1 / (g:ℝ)) ≤ 4e-6 := by
        rw [c2r]
        have : ((1:ℝ) / 2 ^ 52) ^ (1 / (g:ℝ)) ≤ (1 / 2 ^ 52) ^ ((9:ℝ) / 26) :=
          Real.rpow_le_rpow_of_exponent_ge (by positivity) (by norm_num) (by linarith)
        refine this.trans ?_
        have e : ((1:ℝ) / 2 ^ 52) ^ ((9:ℝ) / 26) = 1 / 2 ^ 18 := by
          rw [show ((1:ℝ) / 2 ^ 52) = (2:ℝ) ^ (-52 : ℝ) by
            rw [Real.rpow_neg (by norm_num)]; norm_num, ← Real.rpow_mul (by norm_num)]
          norm_num
        rw [e]
        norm_num
      have k3 : 0 ≤ (x.val : ℝ) ^ (1 / (g:ℝ)) := Real.rpow_nonneg h0' _
      refine ⟨hfin, ?_⟩
      obtain ⟨b1, b2⟩ := abs_le.1 b
      generalize (x.val : ℝ) ^ (1 / (g:ℝ)) = X at *
      generalize (c.val : ℝ) ^ (1 / (g:ℝ)) = C at *
      generalize ((Flt.powf x v).val : ℝ) = V at *
      norm_num at b1 b2 k2 ⊢
      rw [abs_le]
      constructor <;> linarith

/-! ### LogC -/

theorem logb_lip {u v m : ℝ} (hm : 0 < m) (hu : m ≤ u) (hv : m ≤ v) :
    |Real.logb 10 u - Real.logb 10 v| ≤ |u - v| / m := by
  have key : ∀ {u v : ℝ}, m ≤ u → m ≤ v → Real.log u - Real.log v ≤ |u - v| / m := by
    intro u v hu hv
    have u0 : 0 < u := lt_of_lt_of_le hm hu
    have v0 : 0 < v := lt_of_lt_of_le hm hv
    rw [← Real.log_div u0.ne' v0.ne']
    refine (Real.log_le_sub_one_of_pos (by positivity)).trans ?_
    have e : u / v - 1 = (u - v) / v := by field_simp
    rw [e]
    calc (u - v) / v ≤ |u - v| / v := by gcongr; exact le_abs_self _
      _ ≤ |u - v| / m := by gcongr
  have hl10 : 1 ≤ Real.log 10 := by
    have h := Real.log_two_gt_d9
    have h' : Real.log ((2:ℝ) ^ 3) ≤ Real.log 10 := Real.log_le_log (by norm_num) (by norm_num)
    rw [Real.log_pow] at h'
    norm_num at h' h
    linarith
  have h1 := key hu hv
  have h2 := key hv hu
  rw [abs_sub_comm v u] at h2
  unfold Real.logb
  rw [← sub_div, abs_div, abs_of_pos (by linarith : 0 < Real.log 10), div_le_iff₀ (by linarith)]
  have h3 : |Real.log u - Real.log v| ≤ |u - v| / m := by rw [abs_le]; constructor <;> linarith
  have h4 : 0 ≤ |u - v| / m := by positivity
  nlinarith

/-- the two segments of LogC meet to within two thousandths -/
theorem logc_seam : |(5.367655 * (0.010591:ℝ) + 0.092809) -
    (0.247190 * Real.logb 10 (5.555556 * 0.010591 + 0.052272) + 0.385537)| ≤ 2 / 1000 := by
  have h1 : Real.logb 10 (5.555556 * 0.010591 + 0.052272) ≤ -19 / 20 := by
    rw [Real.logb_le_iff_le_rpow (by norm_num) (by norm_num)]
    rw [show ((-19:ℝ) / 20) = (-19 : ℝ) * ((20:ℕ):ℝ)⁻¹ by norm_num, Real.rpow_mul (by norm_num)]
    refine le_trans (le_of_eq ?_) (Real.rpow_le_rpow (z := ((20:ℕ):ℝ)⁻¹)
      (x := (5.555556 * 0.010591 + 0.052272 : ℝ) ^ 20) (by positivity) ?_ (by positivity))
    · rw [Real.pow_rpow_inv_natCast (by norm_num) (by norm_num)]
    · rw [show (-19:ℝ) = ((-19 : ℤ) : ℝ) by norm_num, Real.rpow_intCast]; norm_num
  have h2 : -21 / 22 ≤ Real.logb 10 (5.555556 * 0.010591 + 0.052272) := by
    rw [Real.le_logb_iff_rpow_le (by norm_num) (by norm_num)]
    rw [show ((-21:ℝ) / 22) = (-21 : ℝ) * ((22:ℕ):ℝ)⁻¹ by norm_num, Real.rpow_mul (by norm_num)]
    refine le_trans (Real.rpow_le_rpow (z := ((22:ℕ):ℝ)⁻¹)
      (y := (5.555556 * 0.010591 + 0.052272 : ℝ) ^ 22) (by positivity) ?_ (by positivity)) (le_of_eq ?_)
    · rw [show (-21:ℝ) = ((-21 : ℤ) : ℝ) by norm_num, Real.rpow_intCast]; norm_num
    · rw [Real.pow_rpow_inv_natCast (by norm_num) (by norm_num)]
  generalize Real.logb 10 (5.555556 * 0.010591 + 0.052272) = L at *
  rw [abs_le]
  norm_num at h1 h2 ⊢
  constructor <;> linarith

/-- near components have near LogC encodings -/
theorem logc_close (hf : Std f) (hl : LogAccurate f) {x y : FP f} (hx : x.isFinite = true) (hx0 : 0 ≤ x.val)
    (hx1 : x.val ≤ 100) (hy : y.isFinite = true) (hy0 : 0 ≤ y.val) (hy1 : y.val ≤ 100)
    (h : |(x.val : ℝ) - y.val| ≤ 3e-6) :
    (encode.alexa_logc_v3_t x).isFinite = true ∧ (encode.alexa_logc_v3_t y).isFinite = true ∧
    |((encode.alexa_logc_v3_t x).val : ℝ) - (encode.alexa_logc_v3_t y).val| ≤ 0.003 := by
  obtain ⟨a, ha⟩ := logc_enc_follows hf hl hx hx0 hx1
  obtain ⟨b, hb⟩ := logc_enc_follows hf hl hy hy0 hy1
  refine ⟨a, b, ?_⟩
  have hu : (f.u : ℝ) ≤ 1 / 2 ^ 24 := by qcast hf.hu
  have hu0 : (0:ℝ) < f.u := by exact_mod_cast f.u_pos
  have hx0r : (0:ℝ) ≤ x.val := by exact_mod_cast hx0
  have hy0r : (0:ℝ) ≤ y.val := by exact_mod_cast hy0
  beta_reduce at ha hb
  generalize ((encode.alexa_logc_v3_t x).val : ℝ) = X at *
  generalize ((encode.alexa_logc_v3_t y).val : ℝ) = Y at *
  generalize (x.val : ℝ) = s at *
  generalize (y.val : ℝ) = t at *
  have lip : ∀ {p q : ℝ}, 0.01 ≤ p → 0.01 ≤ q →
      |Real.logb 10 (5.555556 * p + 0.052272) - Real.logb 10 (5.555556 * q + 0.052272)| ≤ 56 * |p - q| := by
    intro p q hp hq
    have := logb_lip (m := 0.1) (u := 5.555556 * p + 0.052272) (v := 5.555556 * q + 0.052272)
      (by norm_num) (by norm_num at hp ⊢; linarith) (by norm_num at hq ⊢; linarith)
    have e : |5.555556 * p + 0.052272 - (5.555556 * q + 0.052272)| = 5.555556 * |p - q| := by
      rw [show 5.555556 * p + 0.052272 - (5.555556 * q + 0.052272) = 5.555556 * (p - q) by ring, abs_mul,
        abs_of_pos (by norm_num : (0:ℝ) < 5.555556)]
    rw [e] at this
    have h0 := abs_nonneg (p - q)
    norm_num at this ⊢
    linarith
  have mixed : ∀ {p q P Q : ℝ}, 0 ≤ p → |p - q| ≤ 3e-6 → p ≤ 0.010591 * (1 + 4 * f.u) →
      0.010591 * (1 - 4 * f.u) ≤ q → |P - (5.367655 * p + 0.092809)| ≤ 13e-7 →
      |Q - (0.247190 * Real.logb 10 (5.555556 * q + 0.052272) + 0.385537)| ≤ 13e-7 → |P - Q| ≤ 0.003 := by
    intro p q P Q hp0 hpq hp hq hP hQ
    obtain ⟨d1, d2⟩ := abs_le.1 hpq
    have hq1 : (0.01:ℝ) ≤ q := by norm_num at hu hq ⊢; linarith
    have hqθ : |q - 0.010591| ≤ 4e-6 := by
      rw [abs_le]
      norm_num at hu hp hq d1 d2 ⊢
      constructor <;> linarith
    have l := (lip hq1 (by norm_num : (0.01:ℝ) ≤ 0.010591)).trans (mul_le_mul_of_nonneg_left hqθ (by norm_num))
    have sm := logc_seam
    generalize Real.logb 10 (5.555556 * 0.010591 + 0.052272) = L at *
    generalize Real.logb 10 (5.555556 * q + 0.052272) = K at *
    obtain ⟨l1, l2⟩ := abs_le.1 l
    obtain ⟨m1, m2⟩ := abs_le.1 sm
    obtain ⟨n1, n2⟩ := abs_le.1 hP
    obtain ⟨o1, o2⟩ := abs_le.1 hQ
    obtain ⟨r1, r2⟩ := abs_le.1 hqθ
    rw [abs_le]
    norm_num at l1 l2 m1 m2 n1 n2 o1 o2 r1 r2 d1 d2 ⊢
    constructor <;> linarith
  rcases ha with ⟨a1, a2⟩ | ⟨a1, a2⟩ <;> rcases hb with ⟨b1, b2⟩ | ⟨b1, b2⟩
  · obtain ⟨d1, d2⟩ := abs_le.1 h
    obtain ⟨m1, m2⟩ := abs_le.1 a2
    obtain ⟨n1, n2⟩ := abs_le.1 b2
    rw [abs_le]
    norm_num at d1 d2 m1 m2 n1 n2 ⊢
    constructor <;> linarith
  · exact mixed hx0r h a1 b1 a2 b2
  · rw [abs_sub_comm]
    rw [abs_sub_comm] at h
    exact mixed hy0r h b1 a1 b2 a2
  · have ks : (0.01:ℝ) ≤ s := by norm_num at hu a1 ⊢; linarith
    have kt : (0.01:ℝ) ≤ t := by norm_num at hu b1 ⊢; linarith
    have l := (lip ks kt).trans (mul_le_mul_of_nonneg_left h (by norm_num))
    generalize Real.logb 10 (5.555556 * s + 0.052272) = L at *
    generalize Real.logb 10 (5.555556 * t + 0.052272) = K at *
    obtain ⟨l1, l2⟩ := abs_le.1 l
    obtain ⟨m1, m2⟩ := abs_le.1 a2
    obtain ⟨n1, n2⟩ := abs_le.1 b2
    rw [abs_le]
    norm_num at l1 l2 m1 m2 n1 n2 ⊢
    constructor <;> linarith

/-! ### real powers -/

theorem pow_adobe {a b : ℝ} (h : |a - b| ≤ 2.6e-6) :
    |max a 0 ^ (1 / ((2.19921875 : ℚ) : ℝ)) - max b 0 ^ (1 / ((2.19921875 : ℚ) : ℝ))| ≤ 0.003 := by
  have h' : |max a 0 - max b 0| ≤ 2.6e-6 := by
    refine (abs_max_sub_max_le_max _ _ _ _).trans ?_
    rw [sub_self, abs_zero, max_eq_left (abs_nonneg _)]
    exact h
  have e1 : ((2.19921875 : ℚ) : ℝ) = 563 / 256 := by norm_num
  rw [e1]
  refine (rpow_sub_le (le_max_right _ _) (le_max_right _ _) (by norm_num) (by norm_num) h').trans ?_
  have h1 : (2.6e-6 : ℝ) ^ (1 / ((563:ℝ) / 256)) ≤ 2.6e-6 ^ ((5:ℝ) / 11) :=
    Real.rpow_le_rpow_of_exponent_ge (by norm_num) (by norm_num) (by norm_num)
  refine h1.trans ?_
  rw [show (5 / 11 : ℝ) = ((5:ℕ):ℝ) * ((11:ℕ):ℝ)⁻¹ by norm_num, Real.rpow_mul (by norm_num), Real.rpow_natCast]
  refine le_trans (Real.rpow_le_rpow (z := ((11:ℕ):ℝ)⁻¹) (y := (0.003:ℝ) ^ 11)
    (by positivity) (by norm_num) (by positivity)) (le_of_eq ?_)
  rw [Real.pow_rpow_inv_natCast (by norm_num) (by norm_num)]

theorem pow_dci {a b M : ℝ} (hM : 0 < M) (hM1 : M ≤ 1.00001) (ha : 1.16e-4 * M ≤ a) (hb : 1.16e-4 * M ≤ b)
    (h : |a - b| ≤ 3.4e-6 * M) : |a ^ (1 / (2.6:ℝ)) - b ^ (1 / (2.6:ℝ))| ≤ 0.003 := by
  have m0 : 0 < 1.16e-4 * M := by positivity
  have key : ∀ {a b : ℝ}, 1.16e-4 * M ≤ b → b ≤ a → a - b ≤ 3.4e-6 * M →
      a ^ (1 / (2.6:ℝ)) - b ^ (1 / (2.6:ℝ)) ≤ 0.003 := by
    intro a b hb hba hab
    have b0 : 0 < b := lt_of_lt_of_le m0 hb
    have a0 : 0 < a := lt_of_lt_of_le b0 hba
    have t1 : 1 ≤ a / b := by rw [le_div_iff₀ b0]; linarith
    have h1 : (a / b) ^ (1 / (2.6:ℝ)) ≤ a / b := by
      calc (a / b) ^ (1 / (2.6:ℝ)) ≤ (a / b) ^ (1:ℝ) := Real.rpow_le_rpow_of_exponent_le t1 (by norm_num)
        _ = _ := Real.rpow_one _
    rw [Real.div_rpow a0.le b0.le] at h1
    have hbp : 0 < b ^ (1 / (2.6:ℝ)) := Real.rpow_pos_of_pos b0 _
    have h2 : a ^ (1 / (2.6:ℝ)) ≤ a / b * b ^ (1 / (2.6:ℝ)) := by rwa [div_le_iff₀ hbp] at h1
    have h3 : a ^ (1 / (2.6:ℝ)) - b ^ (1 / (2.6:ℝ)) ≤ (a - b) * (b ^ (1 / (2.6:ℝ)) / b) := by
      have e : a / b * b ^ (1 / (2.6:ℝ)) - b ^ (1 / (2.6:ℝ)) = (a - b) * (b ^ (1 / (2.6:ℝ)) / b) := by
        field_simp
      linarith
    have h4 : b ^ (1 / (2.6:ℝ)) / b = b ^ (-(8:ℝ) / 13) := by
      rw [← Real.rpow_sub_one b0.ne']; norm_num
    have h5 : b ^ (-(8:ℝ) / 13) ≤ (1.16e-4 * M) ^ (-(8:ℝ) / 13) :=
      Real.rpow_le_rpow_of_nonpos m0 hb (by norm_num)
    have h6 : (1.16e-4 * M) ^ (-(8:ℝ) / 13) = (1.16e-4 : ℝ) ^ (-(8:ℝ) / 13) * M ^ (-(8:ℝ) / 13) :=
      Real.mul_rpow (by norm_num) hM.le
    have h7 : (1.16e-4 : ℝ) ^ (-(8:ℝ) / 13) ≤ 300 := by
      rw [show (-(8:ℝ) / 13) = (-8 : ℝ) * ((13:ℕ):ℝ)⁻¹ by norm_num, Real.rpow_mul (by norm_num)]
      refine le_trans (Real.rpow_le_rpow (z := ((13:ℕ):ℝ)⁻¹) (y := (300:ℝ) ^ 13)
        (by positivity) ?_ (by positivity)) (le_of_eq ?_)
      · rw [show (-8:ℝ) = ((-8 : ℤ) : ℝ) by norm_num, Real.rpow_intCast]; norm_num
      · rw [Real.pow_rpow_inv_natCast (by norm_num) (by norm_num)]
    have h8 : M * M ^ (-(8:ℝ) / 13) ≤ 1.00001 := by
      have e : M * M ^ (-(8:ℝ) / 13) = M ^ ((5:ℝ) / 13) := by
        rw [show ((5:ℝ) / 13) = 1 + (-(8:ℝ) / 13) by norm_num, Real.rpow_add hM, Real.rpow_one]
      rw [e]
      calc M ^ ((5:ℝ) / 13) ≤ 1.00001 ^ ((5:ℝ) / 13) := Real.rpow_le_rpow hM.le hM1 (by norm_num)
        _ ≤ 1.00001 ^ (1:ℝ) := Real.rpow_le_rpow_of_exponent_le (by norm_num) (by norm_num)
        _ = _ := Real.rpow_one _
    have hMp : 0 < M ^ (-(8:ℝ) / 13) := Real.rpow_pos_of_pos hM _
    rw [h4] at h3
    rw [h6] at h5
    calc a ^ (1 / (2.6:ℝ)) - b ^ (1 / (2.6:ℝ)) ≤ (a - b) * b ^ (-(8:ℝ) / 13) := h3
      _ ≤ (3.4e-6 * M) * (300 * M ^ (-(8:ℝ) / 13)) := by
          refine mul_le_mul hab (h5.trans ?_) (Real.rpow_nonneg b0.le _) (by positivity)
          exact mul_le_mul_of_nonneg_right h7 hMp.le
      _ = 3.4e-6 * 300 * (M * M ^ (-(8:ℝ) / 13)) := by ring
      _ ≤ 3.4e-6 * 300 * 1.00001 := by gcongr
      _ ≤ _ := by norm_num
  obtain ⟨h1, h2⟩ := abs_le.1 h
  rcases le_total b a with hba | hba
  · have hm : b ^ (1 / (2.6:ℝ)) ≤ a ^ (1 / (2.6:ℝ)) := Real.rpow_le_rpow (by linarith) hba (by norm_num)
    rw [abs_of_nonneg (by linarith)]
    exact key hb hba h2
  · have hm : a ^ (1 / (2.6:ℝ)) ≤ b ^ (1 / (2.6:ℝ)) := Real.rpow_le_rpow (by linarith) hba (by norm_num)
    rw [abs_of_nonpos (by linarith), neg_sub]
    exact key ha hba (by linarith)

/-! ### decoded pixels -/

theorem srgb_dec8 (hf : Std f) (hp : PowAccurate f) (v : UInt8) :
    (decode.srgb_t (unquant8 v : FP f)).isFinite = true ∧ 0 ≤ (decode.srgb_t (unquant8 v : FP f)).val ∧
    (decode.srgb_t (unquant8 v : FP f)).val ≤ 1.00001 ∧
    ((decode.srgb_t (unquant8 v : FP f)).val = 0 ∨ 1 / 2 ^ 22 ≤ (decode.srgb_t (unquant8 v : FP f)).val) := by
  obtain ⟨a, b, c, d⟩ := unquant8_low (f := f) hf v
  generalize (unquant8 v : FP f) = y at *
  obtain ⟨e1, e2⟩ := srgb_dec_bound hf hp a b c
  have e3 : (decode.srgb_t y).val ≤ 1.00001 := by
    have h := (le_abs_self _).trans e2
    have h' : ((decode.srgb_t y).val : ℝ) ≤ ((1.00001 : ℚ) : ℝ) := by norm_num at h ⊢; exact h
    exact_mod_cast h'
  have hu : (f.u : ℝ) ≤ 1 / 2 ^ 24 := by qcast hf.hu
  rcases d with d | d
  · have h := (black_all hf a d).2.2.2.1
    exact ⟨e1, h.ge, e3, .inl h⟩
  · have dr : (1:ℝ) / 2 ^ 9 ≤ y.val := by qcast d
    suffices h : (1:ℝ) / 2 ^ 22 ≤ (decode.srgb_t y).val by
      have h' : 1 / 2 ^ 22 ≤ (decode.srgb_t y).val := by
        have : ((1 / 2 ^ 22 : ℚ) : ℝ) ≤ (decode.srgb_t y).val := by push_cast; exact h
        exact_mod_cast this
      exact ⟨e1, le_trans (by norm_num) h', e3, .inr h'⟩
    rcases le_or_gt y.val (FP.lit 0.040449936 : FP f).val with h | h
    · obtain ⟨_, _, _, a3⟩ := srgb_dec_lin hf a b h
      have a4 := (abs_le.1 a3).1
      norm_num at a4 dr hu ⊢
      linarith
    · have r := srgb_dec_pow hf hp a h c
      obtain ⟨s1, s2⟩ := RelF.small hf (n := 21) (by norm_num) (by norm_num)
      have h3 := r.err.to_abs s1 (le_trans s2 (by norm_num))
      have hy0 : (0:ℝ) ≤ y.val := le_trans (by positivity) dr
      have hb : (0.05:ℝ) ≤ ((y.val : ℝ) + 0.055) / 1.055 := by
        rw [le_div_iff₀ (by norm_num)]; norm_num; linarith
      have hy1 : (y.val : ℝ) ≤ 1 := by exact_mod_cast c
      have hb1 : ((y.val : ℝ) + 0.055) / 1.055 ≤ 1 := by
        rw [div_le_one (by norm_num)]; norm_num; linarith
      have hP : (1 / 8000 : ℝ) ≤ (((y.val : ℝ) + 0.055) / 1.055) ^ (2.4 : ℝ) := by
        calc (1 / 8000 : ℝ) = 0.05 ^ (3:ℝ) := by
              rw [show (3:ℝ) = ((3:ℕ):ℝ) by norm_num, Real.rpow_natCast]; norm_num
          _ ≤ 0.05 ^ (2.4:ℝ) := Real.rpow_le_rpow_of_exponent_ge (by norm_num) (by norm_num) (by norm_num)
          _ ≤ _ := Real.rpow_le_rpow (by norm_num) hb (by norm_num)
      generalize (((y.val : ℝ) + 0.055) / 1.055) ^ (2.4 : ℝ) = P at *
      have hk : 21 * kap f * (1 + 21 * kap f) ≤ 1 / 2 := by
        norm_num at s1 s2 ⊢; nlinarith
      have h4 : P * (21 * kap f * (1 + 21 * kap f)) ≤ P * (1 / 2) :=
        mul_le_mul_of_nonneg_left hk (by linarith)
      have h5 := (abs_le.1 h3).1
      norm_num at hP h4 h5 ⊢
      linarith

/-- a decoded pixel is black, or its largest component is not tiny -/
theorem dec_pixel (hf : Std f) (hp : PowAccurate f) (c : RGBu8) {d : RGBf (FP f)}
    (hd : d = decode.srgb c.toF) :
    (∀ i, (rgbVec d i).isFinite = true ∧ (rgbVec d i).val = 0) ∨
    ∃ M : ℚ, 1 / 2 ^ 22 ≤ M ∧ M ≤ 1.00001 ∧ (∃ j, (rgbVec d j).val = M) ∧
      ∀ i, (rgbVec d i).isFinite = true ∧ 0 ≤ (rgbVec d i).val ∧ (rgbVec d i).val ≤ M := by
  have key : ∀ i, (rgbVec d i).isFinite = true ∧ 0 ≤ (rgbVec d i).val ∧ (rgbVec d i).val ≤ 1.00001 ∧
      ((rgbVec d i).val = 0 ∨ 1 / 2 ^ 22 ≤ (rgbVec d i).val) := by
    intro i
    rw [hd]
    fin_cases i
    · exact srgb_dec8 hf hp c.r
    · exact srgb_dec8 hf hp c.g
    · exact srgb_dec8 hf hp c.b
  obtain ⟨j, -, hj⟩ := Finset.exists_max_image Finset.univ (fun i => (rgbVec d i).val) ⟨0, Finset.mem_univ _⟩
  have hj' : ∀ i, (rgbVec d i).val ≤ (rgbVec d j).val := fun i => hj i (Finset.mem_univ _)
  rcases (key j).2.2.2 with h | h
  · left
    intro i
    refine ⟨(key i).1, le_antisymm ?_ (key i).2.1⟩
    rw [← h]; exact hj' i
  · exact .inr ⟨_, h, (key j).2.2.1, ⟨j, rfl⟩, fun i => ⟨(key i).1, (key i).2.1, hj' i⟩⟩

/-- the two results are near, whatever the pixel -/
theorem both_near (hf : Std f) (hp : PowAccurate f) {A B D : Matrix33 (FP f)} {δ : ℚ}
    (h : stepsCheck A B D δ = true) (hN : normAbs D ≤ 1.001) (hδ0 : 0 ≤ δ) (hδ : δ ≤ 1 / 1000) (c : RGBu8) (i : Fin 3) :
    ∃ x y, x = rgbVec (D * (decode.srgb c.toF : RGBf (FP f))) i ∧
      y = rgbVec (xyzToRgb A (rgbToXyz B (decode.srgb c.toF : RGBf (FP f)))) i ∧
      x.isFinite = true ∧ y.isFinite = true ∧ x.val ≤ 1.01 ∧ y.val ≤ 1.01 ∧ |x.val - y.val| ≤ δ * 1.00001 ∧
      ∀ κ, 0 ≤ κ → floorCheck D κ = true → (x.val = 0 ∧ y.val = 0) ∨
        ∃ M, 0 < M ∧ M ≤ 1.00001 ∧ κ * M ≤ x.val ∧ (κ - δ) * M ≤ y.val ∧ |x.val - y.val| ≤ δ * M := by
  have h100 : 100 ≤ 2 ^ f.p := le_trans (by norm_num)
    (Nat.pow_le_pow_right (by norm_num) (le_trans (by norm_num) hf.p24 : 7 ≤ f.p))
  have hfin := h
  unfold stepsCheck at hfin
  simp only [Bool.and_eq_true, decide_eq_true_eq] at hfin
  obtain ⟨⟨⟨⟨⟨⟨hA, hB⟩, hD⟩, -⟩, -⟩, nD⟩, -⟩ := hfin
  refine ⟨_, _, rfl, rfl, ?_⟩
  rcases dec_pixel hf hp c rfl with h0 | ⟨M, m1, m2, m3, m4⟩
  · obtain ⟨a1, a2⟩ := dark_mul hD _ h0 i
    obtain ⟨b1, b2⟩ := dark_steps h100 hA hB _ h0 i
    refine ⟨a1, b1, by rw [a2]; norm_num, by rw [b2]; norm_num, ?_, fun _ _ _ => .inl ⟨a2, b2⟩⟩
    rw [a2, b2, sub_zero, abs_zero]; positivity
  · have hM0 : 0 < M := lt_of_lt_of_le (by positivity) m1
    have mm1 : 1 / 2 ^ 90 ≤ M := le_trans (by norm_num) m1
    have mm2 : M ≤ 2 ^ 90 := m2.trans (by norm_num)
    have m5 : ∀ i, (rgbVec (decode.srgb c.toF : RGBf (FP f)) i).isFinite = true ∧
        |(rgbVec (decode.srgb c.toF : RGBf (FP f)) i).val| ≤ M := fun i =>
      ⟨(m4 i).1, by rw [abs_of_nonneg (m4 i).2.1]; exact (m4 i).2.2⟩
    obtain ⟨b1, a1, e⟩ := steps_near hf.wide h100 h _ mm1 mm2 m5 i
    obtain ⟨-, e2, e3⟩ := direct_near hf.wide hD nD _ mm1 (mm2.trans (by norm_num)) m5 i
    have hx : (rgbVec (D * (decode.srgb c.toF : RGBf (FP f))) i).val ≤ 1.005 := by
      have k1 := (abs_le.1 e2).2
      have k2 := (abs_le.1 e3).2
      have k3 : normAbs D * M ≤ 1.001 * 1.00001 := mul_le_mul hN m2 hM0.le (by norm_num)
      have n0 : 1 / 2 ≤ normAbs D := le_max_left _ _
      have k4 : 4.1 * f.u * normAbs D * M ≤ 1 / 1000 * (1.001 * 1.00001) := by
        have : 4.1 * f.u * normAbs D * M = 4.1 * f.u * (normAbs D * M) := by ring
        rw [this]
        refine mul_le_mul ?_ k3 (by positivity) (by norm_num)
        have := hf.hu
        norm_num at this ⊢
        linarith
      norm_num at k1 k2 k3 k4 ⊢
      linarith
    have hdm : δ * M ≤ δ * 1.00001 := mul_le_mul_of_nonneg_left m2 hδ0
    rw [abs_sub_comm] at e
    refine ⟨a1, b1, hx.trans (by norm_num), ?_, e.trans hdm, fun κ k0 hk => .inr ⟨M, hM0, m2, ?_, ?_, e⟩⟩
    · have := (abs_le.1 e).1
      norm_num at this hx hδ hdm ⊢
      linarith
    · exact direct_floor hf.wide hD nD hk k0 _ mm1 mm2 m4 m3 i
    · have k := direct_floor hf.wide hD nD hk k0 _ mm1 mm2 m4 m3 i
      have := (abs_le.1 e).2
      linarith

/-! ### whole images -/

/-- the two programs' values for one pixel have neighbouring codes -/
def CodesNear (a b : UInt8) : Prop := a.toNat ≤ b.toNat + 1 ∧ b.toNat ≤ a.toNat + 1

omit [Libm f] in
theorem bytes_near {g g' : RGBu8 → RGBu8} (h : ∀ p, CodesNear (g p).r (g' p).r ∧ CodesNear (g p).g (g' p).g ∧
    CodesNear (g p).b (g' p).b) : ∀ l : List RGBu8,
    List.Forall₂ CodesNear (pixelBytes (l.map g)) (pixelBytes (l.map g'))
  | [] => .nil
  | p :: l => .cons (h p).1 (.cons (h p).2.1 (.cons (h p).2.2 (bytes_near h l)))

theorem forall₂_at {R : UInt8 → UInt8 → Prop} {l l' : List UInt8} (h : List.Forall₂ R l l') :
    ∀ (i : ℕ) (a b : UInt8), l[i]? = some a → l'[i]? = some b → R a b := by
  induction h with
  | nil => intro i a b h; simp at h
  | cons h _ ih =>
    intro i a b h1 h2
    cases i with
    | zero =>
      simp only [List.getElem?_cons_zero, Option.some.injEq] at h1 h2
      rw [← h1, ← h2]; exact h
    | succ i => exact ih i a b (by simpa using h1) (by simpa using h2)

theorem sameImages_of {r s : Res (ColorSpaceRGB (FP f))} {k : Matrix33 (FP f) → Matrix33 (FP f) → Matrix33 (FP f) → Bool}
    (h : StepsOk r s k) {enc : FP f → FP f} (hr : ∀ a, r = .ok a → a.eotf = decode.srgb)
    (hs : ∀ b, s = .ok b → b.oetf = fun c => ⟨enc c.r, enc c.g, enc c.b⟩)
    (hk : ∀ A B D, k A B D = true → ∀ (c : RGBu8) (i : Fin 3),
      CodesNear (quant8 (enc (rgbVec (D * (decode.srgb c.toF : RGBf (FP f))) i)))
        (quant8 (enc (rgbVec (xyzToRgb A (rgbToXyz B (decode.srgb c.toF : RGBf (FP f)))) i)))) :
    Spec.SameImages r s := by
  obtain ⟨a, b, A, B, D, ea, eb, hA, hB, hD, hk'⟩ := h
  refine ⟨a, b, ea, eb, fun bytes => ⟨_, _, convertDirect_eq hD bytes, convertSteps_eq hB hA bytes, ?_, ?_, ?_⟩⟩
  · exact (pixelByPixel_group _ bytes).1
  · exact (pixelByPixel_group _ bytes).1.trans (pixelByPixel_group _ bytes).1.symm
  · refine forall₂_at (bytes_near (fun p => ?_) _)
    unfold ColorSpaceRGB.encode ColorSpaceRGB.decode
    rw [hr a ea, hs b eb]
    exact ⟨hk A B D hk' p 0, hk A B D hk' p 1, hk A B D hk' p 2⟩

/-! ### the three destinations -/

theorem near_adobe (hf : Std f) (hp : PowAccurate f) (hm : PowMonotone f) (hn : PowNegative f)
    (hc : ∃ c : FP f, c.isFinite = true ∧ c.val = 1 / 2 ^ 52) {A B D : Matrix33 (FP f)}
    (h : stepsCheck A B D 2.5e-6 = true) (hN : normAbs D ≤ 1.001) (c : RGBu8) (i : Fin 3) :
    CodesNear (quant8 (Flt.powf (rgbVec (D * (decode.srgb c.toF : RGBf (FP f))) i)
        (FP.ofQ f false 1.0 / FP.ofQ f false 2.19921875)))
      (quant8 (Flt.powf (rgbVec (xyzToRgb A (rgbToXyz B (decode.srgb c.toF : RGBf (FP f)))) i)
        (FP.ofQ f false 1.0 / FP.ofQ f false 2.19921875))) := by
  obtain ⟨x, y, ex, ey, x1, y1, x2, y2, e, -⟩ := both_near hf hp h hN (by norm_num) (by norm_num) c i
  rw [← ex, ← ey]
  have hx := pow_level hf hp hm hn hc (g := 2.19921875) (by norm_num) (by norm_num) x1 (by qcast x2)
  have hy := pow_level hf hp hm hn hc (g := 2.19921875) (by norm_num) (by norm_num) y1 (by qcast y2)
  have er : |(x.val : ℝ) - y.val| ≤ 2.6e-6 := by
    have h' : ((|x.val - y.val| : ℚ) : ℝ) ≤ ((2.5e-6 * 1.00001 : ℚ) : ℝ) := by exact_mod_cast e
    push_cast at h'
    exact h'.trans (by norm_num)
  refine codes_close hf hx hy ?_
  have := pow_adobe er
  norm_num at this ⊢
  linarith

theorem near_dci (hf : Std f) (hp : PowAccurate f) (hm : PowMonotone f) (hn : PowNegative f)
    (hc : ∃ c : FP f, c.isFinite = true ∧ c.val = 1 / 2 ^ 52) {A B D : Matrix33 (FP f)}
    (h : stepsCheck A B D 3.4e-6 = true) (hN : normAbs D ≤ 1.001) (hF : floorCheck D 1.2e-4 = true)
    (c : RGBu8) (i : Fin 3) :
    CodesNear (quant8 (Flt.powf (rgbVec (D * (decode.srgb c.toF : RGBf (FP f))) i)
        (FP.ofQ f false 1.0 / FP.ofQ f false 2.6)))
      (quant8 (Flt.powf (rgbVec (xyzToRgb A (rgbToXyz B (decode.srgb c.toF : RGBf (FP f)))) i)
        (FP.ofQ f false 1.0 / FP.ofQ f false 2.6))) := by
  obtain ⟨x, y, ex, ey, x1, y1, x2, y2, -, hk⟩ := both_near hf hp h hN (by norm_num) (by norm_num) c i
  rw [← ex, ← ey]
  have hx := pow_level hf hp hm hn hc (g := 2.6) (by norm_num) (by norm_num) x1 (by qcast x2)
  have hy := pow_level hf hp hm hn hc (g := 2.6) (by norm_num) (by norm_num) y1 (by qcast y2)
  refine codes_close hf hx hy ?_
  rcases hk 1.2e-4 (by norm_num) hF with ⟨h1, h2⟩ | ⟨M, m1, m2, h1, h2, h3⟩
  · rw [h1, h2, sub_self]; norm_num
  · have m1r : (0:ℝ) < M := by exact_mod_cast m1
    have m2r : (M:ℝ) ≤ 1.00001 := by qcast m2
    have h1r : (1.16e-4:ℝ) * M ≤ x.val := by
      have h' : ((1.2e-4 * M : ℚ) : ℝ) ≤ x.val := by exact_mod_cast h1
      push_cast at h'
      refine le_trans ?_ h'
      exact mul_le_mul_of_nonneg_right (by norm_num) m1r.le
    have h2r : (1.16e-4:ℝ) * M ≤ y.val := by
      have h' : (((1.2e-4 - 3.4e-6) * M : ℚ) : ℝ) ≤ y.val := by exact_mod_cast h2
      push_cast at h'
      refine le_trans ?_ h'
      exact mul_le_mul_of_nonneg_right (by norm_num) m1r.le
    have h3r : |(x.val : ℝ) - y.val| ≤ 3.4e-6 * M := by
      have h' : ((|x.val - y.val| : ℚ) : ℝ) ≤ ((3.4e-6 * M : ℚ) : ℝ) := by exact_mod_cast h3
      push_cast at h'
      exact h'.trans (le_of_eq (by norm_num))
    have p0 : (0:ℝ) ≤ 1.16e-4 * M := by positivity
    rw [max_eq_left (p0.trans h1r), max_eq_left (p0.trans h2r),
      show (1 / ((2.6 : ℚ) : ℝ)) = 1 / 2.6 by norm_num]
    have := pow_dci m1r m2r h1r h2r h3r
    norm_num at this ⊢
    linarith

theorem near_alexa (hf : Std f) (hp : PowAccurate f) (hl : LogAccurate f) {A B D : Matrix33 (FP f)}
    (h : stepsCheck A B D 2.2e-6 = true) (hN : normAbs D ≤ 1.001) (hF : floorCheck D 0.017 = true)
    (c : RGBu8) (i : Fin 3) :
    CodesNear (quant8 (encode.alexa_logc_v3_t (rgbVec (D * (decode.srgb c.toF : RGBf (FP f))) i)))
      (quant8 (encode.alexa_logc_v3_t (rgbVec (xyzToRgb A (rgbToXyz B (decode.srgb c.toF : RGBf (FP f)))) i))) := by
  obtain ⟨x, y, ex, ey, x1, y1, x2, y2, e, hk⟩ := both_near hf hp h hN (by norm_num) (by norm_num) c i
  rw [← ex, ← ey]
  have er : |(x.val : ℝ) - y.val| ≤ 3e-6 := by
    have h' : ((|x.val - y.val| : ℚ) : ℝ) ≤ ((2.2e-6 * 1.00001 : ℚ) : ℝ) := by exact_mod_cast e
    push_cast at h'
    exact h'.trans (by norm_num)
  have h0 : 0 ≤ x.val ∧ 0 ≤ y.val := by
    rcases hk 0.017 (by norm_num) hF with ⟨h1, h2⟩ | ⟨M, m1, m2, h1, h2, h3⟩
    · exact ⟨h1.ge, h2.ge⟩
    · exact ⟨le_trans (by positivity) h1, le_trans (by norm_num; exact m1.le) h2⟩
  obtain ⟨a, b, d⟩ := logc_close hf hl x1 h0.1 (x2.trans (by norm_num)) y1 h0.2 (y2.trans (by norm_num)) er
  refine codes_close hf (e := 0) (.inr ⟨a, by rw [sub_self, abs_zero]⟩) (.inr ⟨b, by rw [sub_self, abs_zero]⟩) ?_
  norm_num at d ⊢
  linarith
end

theorem exists_52_b32 : ∃ c : FP Fmt.b32, c.isFinite = true ∧ c.val = 1 / 2 ^ 52 := by
  have h := roundQ_eq_self Fmt.b32 1 (-52) (by norm_num [Fmt.b32]) (by norm_num [Fmt.b32, Fmt.emin])
  have e : (((1:ℤ):ℚ) * 2 ^ (-52:ℤ)) = 1 / 2 ^ 52 := by norm_num
  rw [e] at h
  refine ⟨.fin (1 / 2 ^ 52) ⟨h, ?_⟩, rfl, rfl⟩
  rw [abs_of_pos (by positivity)]
  refine lt_of_le_of_lt (b := 1) (by norm_num) ?_
  show (1:ℚ) < 2 ^ ((127:ℤ) + 1)
  exact one_lt_zpow₀ (by norm_num) (by norm_num)

/-- what the evaluation establishes about the three matrices -/
def convCheckA {f : Fmt} (δ : ℚ) (A B D : Matrix33 (FP f)) : Bool :=
  stepsCheck A B D δ && decide (normAbs D ≤ 1.001)

def convCheckF {f : Fmt} (δ κ : ℚ) (A B D : Matrix33 (FP f)) : Bool := convCheckA δ A B D && floorCheck D κ

theorem steps32_adobe : @withCat02 Fmt.b32 (noLibm _) (fun MAi MA =>
    @fastSteps Fmt.b32 (noLibm _) MAi MA Tripb32.srgb Tripb32.adobeRgb1998 (convCheckA 2.5e-6)) = true := by krefl

theorem steps32_alexa : @withCat02 Fmt.b32 (noLibm _) (fun MAi MA =>
    @fastSteps Fmt.b32 (noLibm _) MAi MA Tripb32.srgb Tripb32.alexaWideGamut (convCheckF 2.2e-6 0.017)) = true := by krefl

theorem steps32_dciP3 : @withCat02 Fmt.b32 (noLibm _) (fun MAi MA =>
    @fastSteps Fmt.b32 (noLibm _) MAi MA Tripb32.srgb Tripb32.dciP3 (convCheckF 3.4e-6 1.2e-4)) = true := by krefl

theorem steps64_adobe : @withCat02 Fmt.b64 (noLibm _) (fun MAi MA =>
    @fastSteps Fmt.b64 (noLibm _) MAi MA Tripb64.srgb Tripb64.adobeRgb1998 (convCheckA 2.5e-6)) = true := by krefl

theorem steps64_alexa : @withCat02 Fmt.b64 (noLibm _) (fun MAi MA =>
    @fastSteps Fmt.b64 (noLibm _) MAi MA Tripb64.srgb Tripb64.alexaWideGamut (convCheckF 2.2e-6 0.017)) = true := by krefl

theorem steps64_dciP3 : @withCat02 Fmt.b64 (noLibm _) (fun MAi MA =>
    @fastSteps Fmt.b64 (noLibm _) MAi MA Tripb64.srgb Tripb64.dciP3 (convCheckF 3.4e-6 1.2e-4)) = true := by krefl

/-- the three destinations of the example programs, convert.rs:24-40 -/
def Spec.destinations (f : Fmt) [Libm f] : List (Res (ColorSpaceRGB (FP f))) :=
  [.ok (Shipped.adobeRgb1998 (FP.ofQ f false)), .ok (Shipped.alexaWideGamut (FP.ofQ f false)),
    Shipped.dciP3 (FP.ofQ f false)]

section
variable {f : Fmt} [Libm f]

theorem images_of (hf : Std f) (hp : PowAccurate f) (hm : PowMonotone f) (hn : PowNegative f) (hl : LogAccurate f)
    (hc : ∃ c : FP f, c.isFinite = true ∧ c.val = 1 / 2 ^ 52)
    (h1 : StepsOk (.ok (Shipped.srgb (FP.ofQ f false))) (.ok (Shipped.adobeRgb1998 (FP.ofQ f false))) (convCheckA 2.5e-6))
    (h2 : StepsOk (.ok (Shipped.srgb (FP.ofQ f false))) (.ok (Shipped.alexaWideGamut (FP.ofQ f false)))
      (convCheckF 2.2e-6 0.017))
    (h3 : StepsOk (.ok (Shipped.srgb (FP.ofQ f false))) (Shipped.dciP3 (FP.ofQ f false)) (convCheckF 3.4e-6 1.2e-4)) :
    ∀ s ∈ Spec.destinations f, Spec.SameImages (.ok (Shipped.srgb (FP.ofQ f false))) s := by
  have hr : ∀ a, (.ok (Shipped.srgb (FP.ofQ f false)) : Res (ColorSpaceRGB (FP f))) = .ok a →
      a.eotf = decode.srgb := by
    intro a e; cases e; rfl
  unfold Spec.destinations
  simp only [List.forall_mem_cons, List.not_mem_nil, false_implies, implies_true, and_true]
  refine ⟨sameImages_of h1 (enc := fun x => Flt.powf x (FP.ofQ f false 1.0 / FP.ofQ f false 2.19921875)) hr
      (fun b e => by cases e; rfl) fun A B D hk c i => ?_,
    sameImages_of h2 (enc := encode.alexa_logc_v3_t) hr (fun b e => by cases e; rfl) fun A B D hk c i => ?_,
    sameImages_of h3 (enc := fun x => Flt.powf x (FP.ofQ f false 1.0 / FP.ofQ f false 2.6)) hr
      (fun b e => (new_curves e).1.trans rfl) fun A B D hk c i => ?_⟩
  · simp only [convCheckA, Bool.and_eq_true, decide_eq_true_eq] at hk
    exact near_adobe hf hp hm hn hc hk.1 hk.2 c i
  · simp only [convCheckF, convCheckA, Bool.and_eq_true, decide_eq_true_eq] at hk
    exact near_alexa hf hp hl hk.1.1 hk.1.2 hk.2 c i
  · simp only [convCheckF, convCheckA, Bool.and_eq_true, decide_eq_true_eq] at hk
    exact near_dci hf hp hm hn hc hk.1.1 hk.1.2 hk.2 c i
end

/-- C121 [F]: in f32, as the example programs run, converting an 8-bit sRGB image to Adobe RGB, ALEXA Wide Gamut
or DCI-P3 in one call or step by step through XYZ never panics, and corresponding bytes of the two results differ
by at most one. It holds for every image, whatever its length. -/
theorem C121_images_f32 [L : Libm Fmt.b32] (hp : PowAccurate Fmt.b32) (hm : PowMonotone Fmt.b32)
    (hn : PowNegative Fmt.b32) (hl : LogAccurate Fmt.b32) :
    ∀ s ∈ Spec.destinations Fmt.b32, Spec.SameImages (.ok (Shipped.srgb (FP.ofQ Fmt.b32 false))) s :=
  images_of std_b32 hp hm hn hl exists_52_b32
    (stepsOk_of_check (t := 0) L (linked_of_check (srgb_same Tripb32.l L) Tripb32.link_srgb)
      (linked_of_check (adobeRgb1998_same Tripb32.l L) Tripb32.link_adobeRgb1998) steps32_adobe)
    (stepsOk_of_check (t := 0) L (linked_of_check (srgb_same Tripb32.l L) Tripb32.link_srgb)
      (linked_of_check (alexaWideGamut_same Tripb32.l L) Tripb32.link_alexaWideGamut) steps32_alexa)
    (stepsOk_of_check (t := 0) L (linked_of_check (srgb_same Tripb32.l L) Tripb32.link_srgb)
      (linked_of_check (dciP3_same Tripb32.l L) Tripb32.link_dciP3) steps32_dciP3)

/-- C121 [F]: the same in f64. -/
theorem C121_images_f64 [L : Libm Fmt.b64] (hp : PowAccurate Fmt.b64) (hm : PowMonotone Fmt.b64)
    (hn : PowNegative Fmt.b64) (hl : LogAccurate Fmt.b64) :
    ∀ s ∈ Spec.destinations Fmt.b64, Spec.SameImages (.ok (Shipped.srgb (FP.ofQ Fmt.b64 false))) s :=
  images_of std_b64 hp hm hn hl (exists_pow 52 (by norm_num))
    (stepsOk_of_check (t := 0) L (linked_of_check (srgb_same Tripb64.l L) Tripb64.link_srgb)
      (linked_of_check (adobeRgb1998_same Tripb64.l L) Tripb64.link_adobeRgb1998) steps64_adobe)
    (stepsOk_of_check (t := 0) L (linked_of_check (srgb_same Tripb64.l L) Tripb64.link_srgb)
      (linked_of_check (alexaWideGamut_same Tripb64.l L) Tripb64.link_alexaWideGamut) steps64_alexa)
    (stepsOk_of_check (t := 0) L (linked_of_check (srgb_same Tripb64.l L) Tripb64.link_srgb)
      (linked_of_check (dciP3_same Tripb64.l L) Tripb64.link_dciP3) steps64_dciP3)

theorem strict_log {f : Fmt} (hf : Std f) : @LogAccurate f (strictLibm f) :=
  @LogAccurate.mk f (strictLibm f) fun x hx h1 h2 => @LogAccurate.near f (orderedLibm f) (ordered_log hf) x hx h1 h2

/-- Not vacuous: one library meets all four hypotheses, and then the programs agree on an image of two pixels and a
stray byte. -/
example : letI := strictLibm Fmt.b32
    ∃ src dst out out', Shipped.dciP3 (FP.ofQ Fmt.b32 false) = .ok dst ∧ src = Shipped.srgb (FP.ofQ Fmt.b32 false) ∧
      convertDirect src dst [0, 128, 255, 12, 13, 14, 99] = .ok out ∧
      convertSteps src dst [0, 128, 255, 12, 13, 14, 99] = .ok out' ∧ out.length = 6 ∧ out'.length = 6 := by
  let _ := strictLibm Fmt.b32
  obtain ⟨a, b, c⟩ := strict_facts std_b32
  obtain ⟨src, dst, e1, e2, h⟩ := C121_images_f32 a b c (strict_log std_b32) _
    (by unfold Spec.destinations; exact List.mem_cons_of_mem _ (List.mem_cons_of_mem _ (List.mem_singleton.2 rfl)))
  obtain ⟨out, out', o1, o2, o3, o4, -⟩ := h [0, 128, 255, 12, 13, 14, 99]
  cases e1
  exact ⟨_, dst, out, out', e2, rfl, o1, o2, o3, o4.trans o3⟩

end CS

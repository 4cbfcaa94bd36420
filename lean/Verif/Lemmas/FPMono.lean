import Verif.Lemmas.FPNear
import Verif.Lemmas.IdealLibm

/-!
# Rounded operations keep the order
Comparisons are those of the model (`FP.le`), so infinities are included and NaN never compares.
-/

namespace CS
variable {f : Fmt}

namespace FP

theorem le_trans' {a b c : FP f} (h1 : le a b = true) (h2 : le b c = true) : le a c = true := by
  obtain ⟨x, y, ha, hb, h⟩ := (le_iff a b).1 h1
  obtain ⟨y', z, hb', hc, h'⟩ := (le_iff b c).1 h2
  rw [hb] at hb'
  obtain rfl := Option.some.inj hb'
  exact (le_iff a c).2 ⟨x, z, ha, hc, h.trans h'⟩

theorem le_refl' {a : FP f} (h : a.isNaN = false) : le a a = true := by
  obtain ⟨x, hx⟩ := ext_of_not_nan h
  exact (le_iff a a).2 ⟨x, x, hx, hx, le_rfl⟩

theorem not_nan_left {a b : FP f} (h : le a b = true) : a.isNaN = false := by
  cases a <;> simp_all [isNaN]

theorem not_nan_right {a b : FP f} (h : le a b = true) : b.isNaN = false := by
  cases b <;> simp_all [isNaN]

theorem le_of_not_le {a b : FP f} (ha : a.isNaN = false) (hb : b.isNaN = false) (h : le a b = false) :
    le b a = true := by
  obtain ⟨x, hx⟩ := ext_of_not_nan ha
  obtain ⟨y, hy⟩ := ext_of_not_nan hb
  simp only [le, hx, hy, decide_eq_false_iff_not, not_le, decide_eq_true_eq] at h ⊢
  exact h.le

theorem le_of_not_lt {a b : FP f} (ha : a.isNaN = false) (hb : b.isNaN = false) (h : lt a b = false) :
    le b a = true := by
  obtain ⟨x, hx⟩ := ext_of_not_nan ha
  obtain ⟨y, hy⟩ := ext_of_not_nan hb
  simp only [le, lt, hx, hy, decide_eq_false_iff_not, not_lt, decide_eq_true_eq] at h ⊢
  exact h

theorem le_of_lt {a b : FP f} (h : lt a b = true) : le a b = true := by
  obtain ⟨x, y, ha, hb, h⟩ := (lt_iff a b).1 h
  exact (le_iff a b).2 ⟨x, y, ha, hb, h.le⟩

theorem le_pinf {a : FP f} (h : a.isNaN = false) : le a pinf = true := by
  obtain ⟨x, hx⟩ := ext_of_not_nan h
  refine (le_iff a pinf).2 ⟨x, _, hx, rfl, ?_⟩
  induction x using WithBot.recBotCoe with
  | bot => exact bot_le
  | coe x => exact WithBot.coe_le_coe.2 le_top

theorem ninf_le {a : FP f} (h : a.isNaN = false) : le ninf a = true := by
  obtain ⟨x, hx⟩ := ext_of_not_nan h
  exact (le_iff ninf a).2 ⟨⊥, x, rfl, hx, bot_le⟩

theorem le_val {a b : FP f} (ha : a.isFinite = true) (hb : b.isFinite = true) (h : a.val ≤ b.val) :
    le a b = true := by rw [le_finite ha hb]; exact decide_eq_true h

theorem val_le {a b : FP f} (ha : a.isFinite = true) (hb : b.isFinite = true) (h : le a b = true) :
    a.val ≤ b.val := by rw [le_finite ha hb] at h; exact of_decide_eq_true h

theorem not_nan_ofQ (s : Bool) (q : ℚ) : (ofQ f s q).isNaN = false := by
  unfold ofQ zeroOf infOf
  split
  · split
    · split <;> split <;> rfl
    · rfl
  · split <;> rfl

/-- rounding keeps the order, overflow included -/
theorem ofQ_le {s t : Bool} {p q : ℚ} (h : p ≤ q) : le (ofQ f s p) (ofQ f t q) = true := by
  have hr := roundQ_mono f h
  by_cases hp : |roundQ f p| < 2 ^ (f.emax + 1)
  · by_cases hq : |roundQ f q| < 2 ^ (f.emax + 1)
    · obtain ⟨a, b⟩ := ofQ_finite s hp
      obtain ⟨c, d⟩ := ofQ_finite t hq
      exact le_val a c (by rw [b, d]; exact hr)
    · have hq0 : ¬ q < 0 := by
        intro h0
        have h1 : roundQ f q ≤ 0 := by have := roundQ_mono f h0.le; rwa [roundQ_zero] at this
        have h2 := (_root_.abs_lt.1 hp).1
        exact hq (_root_.abs_lt.2 ⟨by linarith, lt_of_le_of_lt h1 (by positivity)⟩)
      have e : ofQ f t q = pinf := by
        unfold ofQ; rw [dif_neg hq]; simp [infOf, hq0]
      rw [e]
      exact le_pinf (not_nan_ofQ _ _)
  · by_cases hp0 : p < 0
    · have e : ofQ f s p = ninf := by
        unfold ofQ; rw [dif_neg hp]; simp [infOf, hp0]
      rw [e]
      exact ninf_le (not_nan_ofQ _ _)
    · have h0 : 0 ≤ roundQ f p := by have := roundQ_mono f (not_lt.1 hp0); rwa [roundQ_zero] at this
      rw [abs_of_nonneg h0] at hp
      have hq : ¬ |roundQ f q| < 2 ^ (f.emax + 1) := by
        rw [abs_of_nonneg (h0.trans hr)]; linarith
      have hq0 : ¬ q < 0 := by linarith
      have e : ofQ f t q = pinf := by
        unfold ofQ; rw [dif_neg hq]; simp [infOf, hq0]
      rw [e]
      exact le_pinf (not_nan_ofQ _ _)

/-- an operation that rounds a monotone function and keeps the infinities is monotone -/
theorem mono_op {op : FP f → FP f} {g : ℚ → ℚ} (hg : ∀ p q, p ≤ q → g p ≤ g q) (h1 : op pinf = pinf)
    (h2 : op ninf = ninf) (h3 : ∀ a : FP f, a.isFinite = true → ∃ s, op a = ofQ f s (g a.val)) {a b : FP f}
    (h : le a b = true) : le (op a) (op b) = true := by
  have fin : ∀ c : FP f, c.isNaN = false → c.isFinite = true ∨ c = pinf ∨ c = ninf := by
    intro c hc; cases c <;> simp_all [isFinite, isNaN]
  have nn : ∀ c : FP f, c.isNaN = false → (op c).isNaN = false := by
    intro c hc
    rcases fin c hc with h | rfl | rfl
    · obtain ⟨s, e⟩ := h3 c h; rw [e]; exact not_nan_ofQ _ _
    · rw [h1]; rfl
    · rw [h2]; rfl
  have na := not_nan_left h
  have nb := not_nan_right h
  rcases fin a na with ha | rfl | rfl
  · rcases fin b nb with hb | rfl | rfl
    · obtain ⟨s, ea⟩ := h3 a ha
      obtain ⟨t, eb⟩ := h3 b hb
      rw [ea, eb]
      exact ofQ_le (hg _ _ (val_le ha hb h))
    · rw [h1]; exact le_pinf (nn _ na)
    · exfalso
      obtain ⟨x, y, e1, e2, h⟩ := (le_iff _ _).1 h
      rw [ext_finite ha] at e1
      cases e1; cases e2
      exact absurd (le_bot_iff.1 h) WithBot.coe_ne_bot
  · have hb : b = pinf := by
      rcases fin b nb with hb | rfl | rfl
      · exfalso
        obtain ⟨x, y, e1, e2, h⟩ := (le_iff _ _).1 h
        rw [ext_finite hb] at e2
        cases e1; cases e2
        exact absurd (top_le_iff.1 (WithBot.coe_le_coe.1 h)) WithTop.coe_ne_top
      · rfl
      · simp [le, ext] at h
    subst hb
    rw [h1]; exact le_pinf rfl
  · rw [h2]; exact ninf_le (nn _ nb)

theorem add_right_le {a b k : FP f} (hk : k.isFinite = true) (h : le a b = true) :
    le (a + k) (b + k) = true := by
  refine mono_op (op := fun a => a + k) (g := fun q => q + k.val) (fun p q h => by simpa using h) ?_ ?_ ?_ h
  · show add pinf k = pinf
    cases k <;> simp_all [add, isNaN, isFinite]
  · show add ninf k = ninf
    cases k <;> simp_all [add, isNaN, isFinite]
  · intro a ha
    refine ⟨a.sgn && k.sgn, ?_⟩
    show add a k = _
    unfold add
    rw [isNaN_of_finite ha, isNaN_of_finite hk, ha, hk]
    rfl

theorem sub_right_le {a b k : FP f} (hk : k.isFinite = true) (h : le a b = true) :
    le (a - k) (b - k) = true := by
  have : (-k).isFinite = true := (neg_finite hk).1
  exact add_right_le this h

theorem mul_right_le {a b k : FP f} (hk : k.isFinite = true) (h0 : 0 < k.val) (h : le a b = true) :
    le (a * k) (b * k) = true := by
  refine mono_op (op := fun a => a * k) (g := fun q => q * k.val)
    (fun p q h => mul_le_mul_of_nonneg_right h h0.le) ?_ ?_ ?_ h
  · show mul pinf k = pinf
    cases k with
    | fin q hq =>
      have h1 : ¬ q < 0 := not_lt.2 (_root_.le_of_lt h0)
      have h2 : q ≠ 0 := ne_of_gt h0
      simp [mul, isFinite, val, infOf, sgn, h1, h2]
    | _ => simp_all [isFinite, val]
  · show mul ninf k = ninf
    cases k with
    | fin q hq =>
      have h1 : ¬ q < 0 := not_lt.2 (_root_.le_of_lt h0)
      have h2 : q ≠ 0 := ne_of_gt h0
      simp [mul, isFinite, val, infOf, sgn, h1, h2]
    | _ => simp_all [isFinite, val]
  · intro a ha
    refine ⟨a.sgn ^^ k.sgn, ?_⟩
    show mul a k = _
    cases a <;> cases k <;> simp_all [mul, isFinite]

theorem mul_left_le {a b k : FP f} (hk : k.isFinite = true) (h0 : 0 < k.val) (h : le a b = true) :
    le (k * a) (k * b) = true := by
  refine mono_op (op := fun a => k * a) (g := fun q => k.val * q)
    (fun p q h => mul_le_mul_of_nonneg_left h h0.le) ?_ ?_ ?_ h
  · show mul k pinf = pinf
    cases k with
    | fin q hq =>
      have h1 : ¬ q < 0 := not_lt.2 (_root_.le_of_lt h0)
      have h2 : q ≠ 0 := ne_of_gt h0
      simp [mul, isFinite, val, infOf, sgn, h1, h2]
    | _ => simp_all [isFinite, val]
  · show mul k ninf = ninf
    cases k with
    | fin q hq =>
      have h1 : ¬ q < 0 := not_lt.2 (_root_.le_of_lt h0)
      have h2 : q ≠ 0 := ne_of_gt h0
      simp [mul, isFinite, val, infOf, sgn, h1, h2]
    | _ => simp_all [isFinite, val]
  · intro a ha
    refine ⟨k.sgn ^^ a.sgn, ?_⟩
    show mul k a = _
    cases a <;> cases k <;> simp_all [mul, isFinite]

theorem div_right_le {a b k : FP f} (hk : k.isFinite = true) (h0 : 0 < k.val) (h : le a b = true) :
    le (a / k) (b / k) = true := by
  refine mono_op (op := fun a => a / k) (g := fun q => q / k.val)
    (fun p q h => div_le_div_of_nonneg_right h h0.le) ?_ ?_ ?_ h
  · show div pinf k = pinf
    cases k with
    | fin q hq =>
      have h1 : ¬ q < 0 := not_lt.2 (_root_.le_of_lt h0)
      have h2 : q ≠ 0 := ne_of_gt h0
      simp [div, isFinite, val, infOf, sgn, h1, h2]
    | _ => simp_all [isFinite, val]
  · show div ninf k = ninf
    cases k with
    | fin q hq =>
      have h1 : ¬ q < 0 := not_lt.2 (_root_.le_of_lt h0)
      have h2 : q ≠ 0 := ne_of_gt h0
      simp [div, isFinite, val, infOf, sgn, h1, h2]
    | _ => simp_all [isFinite, val]
  · intro a ha
    refine ⟨a.sgn ^^ k.sgn, ?_⟩
    show div a k = _
    have hk0 : ¬ k.val = 0 := ne_of_gt h0
    unfold div
    cases a <;> cases k <;> simp_all [isFinite]

end FP

/-! ### a library whose power and logarithm keep the order -/

/-- What the theorems about order assume of the platform's `powf`: for a positive exponent, raising keeps the
order of non-negative bases. -/
structure PowMonotone (f : Fmt) [Libm f] : Prop where
  mono : ∀ x y e : FP f, e.isFinite = true → 0 < e.val → Flt.le (FP.lit 0) x = true →
    Flt.le x y = true → Flt.le (Flt.powf x e) (Flt.powf y e) = true

/-- The logarithm keeps the order of positive numbers. -/
structure LogMonotone (f : Fmt) [Libm f] : Prop where
  mono : ∀ x y : FP f, Flt.lt (FP.lit 0) x = true → Flt.le x y = true →
    Flt.le (Flt.log10 x) (Flt.log10 y) = true

/-- round a real number, by way of a fine grid, so that the order is kept -/
noncomputable def gridR (f : Fmt) (x : ℝ) : FP f :=
  FP.ofQ f false ((⌊x * 2 ^ (f.p + 200)⌋ : ℚ) / 2 ^ (f.p + 200))

theorem gridR_le {x y : ℝ} (h : x ≤ y) : FP.le (gridR f x) (gridR f y) = true := by
  refine FP.ofQ_le (div_le_div_of_nonneg_right ?_ (by positivity))
  have : ⌊x * 2 ^ (f.p + 200)⌋ ≤ ⌊y * 2 ^ (f.p + 200)⌋ :=
    Int.floor_le_floor (mul_le_mul_of_nonneg_right h (by positivity))
  exact_mod_cast this

theorem gridR_nan (x : ℝ) : (gridR f x).isNaN = false := FP.not_nan_ofQ _ _

theorem gridR_zero : (gridR f 0).isFinite = true ∧ (gridR f 0).val = 0 := by
  unfold gridR
  rw [zero_mul, Int.floor_zero]
  simp only [Int.cast_zero, zero_div, FP.ofQ_zero]
  exact ⟨FP.isFinite_zeroOf _, FP.val_zeroOf _⟩

set_option exponentiation.threshold 1000 in
theorem gridR_err (hf : Std f) {x : ℝ} (h : |x| ≤ 2 ^ 101) :
    (gridR f x).isFinite = true ∧ |((gridR f x).val : ℝ) - x| ≤ f.u * |x| + f.u / 2 ^ 120 := by
  obtain ⟨u0, u1, e1, e0⟩ := u_facts hf
  have hk : (0:ℝ) < 2 ^ (f.p + 200) := by positivity
  have hku : (1:ℝ) / 2 ^ (f.p + 200) = f.u / 2 ^ 200 := by
    rw [Fmt.u, pow_add]
    push_cast
    rw [div_div]
  set q : ℚ := (⌊x * 2 ^ (f.p + 200)⌋ : ℚ) / 2 ^ (f.p + 200) with hq
  have hqr : (q : ℝ) = (⌊x * 2 ^ (f.p + 200)⌋ : ℝ) / 2 ^ (f.p + 200) := by rw [hq]; push_cast; rfl
  have b1 := Int.floor_le (x * 2 ^ (f.p + 200))
  have b2 := Int.lt_floor_add_one (x * 2 ^ (f.p + 200))
  have hqx : |(q : ℝ) - x| ≤ f.u / 2 ^ 200 := by
    rw [← hku, hqr, abs_le]
    constructor
    · rw [le_sub_iff_add_le, neg_add_eq_sub, sub_le_iff_le_add, ← add_div, le_div_iff₀ hk]; exact b2.le
    · have : (⌊x * 2 ^ (f.p + 200)⌋ : ℝ) / 2 ^ (f.p + 200) ≤ x := by rw [div_le_iff₀ hk]; exact b1
      have h2 : (0:ℝ) ≤ 1 / 2 ^ (f.p + 200) := by positivity
      linarith
  have s1 : (f.u : ℝ) / 2 ^ 200 ≤ 1 := by
    rw [div_le_one (by positivity)]
    refine u1.trans (by norm_num)
  have t := abs_add_le ((q : ℝ) - x) x
  rw [sub_add_cancel] at t
  have hq2 : |q| ≤ 2 ^ 102 := by
    have : |(q : ℝ)| ≤ 2 ^ 102 := by
      refine t.trans ((add_le_add (hqx.trans s1) h).trans (by norm_num))
    qcast this
  have hq3 : |q| ≤ 2 ^ f.emax := by
    have b := hf.wide.hmax
    have c : (2:ℚ) ^ 102 ≤ 2 ^ 126 := pow_le_pow_right₀ (by norm_num) (by norm_num)
    have hp : (0:ℚ) < 2 ^ f.emax := by positivity
    generalize (2:ℚ) ^ f.emax = z at *
    generalize (2:ℚ) ^ 126 = z' at *
    generalize (2:ℚ) ^ 102 = z'' at *
    linarith
  obtain ⟨a, b⟩ := ofQ_err (f := f) false hq3
  refine ⟨a, ?_⟩
  have b' : |((FP.ofQ f false q).val : ℝ) - q| ≤ |(q:ℝ)| * f.u + f.eta := by qcast b
  have t' := abs_add_le (((FP.ofQ f false q).val : ℝ) - q) ((q : ℝ) - x)
  rw [sub_add_sub_cancel] at t'
  have e2 : |(q:ℝ)| * f.u ≤ (f.u / 2 ^ 200 + |x|) * f.u :=
    mul_le_mul_of_nonneg_right (t.trans (by linarith)) u0.le
  have e3 : (f.u : ℝ) / 2 ^ 200 * f.u ≤ f.u / 2 ^ 200 * 1 :=
    mul_le_mul_of_nonneg_left (u1.trans (by norm_num)) (by positivity)
  have e4 : (f.u : ℝ) / 2 ^ 200 ≤ f.u / 2 ^ 124 :=
    div_le_div_of_nonneg_left u0.le (by positivity) (pow_le_pow_right₀ (by norm_num) (by norm_num))
  have e5 : (f.u : ℝ) / 2 ^ 124 * 3 ≤ f.u / 2 ^ 120 := by
    rw [show (2:ℝ) ^ 124 = 2 ^ 120 * 16 by norm_num]
    have : (0:ℝ) < f.u / 2 ^ 120 := by positivity
    rw [← div_div]
    linarith
  show |((FP.ofQ f false q).val : ℝ) - x| ≤ _
  have e6 : (f.u / 2 ^ 200 + |x|) * (f.u : ℝ) = f.u / 2 ^ 200 * f.u + f.u * |x| := by ring
  linarith

open Classical in
/-- a power that keeps the order -/
noncomputable def gridPow (x e : FP f) : FP f :=
  if x = .pinf then .pinf else gridR f ((x.val : ℝ) ^ (e.val : ℝ))

open Classical in
/-- a logarithm that keeps the order -/
noncomputable def gridLog (x : FP f) : FP f :=
  if x = .pinf then .pinf else gridR f (Real.logb 10 (x.val : ℝ))

/-- the rounded exact functions, with a power and a logarithm that keep the order -/
noncomputable def orderedLibm (f : Fmt) : Libm f :=
  { idealLibm f with powf := gridPow, log10 := gridLog }

theorem ordered_pow (hf : Std f) : @PowAccurate f (orderedLibm f) := by
  letI := orderedLibm f
  obtain ⟨u0, _⟩ := u_facts hf
  have np : ∀ x : FP f, x.isFinite = true → ∀ e, (Flt.powf x e : FP f) = gridR f ((x.val : ℝ) ^ (e.val : ℝ)) := by
    intro x hx e
    show gridPow x e = _
    unfold gridPow
    rw [if_neg (by rintro rfl; cases hx)]
  refine ⟨?_, ?_⟩
  · intro x y hx _ _ _ _ h1 h2
    rw [np x hx]
    have hp : (0:ℝ) < (x.val : ℝ) ^ (y.val : ℝ) := lt_of_lt_of_le (by positivity) h1
    obtain ⟨a, b⟩ := gridR_err hf (x := (x.val : ℝ) ^ (y.val : ℝ)) (by
      rw [abs_of_pos hp]; exact h2.trans (by norm_num))
    refine ⟨a, le_trans b ?_⟩
    rw [abs_of_pos hp]
    have h3 : (f.u : ℝ) / 2 ^ 120 ≤ f.u * (x.val : ℝ) ^ (y.val : ℝ) := by
      rw [div_eq_mul_one_div]
      refine mul_le_mul_of_nonneg_left (le_trans ?_ h1) u0.le
      norm_num
    linarith [mul_pos u0 hp]
  · intro x y hx _ hx0 hy
    rw [np x hx, hx0]
    have hy' : (y.val : ℝ) ≠ 0 := by exact_mod_cast hy.ne'
    rw [show ((0:ℚ):ℝ) = 0 by norm_num, Real.zero_rpow hy']
    exact gridR_zero

theorem ordered_log (hf : Std f) : @LogAccurate f (orderedLibm f) := by
  letI := orderedLibm f
  refine ⟨?_⟩
  intro x hx h1 h2
  have h1r : (1:ℝ) / 2 ^ 10 ≤ x.val := by qcast h1
  have h2r : (x.val : ℝ) ≤ 2 ^ 10 := by qcast h2
  have hl := abs_log_le 10 h1r h2r
  have hl10 : 1 ≤ Real.log 10 := by
    have h := Real.log_two_gt_d9
    have h' : Real.log ((2:ℝ) ^ 3) ≤ Real.log 10 := Real.log_le_log (by norm_num) (by norm_num)
    rw [Real.log_pow] at h'
    norm_num at h' h
    linarith
  have hL : |Real.logb 10 (x.val : ℝ)| ≤ 2 ^ 101 := by
    rw [Real.logb, abs_div, abs_of_pos (by linarith : (0:ℝ) < Real.log 10), div_le_iff₀ (by linarith)]
    refine hl.trans ?_
    norm_num
    linarith
  have e : (Flt.log10 x : FP f) = gridR f (Real.logb 10 (x.val : ℝ)) := by
    show gridLog x = _
    unfold gridLog
    rw [if_neg (by rintro rfl; cases hx)]
  obtain ⟨a, b⟩ := gridR_err hf hL
  rw [e]
  refine ⟨a, le_trans b ?_⟩
  obtain ⟨u0, _⟩ := u_facts hf
  have h3 : (f.u : ℝ) / 2 ^ 120 ≤ f.u := div_le_self u0.le (by norm_num)
  have h4 := mul_nonneg u0.le (abs_nonneg (Real.logb 10 (x.val : ℝ)))
  linarith

/-- a number that is not below zero is finite or infinite -/
theorem fin_or_pinf [Libm f] {x : FP f} (h : FP.le (FP.lit 0) x = true) :
    x = .pinf ∨ (x.isFinite = true ∧ 0 ≤ x.val) := by
  have z1 : (FP.lit 0 : FP f).isFinite = true := by rw [FP.lit_zero]; rfl
  have z2 : (FP.lit 0 : FP f).val = 0 := by rw [FP.lit_zero]; rfl
  cases x with
  | pinf => exact Or.inl rfl
  | nan => simp at h
  | ninf =>
    exfalso
    obtain ⟨a, b, e1, e2, h⟩ := (FP.le_iff _ _).1 h
    rw [FP.ext_finite z1] at e1
    cases e1; cases e2
    exact absurd (le_bot_iff.1 h) WithBot.coe_ne_bot
  | nzero => exact Or.inr ⟨rfl, le_rfl⟩
  | fin q hq =>
    have := FP.val_le z1 rfl h
    rw [z2] at this
    exact Or.inr ⟨rfl, this⟩

theorem pinf_le {x : FP f} (h : FP.le .pinf x = true) : x = .pinf := by
  obtain ⟨a, b, e1, e2, h⟩ := (FP.le_iff _ _).1 h
  cases e1
  cases x with
  | pinf => rfl
  | nan => cases e2
  | ninf => cases e2; exact absurd (le_bot_iff.1 h) WithBot.coe_ne_bot
  | nzero => cases e2; exact absurd (top_le_iff.1 (WithBot.coe_le_coe.1 h)) WithTop.coe_ne_top
  | fin q hq => cases e2; exact absurd (top_le_iff.1 (WithBot.coe_le_coe.1 h)) WithTop.coe_ne_top

theorem ordered_pow_mono : @PowMonotone f (orderedLibm f) := by
  letI := orderedLibm f
  refine ⟨?_⟩
  intro x y e _ he h0 h
  show FP.le (gridPow x e) (gridPow y e) = true
  have he' : (0:ℝ) ≤ e.val := by exact_mod_cast he.le
  unfold gridPow
  by_cases hy : y = .pinf
  · rw [if_pos hy]
    split
    · rfl
    · exact FP.le_pinf (gridR_nan _)
  · have hx : x ≠ .pinf := fun hx => hy (pinf_le (hx ▸ h))
    rw [if_neg hy, if_neg hx]
    obtain ⟨x1, x2⟩ := (fin_or_pinf h0).resolve_left hx
    obtain ⟨y1, y2⟩ := (fin_or_pinf (FP.le_trans' h0 h)).resolve_left hy
    refine gridR_le (Real.rpow_le_rpow (by exact_mod_cast x2) ?_ he')
    exact_mod_cast FP.val_le x1 y1 h

theorem ordered_log_mono : @LogMonotone f (orderedLibm f) := by
  letI := orderedLibm f
  refine ⟨?_⟩
  intro x y h0 h
  show FP.le (gridLog x) (gridLog y) = true
  unfold gridLog
  by_cases hy : y = .pinf
  · rw [if_pos hy]
    split
    · rfl
    · exact FP.le_pinf (gridR_nan _)
  · have hx : x ≠ .pinf := fun hx => hy (pinf_le (hx ▸ h))
    rw [if_neg hy, if_neg hx]
    have h0' := FP.le_of_lt h0
    obtain ⟨x1, x2⟩ := (fin_or_pinf h0').resolve_left hx
    obtain ⟨y1, y2⟩ := (fin_or_pinf (FP.le_trans' h0' h)).resolve_left hy
    have z1 : (FP.lit 0 : FP f).isFinite = true := by rw [FP.lit_zero]; rfl
    have z2 : (FP.lit 0 : FP f).val = 0 := by rw [FP.lit_zero]; rfl
    have x3 : 0 < x.val := by
      have h0 : FP.lt (FP.lit 0) x = true := h0
      rw [FP.lt_finite z1 x1, z2] at h0
      exact of_decide_eq_true h0
    refine gridR_le (Real.logb_le_logb_of_le (by norm_num) (by exact_mod_cast x3) ?_)
    exact_mod_cast FP.val_le x1 y1 h

end CS

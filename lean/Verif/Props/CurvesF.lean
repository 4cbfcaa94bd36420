import Verif.Props.LinearF

/-!
# C99: the transfer curves in floating point follow the published curves
-/

namespace CS

/-! ### specification -/

/-- `r` follows at `x` the published curve that is `lo` up to `θ` and `hi` above it: the result is finite
and within `k` of the piece in force. Only within four roundings of `θ` may the other piece be taken. -/
def Spec.Follows {f : Fmt} (θ : ℝ) (lo hi : ℝ → ℝ) (k : ℝ → ℝ) (x r : FP f) : Prop :=
  r.isFinite = true ∧
    (((x.val : ℝ) ≤ θ * (1 + 4 * f.u) ∧ |(r.val : ℝ) - lo x.val| ≤ k (lo x.val)) ∨
     (θ * (1 - 4 * f.u) ≤ (x.val : ℝ) ∧ |(r.val : ℝ) - hi x.val| ≤ k (hi x.val)))

/-- a pure power law: zero for zero, and a relative error of `k` -/
def Spec.FollowsPower {f : Fmt} (g k : ℝ) (x r : FP f) : Prop :=
  r.isFinite = true ∧ |(r.val : ℝ) - (x.val : ℝ) ^ g| ≤ k * (x.val : ℝ) ^ g

section
variable {f : Fmt} [Libm f]

/-! ### thresholds -/

theorem thr_near (hf : Std f) {q : ℚ} (h1 : 1 / 2 ^ 20 ≤ q) (h2 : q ≤ 2 ^ 20) :
    (q : ℝ) * (1 - 4 * f.u) ≤ (FP.lit q : FP f).val ∧ ((FP.lit q : FP f).val : ℝ) ≤ q * (1 + 4 * f.u) := by
  have h := lit_abs hf h1 h2
  obtain ⟨u0, _⟩ := u_facts hf
  have q0 : (0:ℝ) < q := by exact_mod_cast lt_of_lt_of_le (by positivity) h1
  have e : (q:ℝ) * (f.u * (1 + 1 / 2 ^ 20)) ≤ q * (4 * f.u) := by
    refine mul_le_mul_of_nonneg_left ?_ q0.le
    norm_num; linarith
  obtain ⟨a, b⟩ := abs_le.1 (h.trans e)
  constructor <;> linarith

theorem btthr_near (hf : Std f) :
    (0.081 : ℝ) * (1 - 4 * f.u) ≤ (FP.lit 0.018 * FP.lit 4.5 : FP f).val ∧
      ((FP.lit 0.018 * FP.lit 4.5 : FP f).val : ℝ) ≤ 0.081 * (1 + 4 * f.u) := by
  obtain ⟨u0, u1, _⟩ := u_facts hf
  obtain ⟨s1, s2, s3⟩ := lit_between hf (q := 0.018) (lo := 0.017999) (hi := 0.018001) (by norm_num)
    (by norm_num) (by norm_num) (by norm_num)
  have s3' : ((FP.lit 0.018 : FP f).val : ℝ) ≤ 0.018001 := le_trans s3 (by norm_num)
  have p0 : (0:ℝ) ≤ (FP.lit 0.018 : FP f).val := le_trans (by norm_num) s2
  obtain ⟨m, _⟩ := lin_mul hf (q := 4.5) s1 (by exact_mod_cast p0) s3' (by norm_num) (by norm_num) (by norm_num)
  have h := lit_abs hf (q := 0.018) (by norm_num) (by norm_num)
  have m2 := m.err
  generalize ((FP.lit 0.018 * FP.lit 4.5 : FP f).val : ℝ) = z at *
  generalize ((FP.lit 0.018 : FP f).val : ℝ) = w at *
  generalize (f.u : ℝ) = u at *
  obtain ⟨a, b⟩ := abs_le.1 h
  obtain ⟨c, d⟩ := abs_le.1 m2
  norm_num at a b c d ⊢
  constructor <;> linarith

/-! ### sRGB and the BT curves -/

theorem srgb_enc_follows (hf : Std f) (hp : PowAccurate f) {x : FP f} (hx : x.isFinite = true)
    (h0 : 0 ≤ x.val) (h1 : x.val ≤ 1) :
    Spec.Follows 0.0031308 (fun x => 12.92 * x) (fun x => 1.055 * x ^ (1 / 2.4 : ℝ) - 0.055)
      (fun _ => 21 * f.u) x (encode.srgb_t x) := by
  obtain ⟨u0, u1, _⟩ := u_facts hf
  have hl := thr_near hf (q := 0.0031308) (by norm_num) (by norm_num)
  rw [show ((0.0031308 : ℚ) : ℝ) = 0.0031308 by norm_num] at hl
  by_cases h : x.val ≤ (FP.lit 0.0031308 : FP f).val
  · obtain ⟨a, b⟩ := srgb_enc_lin hf hx (by linarith) h
    have hr : (x.val : ℝ) ≤ (FP.lit 0.0031308 : FP f).val := by exact_mod_cast h
    refine ⟨a, Or.inl ⟨hr.trans hl.2, ?_⟩⟩
    show |_ - 12.92 * (x.val : ℝ)| ≤ _
    rw [mul_comm]
    exact b.trans (by linarith)
  · push Not at h
    obtain ⟨a, b⟩ := srgb_enc_abs hf hp hx h (by linarith)
    have hr : ((FP.lit 0.0031308 : FP f).val : ℝ) ≤ x.val := by exact_mod_cast h.le
    exact ⟨a, Or.inr ⟨hl.1.trans hr, b⟩⟩

theorem rel_le_one (hf : Std f) {n : ℝ} {a : FP f} {X : ℝ} (h : RelF n a X) (hX : X ≤ 1) (hn : 0 ≤ n)
    (hn2 : n ≤ 100) : |(a.val : ℝ) - X| ≤ 1.01 * n * f.u := by
  obtain ⟨u0, u1, _⟩ := u_facts hf
  obtain ⟨s1, s2⟩ := RelF.small hf (n := n) hn (by linarith)
  have e : n * kap f * (1 + n * kap f) ≤ n * kap f * (1 + 1 / 1000) :=
    mul_le_mul_of_nonneg_left (by linarith [s2.trans (by norm_num : _ ≤ (1:ℝ) / 1000)]) s1
  have e2 : n * kap f * (1 + 1 / 1000) ≤ 1.01 * n * f.u := by
    unfold kap
    have : (0:ℝ) ≤ n * f.u := by positivity
    norm_num; linarith
  have h' := h.err.to_abs s1 (le_trans s2 (by norm_num))
  have p := h.err.pos
  calc _ ≤ X * (n * kap f * (1 + n * kap f)) := h'
    _ ≤ 1 * (n * kap f * (1 + n * kap f)) := mul_le_mul_of_nonneg_right hX (by positivity)
    _ ≤ _ := by linarith

theorem srgb_dec_follows (hf : Std f) (hp : PowAccurate f) {x : FP f} (hx : x.isFinite = true)
    (h0 : 0 ≤ x.val) (h1 : x.val ≤ 1) :
    Spec.Follows 0.040449936 (fun x => x / 12.92) (fun x => ((x + 0.055) / 1.055) ^ (2.4 : ℝ))
      (fun _ => 22 * f.u) x (decode.srgb_t x) := by
  obtain ⟨u0, u1, _⟩ := u_facts hf
  have hl := thr_near hf (q := 0.040449936) (by norm_num) (by norm_num)
  rw [show ((0.040449936 : ℚ) : ℝ) = 0.040449936 by norm_num] at hl
  by_cases h : x.val ≤ (FP.lit 0.040449936 : FP f).val
  · obtain ⟨_, a, _, b⟩ := srgb_dec_lin hf hx h0 h
    have hr : (x.val : ℝ) ≤ (FP.lit 0.040449936 : FP f).val := by exact_mod_cast h
    exact ⟨a, Or.inl ⟨hr.trans hl.2, b.trans (by linarith)⟩⟩
  · push Not at h
    have a := srgb_dec_pow hf hp hx h h1
    have hr : ((FP.lit 0.040449936 : FP f).val : ℝ) ≤ x.val := by exact_mod_cast h.le
    have x1 : (x.val : ℝ) ≤ 1 := by exact_mod_cast h1
    have x0 : (0:ℝ) ≤ x.val := by exact_mod_cast h0
    refine ⟨a.fin, Or.inr ⟨hl.1.trans hr, (rel_le_one hf a ?_ (by norm_num) (by norm_num)).trans ?_⟩⟩
    · refine Real.rpow_le_one (by positivity) ?_ (by norm_num)
      rw [div_le_one (by norm_num)]; norm_num; linarith
    · norm_num; linarith

theorem bt_hi_le {x : ℝ} (h0 : 0 ≤ x) (h1 : x ≤ 1) : ((x + 0.099) / 1.099) ^ (1 / 0.45 : ℝ) ≤ 1 := by
  refine Real.rpow_le_one (by positivity) ?_ (by norm_num)
  rw [div_le_one (by norm_num)]; norm_num; linarith

theorem bt_enc_follows (hf : Std f) (hp : PowAccurate f) {x r : FP f} (hx : x.isFinite = true)
    (h0 : 0 ≤ x.val) (h1 : x.val ≤ 1) {A B : FP f} (hA : RelF 1 A 1.099) (hB : RelF 13 B 0.099)
    (h : (x.val ≤ (FP.lit 0.018 : FP f).val ∧ r = x * FP.lit 4.5) ∨
      ((FP.lit 0.018 : FP f).val ≤ x.val ∧ r = A * Flt.powf x (FP.lit 0.45) - B)) :
    Spec.Follows 0.018 (fun x => 4.5 * x) (fun x => 1.099 * x ^ (0.45 : ℝ) - 0.099)
      (fun _ => 12 * f.u) x r := by
  obtain ⟨u0, u1, _⟩ := u_facts hf
  have hl := thr_near hf (q := 0.018) (by norm_num) (by norm_num)
  rw [show ((0.018 : ℚ) : ℝ) = 0.018 by norm_num] at hl
  have x1 : (x.val : ℝ) ≤ 1 := by exact_mod_cast h1
  rcases h with ⟨h, rfl⟩ | ⟨h, rfl⟩
  · have hr : (x.val : ℝ) ≤ (FP.lit 0.018 : FP f).val := by exact_mod_cast h
    have xm : (x.val : ℝ) ≤ 0.019 := by
      refine hr.trans (hl.2.trans ?_); norm_num at u1 ⊢; linarith
    obtain ⟨b, _⟩ := lin_mul hf (q := 4.5) hx h0 xm (by norm_num) (by norm_num) (by norm_num)
    refine ⟨b.fin, Or.inl ⟨hr.trans hl.2, ?_⟩⟩
    have := b.err
    show |_ - 4.5 * (x.val : ℝ)| ≤ _
    rw [mul_comm (4.5 : ℝ), show (4.5 : ℝ) = ((4.5 : ℚ) : ℝ) by norm_num]
    refine this.trans (mul_le_mul_of_nonneg_right ?_ u0.le)
    norm_num
  · have hr : ((FP.lit 0.018 : FP f).val : ℝ) ≤ x.val := by exact_mod_cast h
    have b := bt_enc_nr hf hp hA hB hx (by
      refine le_trans ?_ (hl.1.trans hr); norm_num at u1 ⊢; linarith) x1
    exact ⟨b.fin, Or.inr ⟨hl.1.trans hr, b.err.trans (mul_le_mul_of_nonneg_right (by norm_num) u0.le)⟩⟩

theorem bt_dec_follows (hf : Std f) (hp : PowAccurate f) {x r : FP f} (hx : x.isFinite = true)
    (h0 : 0 ≤ x.val) (h1 : x.val ≤ 1) {A B : FP f} (hA : RelF 1 A 1.099) (hB : RelF 13 B 0.099)
    (h : (x.val ≤ (FP.lit 0.018 * FP.lit 4.5 : FP f).val ∧ r = x / FP.lit 4.5) ∨
      ((FP.lit 0.018 * FP.lit 4.5 : FP f).val ≤ x.val ∧
        r = Flt.powf ((x + B) / A) (FP.lit 1.0 / FP.lit 0.45))) :
    Spec.Follows 0.081 (fun x => x / 4.5) (fun x => ((x + 0.099) / 1.099) ^ (1 / 0.45 : ℝ))
      (fun _ => 51 * f.u) x r := by
  obtain ⟨u0, u1, _⟩ := u_facts hf
  have hl := btthr_near hf
  have x1 : (x.val : ℝ) ≤ 1 := by exact_mod_cast h1
  have x0 : (0:ℝ) ≤ x.val := by exact_mod_cast h0
  rcases h with ⟨h, rfl⟩ | ⟨h, rfl⟩
  · have hr : (x.val : ℝ) ≤ (FP.lit 0.018 * FP.lit 4.5 : FP f).val := by exact_mod_cast h
    have b := (Nr.exact hx).div hf (Nr.lit hf (q := 4.5) (by norm_num) (by norm_num)) (b0 := 4.5) (Q := 1)
      (K := 51) (by norm_num) (by norm_num) (by
        rw [abs_of_nonneg (by positivity), div_le_one (by norm_num)]; norm_num; linarith) (by norm_num)
      (by norm_num) (by norm_num) (by norm_num)
    refine ⟨b.fin, Or.inl ⟨hr.trans hl.2, ?_⟩⟩
    have := b.err
    rwa [show ((4.5 : ℚ) : ℝ) = 4.5 by norm_num] at this
  · have hr : ((FP.lit 0.018 * FP.lit 4.5 : FP f).val : ℝ) ≤ x.val := by exact_mod_cast h
    have b := bt_dec' hf hp hA hB hx (by
      refine le_trans ?_ (hl.1.trans hr); norm_num at u1 ⊢; linarith) (x1.trans (by norm_num))
    refine ⟨b.fin, Or.inr ⟨hl.1.trans hr,
      (rel_le_one hf b (bt_hi_le x0 x1) (by norm_num) (by norm_num)).trans
        (mul_le_mul_of_nonneg_right (by norm_num) u0.le)⟩⟩

theorem bt709_enc_follows (hf : Std f) (hp : PowAccurate f) {x : FP f} (hx : x.isFinite = true)
    (h0 : 0 ≤ x.val) (h1 : x.val ≤ 1) :
    Spec.Follows 0.018 (fun x => 4.5 * x) (fun x => 1.099 * x ^ (0.45 : ℝ) - 0.099)
      (fun _ => 12 * f.u) x (encode.bt709_t x) := by
  have hA := (RelF.litE hf (q := 1.099) (by norm_num) (by norm_num)).congr (Y := 1.099) (by norm_num)
  have hB := ((RelF.litE hf (q := 0.099) (by norm_num) (by norm_num)).mono (n := 13) (by norm_num)).congr
    (Y := 0.099) (by norm_num)
  obtain ⟨s1, _⟩ := lit_between hf (q := 0.018) (lo := 0.017999) (hi := 0.018001) (by norm_num)
    (by norm_num) (by norm_num) (by norm_num)
  have hle : Flt.le x (FP.lit 0.018) = decide (x.val ≤ (FP.lit 0.018 : FP f).val) := by
    rw [FP.flt_le, FP.le_finite hx s1]
  refine bt_enc_follows hf hp hx h0 h1 hA hB ?_
  unfold encode.bt709_t
  by_cases h : x.val ≤ (FP.lit 0.018 : FP f).val
  · left
    refine ⟨h, ?_⟩
    simp only [FP.flt_lit, hle, h, decide_true, if_true]
  · right
    refine ⟨(not_le.1 h).le, ?_⟩
    simp only [FP.flt_lit, hle, h, decide_false, if_false, Bool.false_eq_true]

theorem bt2020_enc_follows (hf : Std f) (hp : PowAccurate f) {x : FP f} (hx : x.isFinite = true)
    (h0 : 0 ≤ x.val) (h1 : x.val ≤ 1) :
    Spec.Follows 0.018 (fun x => 4.5 * x) (fun x => 1.099 * x ^ (0.45 : ℝ) - 0.099)
      (fun _ => 12 * f.u) x (encode.bt2020_t x) := by
  have hA := (RelF.litE hf (q := 1.099) (by norm_num) (by norm_num)).congr (Y := 1.099) (by norm_num)
  have hB := bt2020_beta hf
  obtain ⟨s1, _⟩ := lit_between hf (q := 0.018) (lo := 0.017999) (hi := 0.018001) (by norm_num)
    (by norm_num) (by norm_num) (by norm_num)
  have hle : Flt.lt x (FP.lit 0.018) = decide (x.val < (FP.lit 0.018 : FP f).val) := by
    rw [FP.flt_lt, FP.lt_finite hx s1]
  refine bt_enc_follows hf hp hx h0 h1 hA hB ?_
  unfold encode.bt2020_t
  by_cases h : x.val < (FP.lit 0.018 : FP f).val
  · left
    refine ⟨h.le, ?_⟩
    simp only [FP.flt_lit, hle, h, decide_true, if_true]
  · right
    refine ⟨not_lt.1 h, ?_⟩
    simp only [FP.flt_lit, hle, h, decide_false, if_false, Bool.false_eq_true]

theorem bt709_dec_follows (hf : Std f) (hp : PowAccurate f) {x : FP f} (hx : x.isFinite = true)
    (h0 : 0 ≤ x.val) (h1 : x.val ≤ 1) :
    Spec.Follows 0.081 (fun x => x / 4.5) (fun x => ((x + 0.099) / 1.099) ^ (1 / 0.45 : ℝ))
      (fun _ => 51 * f.u) x (decode.bt709_t x) := by
  have hA := (RelF.litE hf (q := 1.099) (by norm_num) (by norm_num)).congr (Y := 1.099) (by norm_num)
  have hB := ((RelF.litE hf (q := 0.099) (by norm_num) (by norm_num)).mono (n := 13) (by norm_num)).congr
    (Y := 0.099) (by norm_num)
  obtain ⟨s1, _⟩ := bt_threshold hf
  have hle : Flt.le x (FP.lit 0.018 * FP.lit 4.5) =
      decide (x.val ≤ (FP.lit 0.018 * FP.lit 4.5 : FP f).val) := by rw [FP.flt_le, FP.le_finite hx s1]
  refine bt_dec_follows hf hp hx h0 h1 hA hB ?_
  unfold decode.bt709_t
  by_cases h : x.val ≤ (FP.lit 0.018 * FP.lit 4.5 : FP f).val
  · left
    refine ⟨h, ?_⟩
    simp only [FP.flt_lit, hle, h, decide_true, if_true]
  · right
    refine ⟨(not_le.1 h).le, ?_⟩
    simp only [FP.flt_lit, hle, h, decide_false, if_false, Bool.false_eq_true]

theorem bt2020_dec_follows (hf : Std f) (hp : PowAccurate f) {x : FP f} (hx : x.isFinite = true)
    (h0 : 0 ≤ x.val) (h1 : x.val ≤ 1) :
    Spec.Follows 0.081 (fun x => x / 4.5) (fun x => ((x + 0.099) / 1.099) ^ (1 / 0.45 : ℝ))
      (fun _ => 51 * f.u) x (decode.bt2020_t x) := by
  have hA := (RelF.litE hf (q := 1.099) (by norm_num) (by norm_num)).congr (Y := 1.099) (by norm_num)
  have hB := bt2020_beta hf
  obtain ⟨s1, _⟩ := bt_threshold hf
  have hle : Flt.lt x (FP.lit 0.018 * FP.lit 4.5) =
      decide (x.val < (FP.lit 0.018 * FP.lit 4.5 : FP f).val) := by rw [FP.flt_lt, FP.lt_finite hx s1]
  refine bt_dec_follows hf hp hx h0 h1 hA hB ?_
  unfold decode.bt2020_t
  by_cases h : x.val < (FP.lit 0.018 * FP.lit 4.5 : FP f).val
  · left
    refine ⟨h.le, ?_⟩
    simp only [FP.flt_lit, hle, h, decide_true, if_true]
  · right
    refine ⟨not_lt.1 h, ?_⟩
    simp only [FP.flt_lit, hle, h, decide_false, if_false, Bool.false_eq_true]

/-! ### LogC -/

theorem logc_enc_follows (hf : Std f) (hl : LogAccurate f) {x : FP f} (hx : x.isFinite = true)
    (h0 : 0 ≤ x.val) (h1 : x.val ≤ 100) :
    Spec.Follows 0.010591 (fun x => 5.367655 * x + 0.092809)
      (fun x => 0.247190 * Real.logb 10 (5.555556 * x + 0.052272) + 0.385537)
      (fun _ => 13e-7) x (encode.alexa_logc_v3_t x) := by
  obtain ⟨u0, u1, _⟩ := u_facts hf
  have ht := thr_near hf (q := 0.010591) (by norm_num) (by norm_num)
  rw [show ((0.010591 : ℚ) : ℝ) = 0.010591 by norm_num] at ht
  have s1 := (AbsF.lit hf (q := 0.010591) (by norm_num) (by norm_num)).fin
  have x1 : (x.val : ℝ) ≤ 100 := by exact_mod_cast h1
  have x0 : (0:ℝ) ≤ x.val := by exact_mod_cast h0
  have hgt : Flt.gt x (FP.lit 0.010591) = decide ((FP.lit 0.010591 : FP f).val < x.val) := by
    show Flt.lt (FP.lit 0.010591) x = _
    rw [FP.flt_lt, FP.lt_finite s1 hx]
  unfold encode.alexa_logc_v3_t
  by_cases h : (FP.lit 0.010591 : FP f).val < x.val
  · have hr : ((FP.lit 0.010591 : FP f).val : ℝ) ≤ x.val := by exact_mod_cast h.le
    have a := logc_enc_log hf hl (AbsF.exact hx) (P := 5.555556 * x.val + 0.052272) rfl
      (by
        have := ht.1.trans hr
        norm_num at this u1 ⊢; linarith) (by norm_num; linarith) (by positivity)
    simp only [FP.flt_lit, hgt, h, decide_true, if_true]
    exact ⟨a.fin, Or.inr ⟨ht.1.trans hr, a.err.trans (by norm_num)⟩⟩
  · have hr : (x.val : ℝ) ≤ (FP.lit 0.010591 : FP f).val := by exact_mod_cast (not_lt.1 h)
    have a := logc_enc_lin hf (AbsF.exact hx)
      (by
        have := hr.trans ht.2
        rw [abs_of_nonneg x0]
        norm_num at this u1 ⊢; linarith) (by norm_num)
    simp only [FP.flt_lit, hgt, h, decide_false, if_false, Bool.false_eq_true]
    exact ⟨a.fin, Or.inl ⟨hr.trans ht.2, a.err.trans (by norm_num)⟩⟩

theorem logc_dec_follows (hf : Std f) (hp : PowAccurate f) {x : FP f} (hx : x.isFinite = true)
    (h0 : 0 ≤ x.val) (h1 : x.val ≤ 1) :
    Spec.Follows 0.149658 (fun t => (t - 0.092809) / 5.367655)
      (fun t => ((10:ℝ) ^ ((t - 0.385537) / 0.247190) - 0.052272) / 5.555556)
      (fun v => 3.6e-6 * (|v| + 0.01)) x (decode.alexa_logc_v3_t x) := by
  obtain ⟨u0, u1, _⟩ := u_facts hf
  have ht := thr_near hf (q := 0.149658) (by norm_num) (by norm_num)
  rw [show ((0.149658 : ℚ) : ℝ) = 0.149658 by norm_num] at ht
  have s1 := (AbsF.lit hf (q := 0.149658) (by norm_num) (by norm_num)).fin
  have x1 : (x.val : ℝ) ≤ 1 := by exact_mod_cast h1
  have x0 : (0:ℝ) ≤ x.val := by exact_mod_cast h0
  have hgt : Flt.gt x (FP.lit 0.149658) = decide ((FP.lit 0.149658 : FP f).val < x.val) := by
    show Flt.lt (FP.lit 0.149658) x = _
    rw [FP.flt_lt, FP.lt_finite s1 hx]
  unfold decode.alexa_logc_v3_t
  by_cases h : (FP.lit 0.149658 : FP f).val < x.val
  · have hr : ((FP.lit 0.149658 : FP f).val : ℝ) ≤ x.val := by exact_mod_cast h.le
    obtain ⟨p1, p2, a⟩ := logc_dec_log hf hp hx
      (by
        have := ht.1.trans hr
        norm_num at this u1 ⊢; linarith) x1 (P := (10:ℝ) ^ (((x.val : ℝ) - 0.385537) / 0.247190)) rfl
    simp only [FP.flt_lit, hgt, h, decide_true, if_true]
    refine ⟨a.fin, Or.inr ⟨ht.1.trans hr, a.err.trans ?_⟩⟩
    show _ ≤ 3.6e-6 * (|((10:ℝ) ^ (((x.val : ℝ) - 0.385537) / 0.247190) - 0.052272) / 5.555556| + 0.01)
    generalize (10:ℝ) ^ (((x.val : ℝ) - 0.385537) / 0.247190) = P at *
    have := le_abs_self ((P - 0.052272) / 5.555556)
    generalize |(P - 0.052272) / 5.555556| = w at *
    norm_num at this ⊢
    linarith
  · have hr : (x.val : ℝ) ≤ (FP.lit 0.149658 : FP f).val := by exact_mod_cast (not_lt.1 h)
    have a := logc_dec_lin hf hx x0 (by
        have := hr.trans ht.2
        norm_num at this u1 ⊢; linarith)
    simp only [FP.flt_lit, hgt, h, decide_false, if_false, Bool.false_eq_true]
    refine ⟨a.fin, Or.inl ⟨hr.trans ht.2, a.err.trans ?_⟩⟩
    show _ ≤ 3.6e-6 * (|((x.val : ℝ) - 0.092809) / 5.367655| + 0.01)
    have := abs_nonneg (((x.val : ℝ) - 0.092809) / 5.367655)
    generalize |((x.val : ℝ) - 0.092809) / 5.367655| = w at *
    norm_num
    linarith

/-! ### power laws -/

omit [Libm f] in
theorem power_of_rel (hf : Std f) {n k g : ℝ} {x a : FP f} (h : RelF n a ((x.val : ℝ) ^ g)) (hn : 0 ≤ n)
    (hn2 : n ≤ 100) (hk : 1.01 * n ≤ k) : Spec.FollowsPower g (k * f.u) x a := by
  obtain ⟨u0, u1, _⟩ := u_facts hf
  refine ⟨h.fin, ?_⟩
  obtain ⟨s1, s2⟩ := RelF.small hf (n := n) hn (by linarith)
  have e : n * kap f * (1 + n * kap f) ≤ n * kap f * (1 + 1 / 1000) :=
    mul_le_mul_of_nonneg_left (by linarith [s2.trans (by norm_num : _ ≤ (1:ℝ) / 1000)]) s1
  have e2 : n * kap f * (1 + 1 / 1000) ≤ 1.01 * n * f.u := by
    unfold kap
    have : (0:ℝ) ≤ n * f.u := by positivity
    norm_num; linarith
  have e3 := mul_le_mul_of_nonneg_right hk u0.le
  have h' := h.err.to_abs s1 (le_trans s2 (by norm_num))
  have p := h.err.pos
  rw [mul_comm (k * (f.u : ℝ))]
  exact h'.trans (mul_le_mul_of_nonneg_left (by linarith) p.le)

theorem gamma_follows (hf : Std f) (hp : PowAccurate f) {g : ℚ} (hg1 : 2 ≤ g) (hg2 : g ≤ 27 / 10)
    {y : FP f} (hy : y.isFinite = true) (h : y.val = 0 ∨ 1 / 2 ^ 17 ≤ y.val) (h1 : y.val ≤ 1) :
    Spec.FollowsPower (1 / g) (17 * f.u) y (Flt.powf y (FP.ofQ f false 1.0 / FP.ofQ f false g)) ∧
    Spec.FollowsPower g (37 * f.u) y (Flt.powf y (FP.ofQ f false g)) := by
  have g1 : (2:ℝ) ≤ g := by exact_mod_cast hg1
  have g2 : (g:ℝ) ≤ 27 / 10 := by qcast hg2
  have hgi : (1:ℝ) / g ≤ 1 / 2 := one_div_le_one_div_of_le (by norm_num) g1
  have hgi2 : (10:ℝ) / 27 ≤ 1 / g := by
    rw [le_div_iff₀ (by linarith)]; linarith
  have a0 := RelF.ofQ hf (q := g) (le_trans (by norm_num) hg1) (le_trans hg2 (by norm_num))
  have a2 := (RelF.ofQ_one (f := f)).div hf a0
    (by norm_num) (by norm_num) (by norm_num) (le_trans (by norm_num) hgi2) (le_trans hgi (by norm_num))
  rcases h with h | h
  · obtain ⟨z1, z2⟩ := hp.zero y _ hy a2.fin h (by exact_mod_cast a2.err.xpos)
    obtain ⟨z3, z4⟩ := hp.zero y _ hy a0.fin h (by exact_mod_cast a0.err.xpos)
    refine ⟨⟨z1, ?_⟩, ⟨z3, ?_⟩⟩
    · rw [z2, h, Rat.cast_zero, Real.zero_rpow (by positivity)]; simp
    · rw [z4, h, Rat.cast_zero, Real.zero_rpow (by positivity)]; simp
  · have hy0 : (0:ℝ) < y.val := by
      exact_mod_cast lt_of_lt_of_le (by positivity : (0:ℚ) < 1 / 2 ^ 17) h
    have h0r : (1:ℝ) / 2 ^ 17 ≤ y.val := by qcast h
    have h1r : (y.val : ℝ) ≤ 1 := by exact_mod_cast h1
    have hlog := abs_log_le (X := (y.val : ℝ)) 17 h0r (le_trans h1r (by norm_num))
    have a1 := (RelF.exact hy (by exact_mod_cast hy0)).powf hf hp a2 (N := 4 + 23.62 * (1 / g))
      (L := 17 * (6932 / 10000)) le_rfl (by norm_num) (by norm_num) (by norm_num)
      (le_trans (by norm_num) h0r) (by linarith) (by linarith) (by linarith) (by exact_mod_cast hlog)
      (by
        have : (17 * (6932 / 10000) + 1 / 1000) * ((0 + 1 + 1) * (1 + 1 / 1000)) ≤ (23.62 : ℝ) := by norm_num
        have := mul_le_mul_of_nonneg_right this (by linarith : (0:ℝ) ≤ 1 / g)
        linarith) (by norm_num at hgi ⊢; linarith)
    have a3 := (RelF.exact hy (by exact_mod_cast hy0)).powf hf hp a0 (N := 36)
      (L := 17 * (6932 / 10000)) le_rfl (by norm_num) (by norm_num) (by norm_num)
      (le_trans (by norm_num) h0r) (by linarith) (by linarith) (by linarith) (by exact_mod_cast hlog)
      (by norm_num at g2 ⊢; linarith) (by norm_num at g2 ⊢; linarith)
    exact ⟨power_of_rel hf a1 (by norm_num at hgi2 ⊢; linarith) (by norm_num at hgi ⊢; linarith)
      (by norm_num at hgi ⊢; linarith), power_of_rel hf a3 (by norm_num) (by norm_num) (by norm_num)⟩

/-! ### black -/

theorem black_div (hf : Std f) {x : FP f} {q : ℚ} (hx : x.isFinite = true) (h0 : x.val = 0) (hq1 : 1 ≤ q)
    (hq2 : q ≤ 16) : (x / FP.lit q : FP f).val = 0 := by
  have lp := RelF.litE hf (q := q) (le_trans (by norm_num) hq1) (le_trans hq2 (by norm_num))
  have l0 := lit_pos lp
  rw [(FP.div_finite' hx lp.fin l0.ne' (by rw [h0, zero_div, roundQ_zero]; simp)).2, h0,
    zero_div, roundQ_zero]

theorem black_mul (hf : Std f) {x : FP f} {q : ℚ} (hx : x.isFinite = true) (h0 : x.val = 0) (hq1 : 1 ≤ q)
    (hq2 : q ≤ 16) : (x * FP.lit q : FP f).val = 0 := by
  rw [lin_val hf hx h0.ge (by rw [h0]; norm_num) hq1 hq2, h0, MulZeroClass.zero_mul, roundQ_zero]

theorem black_all (hf : Std f) {x : FP f} (hx : x.isFinite = true) (h0 : x.val = 0) :
    (encode.srgb_t x).val = 0 ∧ (encode.bt709_t x).val = 0 ∧ (encode.bt2020_t x).val = 0 ∧
    (decode.srgb_t x).val = 0 ∧ (decode.bt709_t x).val = 0 ∧ (decode.bt2020_t x).val = 0 := by
  have lp : ∀ q : ℚ, 1 / 2 ^ 20 ≤ q → q ≤ 2 ^ 20 → (FP.lit q : FP f).isFinite = true ∧ 0 < (FP.lit q : FP f).val :=
    fun q h1 h2 => ⟨(RelF.litE hf h1 h2).fin, lit_pos (RelF.litE hf h1 h2)⟩
  obtain ⟨a1, a2⟩ := lp 0.0031308 (by norm_num) (by norm_num)
  obtain ⟨b1, b2⟩ := lp 0.018 (by norm_num) (by norm_num)
  obtain ⟨c1, c2⟩ := lp 0.040449936 (by norm_num) (by norm_num)
  obtain ⟨d1, d2, _⟩ := bt_threshold hf
  have d3 : 0 < (FP.lit 0.018 * FP.lit 4.5 : FP f).val := by
    have : (0:ℝ) < (FP.lit 0.018 * FP.lit 4.5 : FP f).val := lt_of_lt_of_le (by norm_num) d2
    exact_mod_cast this
  have m := fun q h1 h2 => black_mul hf (q := q) hx h0 h1 h2
  have d := fun q h1 h2 => black_div hf (q := q) hx h0 h1 h2
  unfold encode.srgb_t encode.bt709_t encode.bt2020_t decode.srgb_t decode.bt709_t decode.bt2020_t
  simp only [FP.flt_lit, FP.flt_le, FP.flt_lt, FP.le_finite hx a1, FP.le_finite hx b1, FP.lt_finite hx b1,
    FP.le_finite hx c1, FP.le_finite hx d1, FP.lt_finite hx d1, h0, a2.le, b2.le, b2, c2.le, d3.le, d3,
    decide_true, if_true]
  exact ⟨m _ (by norm_num) (by norm_num), m _ (by norm_num) (by norm_num), m _ (by norm_num) (by norm_num),
    d _ (by norm_num) (by norm_num), d _ (by norm_num) (by norm_num), d _ (by norm_num) (by norm_num)⟩


omit [Libm f] in
theorem Spec.Follows.upper {θ : ℝ} {lo hi k : ℝ → ℝ} {x r : FP f} (h : Spec.Follows θ lo hi k x r)
    (hx : θ * (1 + 4 * f.u) < x.val) : r.isFinite = true ∧ |(r.val : ℝ) - hi x.val| ≤ k (hi x.val) := by
  rcases h.2 with ⟨a, _⟩ | ⟨_, b⟩
  · exact absurd a (not_le.2 hx)
  · exact ⟨h.1, b⟩

end

/-! ## C99 -/

/-- C99 [F]: encoding a component of `[0,1]` (of `[0,100]` for LogC) follows the published curve: within 21
roundings for sRGB, 12 for BT.709 and BT.2020, and 13e-7 for LogC; the linear curve returns its argument. -/
theorem C99_encode {f : Fmt} (hf : Std f) [Libm f] (hp : PowAccurate f) (hl : LogAccurate f) (x : FP f)
    (hx : x.isFinite = true) (h0 : 0 ≤ x.val) :
    (x.val ≤ 1 →
      Spec.Follows 0.0031308 (fun x => 12.92 * x) (fun x => 1.055 * x ^ (1 / 2.4 : ℝ) - 0.055)
        (fun _ => 21 * f.u) x (encode.srgb_t x) ∧
      Spec.Follows 0.018 (fun x => 4.5 * x) (fun x => 1.099 * x ^ (0.45 : ℝ) - 0.099)
        (fun _ => 12 * f.u) x (encode.bt709_t x) ∧
      Spec.Follows 0.018 (fun x => 4.5 * x) (fun x => 1.099 * x ^ (0.45 : ℝ) - 0.099)
        (fun _ => 12 * f.u) x (encode.bt2020_t x)) ∧
    (x.val ≤ 100 →
      Spec.Follows 0.010591 (fun x => 5.367655 * x + 0.092809)
        (fun x => 0.247190 * Real.logb 10 (5.555556 * x + 0.052272) + 0.385537)
        (fun _ => 13e-7) x (encode.alexa_logc_v3_t x)) ∧
    encode.linear_t x = x :=
  ⟨fun h1 => ⟨srgb_enc_follows hf hp hx h0 h1, bt709_enc_follows hf hp hx h0 h1,
    bt2020_enc_follows hf hp hx h0 h1⟩, fun h1 => logc_enc_follows hf hl hx h0 h1, rfl⟩

/-- C99 [F]: decoding a component of `[0,1]` follows the published curve: within 22 roundings for sRGB, 51
for BT.709 and BT.2020, and 3.6e-6 of the result plus a hundredth for LogC. -/
theorem C99_decode {f : Fmt} (hf : Std f) [Libm f] (hp : PowAccurate f) (x : FP f)
    (hx : x.isFinite = true) (h0 : 0 ≤ x.val) (h1 : x.val ≤ 1) :
    Spec.Follows 0.040449936 (fun x => x / 12.92) (fun x => ((x + 0.055) / 1.055) ^ (2.4 : ℝ))
      (fun _ => 22 * f.u) x (decode.srgb_t x) ∧
    Spec.Follows 0.081 (fun x => x / 4.5) (fun x => ((x + 0.099) / 1.099) ^ (1 / 0.45 : ℝ))
      (fun _ => 51 * f.u) x (decode.bt709_t x) ∧
    Spec.Follows 0.081 (fun x => x / 4.5) (fun x => ((x + 0.099) / 1.099) ^ (1 / 0.45 : ℝ))
      (fun _ => 51 * f.u) x (decode.bt2020_t x) ∧
    Spec.Follows 0.149658 (fun t => (t - 0.092809) / 5.367655)
      (fun t => ((10:ℝ) ^ ((t - 0.385537) / 0.247190) - 0.052272) / 5.555556)
      (fun v => 3.6e-6 * (|v| + 0.01)) x (decode.alexa_logc_v3_t x) ∧
    decode.linear_t x = x :=
  ⟨srgb_dec_follows hf hp hx h0 h1, bt709_dec_follows hf hp hx h0 h1, bt2020_dec_follows hf hp hx h0 h1,
    logc_dec_follows hf hp hx h0 h1, rfl⟩

/-- C99 [F]: the colours of the spaces with a power law (Adobe RGB, DCI-P3, DCI-P3 with D65) are encoded with
the published power within 17 roundings of each component and decoded within 37. -/
theorem C99_power {f : Fmt} (hb : f = Fmt.b32 ∨ f = Fmt.b64) [Libm f] (hp : PowAccurate f) :
    ∀ e ∈ [(Except.ok (Shipped.adobeRgb1998 (FP.ofQ f false)), (563 / 256 : ℝ)),
      (Shipped.dciP3 (FP.ofQ f false), 2.6), (Shipped.dciP3D65 (FP.ofQ f false), 2.6)],
    ∃ cs, e.1 = .ok cs ∧ ∀ c, Spec.LinearLight c → ∀ i,
      Spec.FollowsPower (1 / e.2) (17 * f.u) (rgbVec c i) (rgbVec (cs.encode c) i) ∧
      Spec.FollowsPower e.2 (37 * f.u) (rgbVec c i) (rgbVec (cs.decode c) i) := by
  have hf : Std f := by rcases hb with rfl | rfl; exacts [std_b32, std_b64]
  have ex : ∀ r, r ∈ Spec.gapless f ∨ r ∈ Spec.gapped f → ∃ cs, r = .ok cs := by
    rcases hb with rfl | rfl
    exacts [fun r => exists32, fun r => exists64]
  have gm : ∀ (g : ℚ) (G : ℝ) (cs : ColorSpaceRGB (FP f)), 2 ≤ g → g ≤ 27 / 10 → (g : ℝ) = G →
      cs.oetf = (fun c => c.powf (FP.ofQ f false 1.0 / FP.ofQ f false g)) →
      cs.eotf = (fun c => c.powf (FP.ofQ f false g)) → ∀ c, Spec.LinearLight c → ∀ i,
      Spec.FollowsPower (1 / G) (17 * f.u) (rgbVec c i) (rgbVec (cs.encode c) i) ∧
      Spec.FollowsPower G (37 * f.u) (rgbVec c i) (rgbVec (cs.decode c) i) := by
    intro g G cs g1 g2 hG h1 h2 c hc i
    unfold ColorSpaceRGB.encode ColorSpaceRGB.decode
    rw [h1, h2, ← hG]
    have := gamma_follows hf hp g1 g2 (hc i).1 (hc i).2.1 (hc i).2.2
    fin_cases i <;> exact this
  intro e he
  simp only [List.mem_cons, List.not_mem_nil, or_false] at he
  rcases he with rfl | rfl | rfl
  · exact ⟨_, rfl, gm 2.19921875 _ _ (by norm_num) (by norm_num) (by norm_num) rfl rfl⟩
  · obtain ⟨cs, e⟩ := ex (Shipped.dciP3 (FP.ofQ f false)) (.inl (by simp [Spec.gapless]))
    obtain ⟨a, b⟩ := new_curves e
    exact ⟨cs, e, gm 2.6 _ _ (by norm_num) (by norm_num) (by norm_num) a b⟩
  · obtain ⟨cs, e⟩ := ex (Shipped.dciP3D65 (FP.ofQ f false)) (.inl (by simp [Spec.gapless]))
    obtain ⟨a, b⟩ := new_curves e
    exact ⟨cs, e, gm 2.6 _ _ (by norm_num) (by norm_num) (by norm_num) a b⟩

/-- C99 [F]: sRGB, BT.709 and BT.2020 encode and decode black as black exactly, and white as white to
within 51 roundings. -/
theorem C99_black_white {f : Fmt} (hf : Std f) [Libm f] (hp : PowAccurate f) :
    ∀ curve ∈ [encode.srgb_t, encode.bt709_t, encode.bt2020_t, decode.srgb_t, decode.bt709_t, decode.bt2020_t],
      (∀ x : FP f, x.isFinite = true → x.val = 0 → (curve x).isFinite = true ∧ (curve x).val = 0) ∧
      (∀ x : FP f, x.isFinite = true → x.val = 1 →
        (curve x).isFinite = true ∧ |((curve x).val : ℝ) - 1| ≤ 51 * f.u) := by
  obtain ⟨u0, u1, _⟩ := u_facts hf
  have key : ∀ {θ k : ℝ} {lo hi : ℝ → ℝ} {r x : FP f}, x.val = 1 → θ ≤ 0.081 → hi 1 = 1 → k ≤ 51 * f.u →
      Spec.Follows θ lo hi (fun _ => k) x r → r.isFinite = true ∧ |(r.val : ℝ) - 1| ≤ 51 * f.u := by
    intro θ k lo hi r x hx ht hh hk h
    have := h.upper (by
      rw [hx, Rat.cast_one]
      have : θ * (1 + 4 * f.u) ≤ 0.081 * (1 + 4 * f.u) := mul_le_mul_of_nonneg_right ht (by positivity)
      refine lt_of_le_of_lt this ?_
      norm_num at u1 ⊢; linarith)
    rw [hx, Rat.cast_one, hh] at this
    exact ⟨this.1, this.2.trans hk⟩
  intro curve hc
  simp only [List.mem_cons, List.not_mem_nil, or_false] at hc
  rcases hc with rfl | rfl | rfl | rfl | rfl | rfl
  · exact ⟨fun x hx h => ⟨(srgb_enc_follows hf hp hx h.ge (by rw [h]; norm_num)).1, (black_all hf hx h).1⟩,
      fun x hx h => key h (by norm_num) (by norm_num) (by linarith)
        (srgb_enc_follows hf hp hx (by rw [h]; norm_num) h.le)⟩
  · exact ⟨fun x hx h => ⟨(bt709_enc_follows hf hp hx h.ge (by rw [h]; norm_num)).1, (black_all hf hx h).2.1⟩,
      fun x hx h => key h (by norm_num) (by norm_num) (by linarith)
        (bt709_enc_follows hf hp hx (by rw [h]; norm_num) h.le)⟩
  · exact ⟨fun x hx h => ⟨(bt2020_enc_follows hf hp hx h.ge (by rw [h]; norm_num)).1, (black_all hf hx h).2.2.1⟩,
      fun x hx h => key h (by norm_num) (by norm_num) (by linarith)
        (bt2020_enc_follows hf hp hx (by rw [h]; norm_num) h.le)⟩
  · exact ⟨fun x hx h => ⟨(srgb_dec_follows hf hp hx h.ge (by rw [h]; norm_num)).1, (black_all hf hx h).2.2.2.1⟩,
      fun x hx h => key h (by norm_num) (by norm_num) (by linarith)
        (srgb_dec_follows hf hp hx (by rw [h]; norm_num) h.le)⟩
  · exact ⟨fun x hx h => ⟨(bt709_dec_follows hf hp hx h.ge (by rw [h]; norm_num)).1, (black_all hf hx h).2.2.2.2.1⟩,
      fun x hx h => key h (by norm_num) (by norm_num) (by linarith)
        (bt709_dec_follows hf hp hx (by rw [h]; norm_num) h.le)⟩
  · exact ⟨fun x hx h => ⟨(bt2020_dec_follows hf hp hx h.ge (by rw [h]; norm_num)).1, (black_all hf hx h).2.2.2.2.2⟩,
      fun x hx h => key h (by norm_num) (by norm_num) (by linarith)
        (bt2020_dec_follows hf hp hx (by rw [h]; norm_num) h.le)⟩

/-- Not vacuous: a library meeting the assumptions exists, and a component on each side of every threshold. -/
example : (@PowAccurate Fmt.b32 (idealLibm Fmt.b32) ∧ @LogAccurate Fmt.b32 (idealLibm Fmt.b32)) ∧
    (0 < (FP.ofQ Fmt.b32 false (1 / 1024)).val ∧ (FP.ofQ Fmt.b32 false (1 / 1024)).val ≤ 0.003) ∧
    (0.15 < (FP.ofQ Fmt.b32 false (1 / 4)).val ∧ (FP.ofQ Fmt.b32 false (1 / 4)).val ≤ 1) :=
  ⟨⟨ideal_pow std_b32, ideal_log std_b32⟩, of_decide_eq_true (by krefl), of_decide_eq_true (by krefl)⟩

end CS

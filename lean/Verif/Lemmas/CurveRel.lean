import Verif.Props.Through

/-!
# Encoding a value relatively close to a decoded one
-/

namespace CS

/-- a power with exponent in `[0,1]` does not magnify relative errors -/
theorem rpow_rel {x D e p : ℝ} (hD : 0 < D) (he : e < 1) (hp0 : 0 ≤ p) (hp1 : p ≤ 1) (h : |x - D| ≤ e * D) :
    |x ^ p - D ^ p| ≤ e * D ^ p := by
  obtain ⟨h1, h2⟩ := abs_le.1 h
  have e0 : 0 ≤ e := by
    by_contra hc
    push Not at hc
    have := (abs_nonneg _).trans h
    nlinarith
  have hx : 0 < x := by nlinarith
  set r := x / D with hr
  have hr0 : 0 < r := div_pos hx hD
  have hxr : x = D * r := by rw [hr]; field_simp
  have r1 : 1 - e ≤ r := by rw [hr, le_div_iff₀ hD]; linarith
  have r2 : r ≤ 1 + e := by rw [hr, div_le_iff₀ hD]; linarith
  have hDp : 0 < D ^ p := Real.rpow_pos_of_pos hD p
  have hxp : x ^ p = D ^ p * r ^ p := by rw [hxr, Real.mul_rpow hD.le hr0.le]
  have key : 1 - e ≤ r ^ p ∧ r ^ p ≤ 1 + e := by
    rcases le_total 1 r with h | h
    · have a := Real.one_le_rpow h hp0
      have b := Real.rpow_le_rpow_of_exponent_le h hp1
      rw [Real.rpow_one] at b
      exact ⟨by linarith, by linarith⟩
    · have a := Real.rpow_le_one hr0.le h hp0
      have b := Real.rpow_le_rpow_of_exponent_ge hr0 h hp1
      rw [Real.rpow_one] at b
      exact ⟨by linarith, by linarith⟩
  rw [hxp, show D ^ p * r ^ p - D ^ p = D ^ p * (r ^ p - 1) by ring, abs_mul, abs_of_pos hDp, mul_comm e]
  refine mul_le_mul_of_nonneg_left ?_ hDp.le
  rw [abs_le]
  constructor <;> linarith [key.1, key.2]

/-- decoding a component of `[0,1]` gives 0 or something in `[2^-90, 1.00001]`; decoding 0 gives 0; decoding 1 gives 1 up to 1e-5; and
encoding something within the fraction `ε` of the decoded component gives the component to within `κ` -/
structure CurveRel {f : Fmt} (ε κ : ℝ) (enc dec : FP f → FP f) : Prop where
  low : ∀ y : FP f, y.isFinite = true → 0 ≤ y.val → y.val ≤ 1 → (y.val = 0 ∨ 1 / 2 ^ 9 ≤ y.val) →
    (dec y).isFinite = true ∧ (dec y).val ≤ 1.00001 ∧ ((dec y).val = 0 ∨ 1 / 2 ^ 90 ≤ (dec y).val)
  zero : ∀ y : FP f, y.isFinite = true → y.val = 0 → (dec y).val = 0
  one : ∀ y : FP f, y.isFinite = true → y.val = 1 → |((dec y).val : ℝ) - 1| ≤ 1 / 10 ^ 5
  close : ∀ y x : FP f, y.isFinite = true → 0 ≤ y.val → y.val ≤ 1 → (y.val = 0 ∨ 1 / 2 ^ 9 ≤ y.val) →
    x.isFinite = true → |(x.val : ℝ) - (dec y).val| ≤ ε * (dec y).val →
    (enc x).isFinite = true ∧ |((enc x).val : ℝ) - y.val| ≤ κ

section
variable {f : Fmt} [Libm f]

/-! ### power curves -/

theorem gamma_dec (hf : Std f) (hp : PowAccurate f) {g : ℚ} (hg1 : 2 ≤ g) (hg2 : g ≤ 27 / 10)
    {y : FP f} (hy : y.isFinite = true) (h0 : 1 / 2 ^ 17 ≤ y.val) (h1 : y.val ≤ 1) :
    (Flt.powf y (FP.ofQ f false g)).isFinite = true ∧
    |((Flt.powf y (FP.ofQ f false g)).val : ℝ) - (y.val : ℝ) ^ (g : ℝ)| ≤ 1 / 10 ^ 5 * (y.val : ℝ) ^ (g : ℝ) ∧
    (1:ℝ) / 2 ^ 51 ≤ (y.val : ℝ) ^ (g:ℝ) ∧ (y.val : ℝ) ^ (g:ℝ) ≤ 1 := by
  have hy0 : (0:ℝ) < y.val := by
    exact_mod_cast lt_of_lt_of_le (by positivity : (0:ℚ) < 1 / 2 ^ 17) h0
  have h0r : (1:ℝ) / 2 ^ 17 ≤ y.val := by qcast h0
  have h1r : (y.val : ℝ) ≤ 1 := by exact_mod_cast h1
  have g1 : (2:ℝ) ≤ g := by exact_mod_cast hg1
  have g2 : (g:ℝ) ≤ 27 / 10 := by qcast hg2
  have hlog := abs_log_le (X := (y.val : ℝ)) 17 h0r (le_trans h1r (by norm_num))
  have a1 := (RelF.exact hy (by exact_mod_cast hy0)).powf hf hp
    (RelF.ofQ hf (q := g) (le_trans (by norm_num) hg1) (le_trans hg2 (by norm_num))) (N := 36)
    (L := 17 * (6932 / 10000)) le_rfl (by norm_num) (by norm_num) (by norm_num)
    (le_trans (by norm_num) h0r) (by linarith) (by linarith) (by linarith) (by exact_mod_cast hlog)
    (by norm_num; linarith) (by norm_num; linarith)
  have hX1 : (1:ℝ) / 2 ^ 51 ≤ (y.val : ℝ) ^ (g:ℝ) := by
    calc (1:ℝ) / 2 ^ 51 = (1 / 2 ^ 17) ^ (3:ℝ) := by
          rw [show (3:ℝ) = ((3:ℕ):ℝ) by norm_num, Real.rpow_natCast]; norm_num
      _ ≤ (y.val : ℝ) ^ (3:ℝ) := Real.rpow_le_rpow (by positivity) h0r (by norm_num)
      _ ≤ _ := Real.rpow_le_rpow_of_exponent_ge hy0 h1r (by linarith)
  have hX2 : (y.val : ℝ) ^ (g:ℝ) ≤ 1 := Real.rpow_le_one hy0.le h1r (by linarith)
  refine ⟨a1.fin, ?_, hX1, hX2⟩
  obtain ⟨s1, s2⟩ := RelF.small hf (n := 36) (by norm_num) (by norm_num)
  refine (a1.err.to_abs s1 (le_trans s2 (by norm_num))).trans ?_
  rw [mul_comm]
  refine mul_le_mul_of_nonneg_right ?_ (le_trans (by positivity) hX1)
  obtain ⟨u1, u2, _⟩ := u_tiny hf
  have : 36 * kap f ≤ 1 / 200000 := by unfold kap; norm_num at u1 ⊢; linarith
  have h' := kap_pos f
  nlinarith

theorem gamma_enc (hf : Std f) (hp : PowAccurate f) {g : ℚ} (hg1 : 2 ≤ g) (hg2 : g ≤ 27 / 10)
    {x : FP f} (hx : x.isFinite = true) (h0 : (1:ℝ) / 2 ^ 52 ≤ x.val) (h1 : (x.val : ℝ) ≤ 1.01) :
    (Flt.powf x (FP.ofQ f false 1.0 / FP.ofQ f false g)).isFinite = true ∧
    |((Flt.powf x (FP.ofQ f false 1.0 / FP.ofQ f false g)).val : ℝ) - (x.val : ℝ) ^ (1 / (g : ℝ))| ≤ 1 / 10 ^ 5 := by
  have hx0 : (0:ℝ) < x.val := lt_of_lt_of_le (by positivity) h0
  have g1 : (2:ℝ) ≤ g := by exact_mod_cast hg1
  have g2 : (g:ℝ) ≤ 27 / 10 := by qcast hg2
  have hgi : (1:ℝ) / g ≤ 1 / 2 := one_div_le_one_div_of_le (by norm_num) g1
  have hgi2 : (10:ℝ) / 27 ≤ 1 / g := by
    rw [le_div_iff₀ (by linarith)]; linarith
  have a2 := (RelF.ofQ_one (f := f)).div hf
    (RelF.ofQ hf (q := g) (le_trans (by norm_num) hg1) (le_trans hg2 (by norm_num)))
    (by norm_num) (by norm_num) (by norm_num) (le_trans (by norm_num) hgi2) (le_trans hgi (by norm_num))
  have hlog := abs_log_le (X := (x.val : ℝ)) 52 h0 (le_trans h1 (by norm_num))
  have a3 := (RelF.exact hx (by exact_mod_cast hx0)).powf hf hp a2 (N := 50)
    (L := 52 * (6932 / 10000)) le_rfl (by norm_num) (by norm_num) (by norm_num)
    (le_trans (by norm_num) h0) (by norm_num at h1 ⊢; linarith) (by linarith) (by linarith)
    (by exact_mod_cast hlog) (by norm_num; norm_num at hgi; linarith) (by norm_num; norm_num at hgi; linarith)
  refine ⟨a3.fin, ?_⟩
  obtain ⟨s1, s2⟩ := RelF.small hf (n := 50) (by norm_num) (by norm_num)
  refine (a3.err.to_abs s1 (le_trans s2 (by norm_num))).trans ?_
  have hP : (x.val : ℝ) ^ (1 / (g:ℝ)) ≤ 1.01 := by
    rcases le_total (x.val : ℝ) 1 with h | h
    · exact le_trans (Real.rpow_le_one hx0.le h (by linarith)) (by norm_num)
    · refine le_trans ?_ h1
      calc _ ≤ (x.val : ℝ) ^ (1 : ℝ) := Real.rpow_le_rpow_of_exponent_le h (by linarith)
        _ = _ := Real.rpow_one _
  obtain ⟨u1, u2, _⟩ := u_tiny hf
  have hk : 50 * kap f * (1 + 50 * kap f) ≤ 1 / 150000 := by
    have : 50 * kap f ≤ 1 / 200000 := by unfold kap; norm_num at u1 ⊢; linarith
    have h' := kap_pos f
    nlinarith
  have h' := kap_pos f
  calc _ ≤ 1.01 * (1 / 150000 : ℝ) := mul_le_mul hP hk (by positivity) (by norm_num)
    _ ≤ _ := by norm_num

theorem gamma_rel (hf : Std f) (hp : PowAccurate f) {g : ℚ} (hg1 : 2 ≤ g) (hg2 : g ≤ 27 / 10) {ε : ℝ}
    (hε : ε ≤ 1 / 2500) :
    CurveRel ε (1 / 600) (fun x : FP f => Flt.powf x (FP.ofQ f false 1.0 / FP.ofQ f false g))
      (fun y => Flt.powf y (FP.ofQ f false g)) := by
  have a0 := RelF.ofQ hf (q := g) (le_trans (by norm_num) hg1) (le_trans hg2 (by norm_num))
  have gpos : 0 < (FP.ofQ f false g).val := by have := a0.err.xpos; exact_mod_cast this
  refine ⟨fun y hy h0 h1 h => ?_, fun y hy h => (hp.zero y _ hy a0.fin h gpos).2, fun y hy h1 => ?_,
    fun y x hy h0 h1 h hx hd => ?_⟩
  · rcases h with h | h
    · obtain ⟨b1, b2⟩ := hp.zero y _ hy a0.fin h gpos
      exact ⟨b1, by rw [b2]; norm_num, Or.inl b2⟩
    · obtain ⟨a, b, c, d⟩ := gamma_dec hf hp hg1 hg2 hy (le_trans (by norm_num) h) h1
      obtain ⟨b1, b2⟩ := abs_le.1 b
      refine ⟨a, ?_, Or.inr ?_⟩
      · have : ((Flt.powf y (FP.ofQ f false g)).val : ℝ) ≤ ((1.00001 : ℚ) : ℝ) := by
          norm_num at b2 ⊢; linarith
        exact_mod_cast this
      · have : (((1 / 2 ^ 90 : ℚ)) : ℝ) ≤ ((Flt.powf y (FP.ofQ f false g)).val : ℝ) := by
          norm_num at b1 c ⊢; linarith
        exact_mod_cast this
  · obtain ⟨a, b, c, d⟩ := gamma_dec hf hp hg1 hg2 hy (by rw [h1]; norm_num) h1.le
    rw [h1] at b
    simpa using b
  · rcases h with h | h
    · obtain ⟨b1, b2⟩ := hp.zero y _ hy a0.fin h gpos
      have hx0 : x.val = 0 := by
        rw [b2] at hd
        have : |(x.val : ℝ)| ≤ 0 := by simpa using hd
        have := abs_nonpos_iff.1 this
        exact_mod_cast this
      have g1 : (2:ℝ) ≤ g := by exact_mod_cast hg1
      have g2 : (g:ℝ) ≤ 27 / 10 := by qcast hg2
      have hgi : (1:ℝ) / g ≤ 1 / 2 := one_div_le_one_div_of_le (by norm_num) g1
      have hgi2 : (10:ℝ) / 27 ≤ 1 / g := by
        rw [le_div_iff₀ (by linarith)]; linarith
      have a2 := (RelF.ofQ_one (f := f)).div hf a0
        (by norm_num) (by norm_num) (by norm_num) (le_trans (by norm_num) hgi2) (le_trans hgi (by norm_num))
      obtain ⟨c1, c2⟩ := hp.zero x _ hx a2.fin hx0 (by have := a2.err.xpos; exact_mod_cast this)
      exact ⟨c1, by rw [c2, h]; norm_num⟩
    · obtain ⟨a, b, c, d⟩ := gamma_dec hf hp hg1 hg2 hy (le_trans (by norm_num) h) h1
      have hy0 : (0:ℝ) < y.val := by
        exact_mod_cast lt_of_lt_of_le (by positivity : (0:ℚ) < 1 / 2 ^ 9) h
      have h1r : (y.val : ℝ) ≤ 1 := by exact_mod_cast h1
      have g1 : (2:ℝ) ≤ g := by exact_mod_cast hg1
      have hback : ((y.val : ℝ) ^ (g:ℝ)) ^ (1 / (g:ℝ)) = y.val := by
        rw [← Real.rpow_mul hy0.le, mul_one_div_cancel (by linarith), Real.rpow_one]
      set D := (y.val : ℝ) ^ (g:ℝ) with hD
      have hD0 : 0 < D := lt_of_lt_of_le (by positivity) c
      obtain ⟨b1, b2⟩ := abs_le.1 b
      have hxD : |(x.val : ℝ) - D| ≤ 9 / 20000 * D := by
        have h2 := abs_add_le ((x.val : ℝ) - (Flt.powf y (FP.ofQ f false g)).val)
          ((Flt.powf y (FP.ofQ f false g)).val - D)
        rw [sub_add_sub_cancel] at h2
        have h3 : ε * ((Flt.powf y (FP.ofQ f false g)).val : ℝ) ≤ 1 / 2500 * (1.00001 * D) :=
          mul_le_mul hε (by norm_num at b2 ⊢; linarith) (by norm_num at b1; linarith) (by norm_num)
        norm_num at h3 b hd ⊢
        linarith
      obtain ⟨k1, k2⟩ := abs_le.1 hxD
      obtain ⟨e1, e2⟩ := gamma_enc hf hp hg1 hg2 hx (by norm_num at c k1 ⊢; linarith)
        (by norm_num at d k2 ⊢; linarith)
      refine ⟨e1, ?_⟩
      have hr := rpow_rel hD0 (by norm_num) (p := 1 / (g:ℝ)) (by positivity) (by
        rw [div_le_one (by linarith)]; linarith) hxD
      rw [hback] at hr
      have h2 := abs_add_le (((Flt.powf x (FP.ofQ f false 1.0 / FP.ofQ f false g)).val : ℝ) -
        (x.val : ℝ) ^ (1 / (g:ℝ))) ((x.val : ℝ) ^ (1 / (g:ℝ)) - y.val)
      rw [sub_add_sub_cancel] at h2
      norm_num at e2 hr h2 ⊢
      linarith

/-! ### sRGB -/

theorem div_zero_val {y c : FP f} (hy : y.isFinite = true) (h : y.val = 0) (hc : c.isFinite = true) (h0 : c.val ≠ 0) :
    (y / c).val = 0 := by
  rw [FP.div_finite_eq hy hc h0, h, zero_div]
  rw [FP.ofQ_zero]
  exact (FP.isZero_zeroOf _).2

theorem srgb_rel (hf : Std f) (hp : PowAccurate f) {ε : ℝ} (hε0 : 0 ≤ ε) (hε : ε ≤ 1 / 2500) :
    CurveRel (f := f) ε (1 / 600) encode.srgb_t decode.srgb_t := by
  obtain ⟨hu, hu0, _⟩ := u_tiny hf
  obtain ⟨l1, l2, l3⟩ := lit_between hf (q := 0.040449936) (lo := 0.0404) (hi := 0.0405) (by norm_num)
    (by norm_num) (by norm_num) (by norm_num)
  obtain ⟨m1, m2, m3⟩ := lit_between hf (q := 0.0031308) (lo := 0.0031) (hi := 0.0032) (by norm_num)
    (by norm_num) (by norm_num) (by norm_num)
  have h12 := RelF.litE hf (q := 12.92) (by norm_num) (by norm_num)
  -- on the power branch
  have pw : ∀ y : FP f, y.isFinite = true → (FP.lit 0.040449936 : FP f).val < y.val → y.val ≤ 1 →
      |((decode.srgb_t y).val : ℝ) - (((y.val : ℝ) + 0.055) / 1.055) ^ (2.4 : ℝ)| ≤
        1 / 10 ^ 5 * (((y.val : ℝ) + 0.055) / 1.055) ^ (2.4 : ℝ) ∧
      0 < (((y.val : ℝ) + 0.055) / 1.055) ^ (2.4 : ℝ) := by
    intro y hy h h1
    have hD := srgb_dec_pow hf hp hy h h1
    obtain ⟨sm0, sm1⟩ := RelF.small hf (n := 21) (by norm_num) (by norm_num)
    refine ⟨(hD.err.to_abs sm0 (le_trans sm1 (by norm_num))).trans ?_, hD.err.pos⟩
    rw [mul_comm]
    refine mul_le_mul_of_nonneg_right ?_ hD.err.pos.le
    have : 21 * kap f ≤ 1 / 200000 := by unfold kap; norm_num at hu ⊢; linarith
    have h' := kap_pos f
    nlinarith
  have zr : ∀ y : FP f, y.isFinite = true → y.val = 0 → (decode.srgb_t y).val = 0 := by
    intro y hy h
    have l0 : (0:ℝ) ≤ (FP.lit 0.040449936 : FP f).val := le_trans (by norm_num) l2
    obtain ⟨e, a1, a2, a3⟩ := srgb_dec_lin hf hy h.ge (by rw [h]; exact_mod_cast l0)
    rw [e]
    refine div_zero_val hy h h12.fin ?_
    have := h12.err.xpos
    have : 0 < (FP.lit 12.92 : FP f).val := by exact_mod_cast this
    exact this.ne'
  refine ⟨fun y hy h0 h1 h => ?_, zr, fun y hy h1 => ?_, fun y x hy h0 h1 h hx hd => ?_⟩
  · obtain ⟨a, b⟩ := srgb_dec_bound hf hp hy h0 h1
    refine ⟨a, ?_, ?_⟩
    · have : ((decode.srgb_t y).val : ℝ) ≤ ((1.00001 : ℚ) : ℝ) := by
        have := (abs_le.1 b).2
        norm_num at this ⊢; linarith
      exact_mod_cast this
    · rcases le_or_gt y.val (FP.lit 0.040449936 : FP f).val with h' | h'
      · obtain ⟨e, a1, a2, a3⟩ := srgb_dec_lin hf hy h0 h'
        rcases h with h | h
        · exact .inl (zr y hy h)
        · right
          have hr : (1:ℝ) / 2 ^ 9 ≤ y.val := by qcast h
          have := (abs_le.1 a3).1
          have : (((1 / 2 ^ 90 : ℚ)) : ℝ) ≤ ((decode.srgb_t y).val : ℝ) := by
            norm_num at this hu hr ⊢; linarith
          exact_mod_cast this
      · right
        obtain ⟨b1, b2⟩ := pw y hy h' h1
        have hyr : (0.040449936:ℝ) - 1 / 1000 ≤ y.val := by
          have : ((FP.lit 0.040449936 : FP f).val : ℝ) ≤ y.val := by exact_mod_cast h'.le
          norm_num at l2 ⊢; linarith
        have low : (1:ℝ) / 2 ^ 12 ≤ (((y.val : ℝ) + 0.055) / 1.055) ^ (2.4 : ℝ) := by
          calc (1:ℝ) / 2 ^ 12 = (1 / 2 ^ 4) ^ (3:ℝ) := by
                rw [show (3:ℝ) = ((3:ℕ):ℝ) by norm_num, Real.rpow_natCast]; norm_num
            _ ≤ (1 / 2 ^ 4) ^ (2.4:ℝ) :=
                Real.rpow_le_rpow_of_exponent_ge (by norm_num) (by norm_num) (by norm_num)
            _ ≤ _ := Real.rpow_le_rpow (by norm_num) (by norm_num at hyr ⊢; linarith) (by norm_num)
        have b1 := (abs_le.1 b1).1
        have : (((1 / 2 ^ 90 : ℚ)) : ℝ) ≤ ((decode.srgb_t y).val : ℝ) := by
          norm_num at b1 low ⊢; linarith
        exact_mod_cast this
  · have h' : (FP.lit 0.040449936 : FP f).val < y.val := by
      have : ((FP.lit 0.040449936 : FP f).val : ℝ) < y.val := by rw [h1]; norm_num at l3 ⊢; linarith
      exact_mod_cast this
    obtain ⟨b1, b2⟩ := pw y hy h' h1.le
    rw [h1] at b1
    norm_num at b1 ⊢
    exact b1
  · have hdn : 0 ≤ ε * ((decode.srgb_t y).val : ℝ) := (abs_nonneg _).trans hd
    have up := (abs_le.1 (srgb_dec_bound hf hp hy h0 h1).2).2
    rcases le_or_gt ((decode.srgb_t y).val : ℝ) 0.2 with hl | hl
    · have hδ : ε * ((decode.srgb_t y).val : ℝ) ≤ 1 / 12500 := by
        rcases le_or_gt 0 ((decode.srgb_t y).val : ℝ) with hn | hn
        · calc _ ≤ (1 / 2500 : ℝ) * 0.2 := mul_le_mul hε hl hn (by norm_num)
            _ = _ := by norm_num
        · nlinarith
      obtain ⟨a, b⟩ := srgb_close hf hp hy h0 h1 hx (hδ.trans (by norm_num)) hd
      refine ⟨a, b.trans ?_⟩
      norm_num at hu hδ ⊢; linarith
    · rcases le_or_gt y.val (FP.lit 0.040449936 : FP f).val with h' | h'
      · exfalso
        obtain ⟨e, a1, a2, a3⟩ := srgb_dec_lin hf hy h0 h'
        have h3 := (abs_le.1 a3).2
        have : (y.val : ℝ) ≤ (FP.lit 0.040449936 : FP f).val := by exact_mod_cast h'
        norm_num at h3 l3 hl hu
        linarith
      · obtain ⟨b1, b2⟩ := pw y hy h' h1
        have hin := srgb_inner (y := (y.val : ℝ)) (by exact_mod_cast h0)
        generalize (((y.val : ℝ) + 0.055) / 1.055) ^ (2.4 : ℝ) = D at *
        obtain ⟨c1, c2⟩ := abs_le.1 b1
        have hxD : |(x.val : ℝ) - D| ≤ 9 / 20000 * D := by
          have h2 := abs_add_le ((x.val : ℝ) - (decode.srgb_t y).val) ((decode.srgb_t y).val - D)
          rw [sub_add_sub_cancel] at h2
          have h3 : ε * ((decode.srgb_t y).val : ℝ) ≤ 1 / 2500 * (1.00001 * D) :=
            mul_le_mul hε (by norm_num at c2 ⊢; linarith) (by norm_num at hl; linarith) (by norm_num)
          norm_num at h3 b1 hd ⊢
          linarith
        obtain ⟨k1, k2⟩ := abs_le.1 hxD
        have hD1 : D ≤ 1.0001 := by norm_num at c1 up ⊢; linarith
        have hDl : 0.19 ≤ D := by norm_num at c2 hl ⊢; linarith
        obtain ⟨e1, e2⟩ := srgb_enc_abs hf hp hx (by
            have : ((FP.lit 0.0031308 : FP f).val : ℝ) < x.val := by
              have : ((FP.lit 0.0031308 : FP f).val : ℝ) ≤ 1 / 100 := m3.trans (by norm_num)
              norm_num at k1 hDl
              linarith
            exact_mod_cast this)
          (by
            have : (x.val : ℝ) ≤ ((7 / 5 : ℚ) : ℝ) := by norm_num at k2 hD1 ⊢; linarith
            exact_mod_cast this)
        refine ⟨e1, ?_⟩
        have hr := rpow_rel b2 (by norm_num) (p := (1 / 2.4 : ℝ)) (by positivity) (by norm_num) hxD
        have hP : 1.055 * D ^ (1 / 2.4 : ℝ) ≤ 1.055 := by
          rw [hin]
          have : (y.val : ℝ) ≤ 1 := by exact_mod_cast h1
          norm_num; linarith
        obtain ⟨r1, r2⟩ := abs_le.1 hr
        obtain ⟨q1, q2⟩ := abs_le.1 e2
        generalize D ^ (1 / 2.4 : ℝ) = P at *
        generalize (x.val : ℝ) ^ (1 / 2.4 : ℝ) = Q at *
        generalize ((encode.srgb_t x).val : ℝ) = w at *
        rw [abs_le]
        norm_num at q1 q2 r1 r2 hin hu hP ⊢
        constructor <;> linarith

/-! ### BT.709 and BT.2020 -/

theorem bt_zero (hf : Std f) {A B y d : FP f} (hy : y.isFinite = true) (h : y.val = 0)
    (hd : ((y.val : ℝ) ≤ 0.08101 ∧ d = y / FP.lit 4.5) ∨
      ((0.08099 : ℝ) ≤ y.val ∧ d = Flt.powf ((y + B) / A) (FP.lit 1.0 / FP.lit 0.45))) : d.val = 0 := by
  rcases hd with ⟨_, rfl⟩ | ⟨hd, _⟩
  · have h45 := RelF.litE hf (q := 4.5) (by norm_num) (by norm_num)
    refine div_zero_val hy h h45.fin ?_
    have := h45.err.xpos
    have : 0 < (FP.lit 4.5 : FP f).val := by exact_mod_cast this
    exact this.ne'
  · exfalso
    rw [h] at hd
    norm_num at hd

theorem bt_low (hf : Std f) (hp : PowAccurate f) {A B y d : FP f} (hA : RelF 1 A 1.099)
    (hB : RelF 13 B 0.099) (hy : y.isFinite = true) (h0 : 0 ≤ y.val) (h1 : y.val ≤ 1)
    (h : y.val = 0 ∨ 1 / 2 ^ 9 ≤ y.val)
    (hd : ((y.val : ℝ) ≤ 0.08101 ∧ d = y / FP.lit 4.5) ∨
      ((0.08099 : ℝ) ≤ y.val ∧ d = Flt.powf ((y + B) / A) (FP.lit 1.0 / FP.lit 0.45))) :
    d.isFinite = true ∧ d.val ≤ 1.00001 ∧ (d.val = 0 ∨ 1 / 2 ^ 90 ≤ d.val) := by
  obtain ⟨a, X, b, c⟩ := bt_dec_near hf hp hA hB hy h0 h1 hd
  obtain ⟨b1, b2⟩ := abs_le.1 b
  have hX : 0 ≤ X ∧ X ≤ 1 := by
    rcases c with ⟨c1, c2, c3⟩ | ⟨_, c2, c3, _⟩
    · exact ⟨c2, by norm_num at c1 c3 ⊢; linarith⟩
    · exact ⟨le_trans (by norm_num) c2, c3⟩
  refine ⟨a, ?_, ?_⟩
  · have : (d.val : ℝ) ≤ ((1.00001 : ℚ) : ℝ) := by
      norm_num at b2 ⊢; linarith [hX.2]
    exact_mod_cast this
  · rcases h with h | h
    · exact .inl (bt_zero hf hy h hd)
    · right
      have hr : (1:ℝ) / 2 ^ 9 ≤ y.val := by qcast h
      have : (((1 / 2 ^ 90 : ℚ)) : ℝ) ≤ (d.val : ℝ) := by
        rcases c with ⟨c1, c2, c3⟩ | ⟨_, c2, c3, _⟩
        · norm_num at b1 hr c3 ⊢; linarith
        · norm_num at b1 c2 ⊢; linarith
      exact_mod_cast this

theorem bt_one (hf : Std f) (hp : PowAccurate f) {A B y d : FP f} (hA : RelF 1 A 1.099)
    (hB : RelF 13 B 0.099) (hy : y.isFinite = true) (h1 : y.val = 1)
    (hd : ((y.val : ℝ) ≤ 0.08101 ∧ d = y / FP.lit 4.5) ∨
      ((0.08099 : ℝ) ≤ y.val ∧ d = Flt.powf ((y + B) / A) (FP.lit 1.0 / FP.lit 0.45))) :
    |(d.val : ℝ) - 1| ≤ 1 / 10 ^ 5 := by
  obtain ⟨a, X, b, c⟩ := bt_dec_near hf hp hA hB hy (by rw [h1]; norm_num) h1.le hd
  rw [h1] at c
  rcases c with ⟨c1, _⟩ | ⟨_, c2, c3, c4⟩
  · norm_num at c1
  · have : X = 1 := by
      rcases c3.lt_or_eq with h | h
      · have := Real.rpow_lt_one (le_trans (by norm_num) c2) h (by norm_num : (0:ℝ) < 0.45)
        norm_num at c4 this
        linarith
      · exact h
    rwa [this] at b

theorem bt_rel (hf : Std f) (hp : PowAccurate f) {A B B' y d x z : FP f} {ε : ℝ} (hε : ε ≤ 1 / 2500)
    (hA : RelF 1 A 1.099)
    (hB : RelF 13 B 0.099) (hB' : RelF 13 B' 0.099) (hy : y.isFinite = true) (h0 : 0 ≤ y.val) (h1 : y.val ≤ 1)
    (hd : ((y.val : ℝ) ≤ 0.08101 ∧ d = y / FP.lit 4.5) ∨
      ((0.08099 : ℝ) ≤ y.val ∧ d = Flt.powf ((y + B) / A) (FP.lit 1.0 / FP.lit 0.45)))
    (hε0 : 0 ≤ ε) (hxf : x.isFinite = true) (hxd : |(x.val : ℝ) - d.val| ≤ ε * d.val)
    (hz : ((x.val : ℝ) ≤ 0.018001 ∧ z = x * FP.lit 4.5) ∨
      ((0.017999 : ℝ) ≤ x.val ∧ z = A * Flt.powf x (FP.lit 0.45) - B')) :
    z.isFinite = true ∧ |(z.val : ℝ) - y.val| ≤ 1 / 600 := by
  rcases le_or_gt (d.val : ℝ) 0.4 with hl | hl
  · have hδ : ε * (d.val : ℝ) ≤ 1 / 6250 := by
      rcases le_or_gt 0 (d.val : ℝ) with hn | hn
      · calc _ ≤ (1 / 2500 : ℝ) * 0.4 := mul_le_mul hε hl hn (by norm_num)
          _ = _ := by norm_num
      · nlinarith
    obtain ⟨a, b⟩ := bt_close hf hp hA hB hB' hy h0 h1 hd hxf (hδ.trans (by norm_num)) hxd hz
    refine ⟨a, b.trans ?_⟩
    norm_num at hδ ⊢; linarith
  · obtain ⟨_, X, hX, hcase⟩ := bt_dec_near hf hp hA hB hy h0 h1 hd
    obtain ⟨b1, b2⟩ := abs_le.1 hX
    rcases hcase with ⟨c1, c2, c3⟩ | ⟨c1, c2, c3, c4⟩
    · exfalso
      norm_num at b2 c1 c3 hl; linarith
    · have hX4 : 0.39 ≤ X := by norm_num at b2 hl ⊢; linarith
      have hxX : |(x.val : ℝ) - X| ≤ 9 / 20000 * X := by
        have h2 := abs_add_le ((x.val : ℝ) - d.val) (d.val - X)
        rw [sub_add_sub_cancel] at h2
        have h3 : ε * (d.val : ℝ) ≤ 1 / 2500 * (X + 1 / 10 ^ 5) :=
          mul_le_mul hε (by linarith) (by norm_num at hl; linarith) (by norm_num)
        norm_num at h3 hX hxd hX4 ⊢
        linarith
      obtain ⟨k1, k2⟩ := abs_le.1 hxX
      have hx4 : (0.3 : ℝ) ≤ x.val := by norm_num at k1 hX4 ⊢; linarith
      rcases hz with ⟨hz1, _⟩ | ⟨hz1, rfl⟩
      · exfalso
        norm_num at hz1 hx4; linarith
      · have hxp : 0 < x.val := by
          have : (0:ℝ) < x.val := lt_of_lt_of_le (by norm_num) hz1
          exact_mod_cast this
        obtain ⟨z1, z2⟩ := bt_enc hf hp hA hB' (RelF.exact hxf hxp) (by norm_num) (by norm_num)
          (le_trans (by norm_num) hz1) (by norm_num at k2 c3 ⊢; linarith)
        refine ⟨z1, ?_⟩
        have hr := rpow_rel (lt_of_lt_of_le (by norm_num) hX4) (by norm_num) (p := (0.45 : ℝ)) (by norm_num)
          (by norm_num) hxX
        have hP : X ^ (0.45 : ℝ) ≤ 1 :=
          Real.rpow_le_one (le_trans (by norm_num) c2) c3 (by norm_num)
        obtain ⟨r1, r2⟩ := abs_le.1 hr
        obtain ⟨q1, q2⟩ := abs_le.1 z2
        generalize X ^ (0.45 : ℝ) = P at *
        generalize (x.val : ℝ) ^ (0.45 : ℝ) = Q at *
        generalize ((A * Flt.powf x (FP.lit 0.45) - B' : FP f).val : ℝ) = w at *
        rw [abs_le]
        norm_num at q1 q2 r1 r2 c4 ⊢
        constructor <;> linarith

/-- any of the two decoders with any of the two encoders -/
theorem bt_rels (hf : Std f) (hp : PowAccurate f) {ε : ℝ} (hε0 : 0 ≤ ε) (hε : ε ≤ 1 / 2500)
    {enc dec : FP f → FP f} (he : enc = encode.bt709_t ∨ enc = encode.bt2020_t)
    (hd : dec = decode.bt709_t ∨ dec = decode.bt2020_t) : CurveRel ε (1 / 600) enc dec := by
  have hA : RelF 1 (FP.lit 1.099 : FP f) 1.099 :=
    (RelF.litE hf (q := 1.099) (by norm_num) (by norm_num)).congr (by norm_num)
  have hB : RelF 13 (FP.lit 0.099 : FP f) 0.099 :=
    ((RelF.litE hf (q := 0.099) (by norm_num) (by norm_num)).mono (by norm_num)).congr (by norm_num)
  have hB2 := bt2020_beta hf
  have dc : ∃ B : FP f, RelF 13 B 0.099 ∧ ∀ y : FP f, y.isFinite = true →
      ((y.val : ℝ) ≤ 0.08101 ∧ dec y = y / FP.lit 4.5) ∨
      ((0.08099 : ℝ) ≤ y.val ∧ dec y = Flt.powf ((y + B) / FP.lit 1.099) (FP.lit 1.0 / FP.lit 0.45)) := by
    rcases hd with rfl | rfl
    · exact ⟨_, hB, fun y hy => bt709_dec_cases hf hy⟩
    · exact ⟨_, hB2, fun y hy => bt2020_dec_cases hf hy⟩
  have ec : ∃ B : FP f, RelF 13 B 0.099 ∧ ∀ x : FP f, x.isFinite = true →
      ((x.val : ℝ) ≤ 0.018001 ∧ enc x = x * FP.lit 4.5) ∨
      ((0.017999 : ℝ) ≤ x.val ∧ enc x = FP.lit 1.099 * Flt.powf x (FP.lit 0.45) - B) := by
    rcases he with rfl | rfl
    · exact ⟨_, hB, fun y hy => bt709_enc_cases hf hy⟩
    · exact ⟨_, hB2, fun y hy => bt2020_enc_cases hf hy⟩
  obtain ⟨B1, hB1, dc⟩ := dc
  obtain ⟨B3, hB3, ec⟩ := ec
  exact ⟨fun y hy h0 h1 h => bt_low hf hp hA hB1 hy h0 h1 h (dc y hy),
    fun y hy h => bt_zero hf hy h (dc y hy),
    fun y hy h1 => bt_one hf hp hA hB1 hy h1 (dc y hy),
    fun y x hy h0 h1 h hx hd => bt_rel hf hp hε hA hB1 hB3 hy h0 h1 (dc y hy) hε0 hx hd (ec x hx)⟩

/-! ### linear -/

omit [Libm f] in
theorem linear_rel {ε : ℝ} (hε : ε ≤ 1 / 2500) :
    CurveRel (f := f) ε (1 / 600) (fun x => x) (fun x => x) := by
  refine ⟨fun y hy h0 h1 h => ⟨hy, h1.trans (by norm_num), h.imp id fun h => le_trans (by norm_num) h⟩,
    fun y hy h => h, fun y hy h1 => by rw [h1]; norm_num, fun y x hy h0 h1 h hx hd => ⟨hx, hd.trans ?_⟩⟩
  have h1r : (y.val : ℝ) ≤ 1 := by exact_mod_cast h1
  have h0r : (0:ℝ) ≤ y.val := by exact_mod_cast h0
  calc ε * (y.val : ℝ) ≤ 1 / 2500 * 1 := mul_le_mul hε h1r h0r (by norm_num)
    _ ≤ _ := by norm_num

end
end CS

import Verif.Lemmas.FPCiede

/-! # Bounds on the quantities of `delta_E_2000` -/

namespace CS
variable {f : Fmt} [Libm f]

section
variable (hf : Std f) (hm : Spec.MathAccurate f)
include hf hm

theorem in_lit' {q : ℚ} (L H : ℚ) (hL : Short L) (hH : Short H) (h1 : L ≤ q) (h2 : q ≤ H) :
    In (Flt.lit q : FP f) L H := in_lit hf hL hH h1 h2

/-- the quotient of seventh powers -/
theorem in_ratio {c : FP f} (hc : In c 0 2048) :
    In (Flt.powi c 7 / (Flt.powi c 7 + Flt.powi (Flt.lit 25.0) 7)) 0 1 ∧
    (c.val < 16 → In (Flt.powi c 7 / (Flt.powi c 7 + Flt.powi (Flt.lit 25.0) 7)) 0 (1 / 8)) := by
  have s0 : Short 0 := by short
  have s1 : Short 1 := by short
  have p := in_seventh hf hm (L := 0) (H := 2 ^ 78) hc (by norm_num) (by norm_num)
  have l25 := in_lit' hf hm (f := f) (q := 25.0) 25 25 (by short) (by short) (by norm_num) (by norm_num)
  have k := in_seventh hf hm (L := 2 ^ 32) (H := 2 ^ 33) l25 (by norm_num) (by norm_num) (by norm_num) (by norm_num)
  have p' : In (Flt.powi c 7) 0 (2 ^ 78) := by
    obtain ⟨h0, h⟩ := hm.seventh c hc.1 hc.2.1 (hc.2.2.trans (by norm_num))
    refine ⟨h.1, h0, ?_⟩
    have hc0 := hc
    have := in_seventh hf hm (l := 0) (L := -1) (H := 2 ^ 78) hc (by norm_num) (by norm_num) (by norm_num) (by norm_num)
    exact this.2.2
  clear p
  have k' : In (Flt.powi (Flt.lit 25.0 : FP f) 7) (2 ^ 32) (2 ^ 33) := k.mono (le_max_right _ _) le_rfl
  obtain ⟨dv, d⟩ := p'.add' hf k' (L := 2 ^ 32) (H := 2 ^ 79) (short_pow 32 (by norm_num)) (short_pow 79 (by norm_num))
    (by norm_num) (by norm_num)
  have dpos : 0 < (Flt.powi c 7 + Flt.powi (Flt.lit 25.0) 7 : FP f).val := lt_of_lt_of_le (by norm_num) d.2.1
  have hge : (Flt.powi c 7 : FP f).val ≤ (Flt.powi c 7 + Flt.powi (Flt.lit 25.0) 7 : FP f).val := by
    rw [dv, ← FP.round_val (Flt.powi c 7)]
    rw [FP.round_val (Flt.powi c 7)]
    conv_lhs => rw [← FP.round_val (Flt.powi c 7)]
    refine roundQ_mono f ?_
    have := k'.2.1
    have : (0:ℚ) ≤ (Flt.powi (Flt.lit 25.0) 7 : FP f).val := le_trans (by norm_num) k'.2.1
    linarith
  refine ⟨(In.div_gen hf p'.1 d.1 dpos.ne' s0 s1 (div_nonneg p'.2.1 dpos.le) (div_le_one_of_le₀ hge dpos.le)).2, ?_⟩
  intro hlt
  have c16 : In c 0 16 := ⟨hc.1, hc.2.1, hlt.le⟩
  have := in_seventh hf hm (l := 0) (L := -1) (H := 2 ^ 29) c16 (by norm_num) (by norm_num) (by norm_num) (by norm_num)
  refine (In.div_gen hf p'.1 d.1 dpos.ne' s0 (by short) (div_nonneg p'.2.1 dpos.le) ?_).2
  rw [div_le_iff₀ dpos]
  have h1 := this.2.2
  have h2 := d.2.1
  calc (Flt.powi c 7 : FP f).val ≤ 2 ^ 29 := h1
    _ = 1 / 8 * 2 ^ 32 := by norm_num
    _ ≤ _ := mul_le_mul_of_nonneg_left h2 (by norm_num)

theorem in_G {c : FP f} (hc : In c 0 2048) : In (Flt.lit 1.0 + ciedeG c) (1 - 1 / 2 ^ 9) (3 / 2) := by
  have hs := in_sqrt hf hm (L := 0) (H := 1 + 1 / 2 ^ 16) (in_ratio hf hm hc).1 (by norm_num) (by norm_num) (by norm_num) (by norm_num)
    (by norm_num) (by norm_num)
  have l1 := in_lit' hf hm (f := f) (q := 1.0) 1 1 (by short) (by short) (by norm_num) (by norm_num)
  have l5 := in_lit' hf hm (f := f) (q := 0.5) (1/2) (1/2) (by short) (by short) (by norm_num) (by norm_num)
  have h1 := l1.sub hf hs (L := -(1 / 2 ^ 16)) (H := 1) (by short) (by short) (by norm_num) (by norm_num)
  have h2 := l5.mul_pos hf h1 (L := -(1 / 2 ^ 17)) (H := 1 / 2) (by norm_num) (by norm_num) (by norm_num) (by short) (by short)
    (by norm_num) (by norm_num)
  exact l1.add hf h2 (by short) (by short) (by norm_num) (by norm_num)

/-- hue angles lie in [0, 360] -/
theorem in_hue {b a : FP f} (hb : b.isFinite = true) (ha : a.isFinite = true) : In (hueDeg b a) 0 360 := by
  have h := in_toDeg hf hm (in_atan2 hf hm (y := b) ha hb)
  have l0 := in_lit' hf hm (f := f) (q := 0.0) 0 0 (by short) (by short) (by norm_num) (by norm_num)
  have l360 := in_lit' hf hm (f := f) (q := 360.0) 360 360 (by short) (by short) (by norm_num) (by norm_num)
  unfold hueDeg
  dsimp only
  generalize (Flt.toDeg (Flt.atan2 b a) : FP f) = x at *
  have hlt : Flt.lt x (Flt.lit 0.0) = decide (x.val < (Flt.lit 0.0 : FP f).val) := FP.lt_finite h.1 l0.1
  have z : (Flt.lit 0.0 : FP f).val = 0 := le_antisymm l0.2.2 l0.2.1
  rw [z] at hlt
  by_cases hx : x.val < 0
  · rw [hlt, if_pos (by simpa using hx)]
    have hx' : In x (-187) 0 := ⟨h.1, h.2.1, hx.le⟩
    exact hx'.add hf l360 (by short) (by short) (by norm_num) (by norm_num)
  · rw [hlt, if_neg (by simpa using hx)]
    exact ⟨h.1, not_lt.1 hx, h.2.2.trans (by norm_num)⟩

theorem in_deltaHue {p q h k : FP f} (hh : In h 0 360) (hk : In k 0 360) : In (deltaHue p q h k) (-720) 720 := by
  have l0 := in_lit' hf hm (f := f) (q := 0.0) 0 0 (by short) (by short) (by norm_num) (by norm_num)
  have l360 := in_lit' hf hm (f := f) (q := 360.0) 360 360 (by short) (by short) (by norm_num) (by norm_num)
  have d := hk.sub hf hh (L := -360) (H := 360) (by short) (by short) (by norm_num) (by norm_num)
  unfold deltaHue
  dsimp only
  split_ifs
  · exact l0.mono (by norm_num) (by norm_num)
  · exact d.mono (by norm_num) (by norm_num)
  · exact d.sub hf l360 (by short) (by short) (by norm_num) (by norm_num)
  · exact d.add hf l360 (by short) (by short) (by norm_num) (by norm_num)

theorem in_half {x : FP f} {L H : ℚ} (hx : In x L H) (L0 : L ≤ 0) (H0 : 0 ≤ H) (hL : Short (L / 2)) (hH : Short (H / 2)) :
    In (x / Flt.lit 2.0) (L / 2) (H / 2) := by
  have l2 := in_lit' hf hm (f := f) (q := 2.0) 2 2 (by short) (by short) (by norm_num) (by norm_num)
  exact hx.div hf l2 (by norm_num) hL hH (by linarith) (by linarith) (by linarith) (by linarith)

theorem in_meanHue {p q h k : FP f} (hh : In h 0 360) (hk : In k 0 360) : In (meanHue p q h k) (-720) 720 := by
  have l360 := in_lit' hf hm (f := f) (q := 360.0) 360 360 (by short) (by short) (by norm_num) (by norm_num)
  have s := hh.add hf hk (L := 0) (H := 720) (by short) (by short) (by norm_num) (by norm_num)
  have s' : In (h + k) (-1440) 1440 := s.mono (by norm_num) (by norm_num)
  unfold meanHue
  dsimp only
  split_ifs
  · exact s.mono (by norm_num) (by norm_num)
  · exact (in_half hf hm s' (by norm_num) (by norm_num) (by short) (by short)).mono (by norm_num) (by norm_num)
  · have t := s.add hf l360 (L := -1440) (H := 1440) (by short) (by short) (by norm_num) (by norm_num)
    exact (in_half hf hm t (by norm_num) (by norm_num) (by short) (by short)).mono (by norm_num) (by norm_num)
  · have t := s.sub hf l360 (L := -1440) (H := 1440) (by short) (by short) (by norm_num) (by norm_num)
    exact (in_half hf hm t (by norm_num) (by norm_num) (by short) (by short)).mono (by norm_num) (by norm_num)

theorem in_T {h : FP f} (hh : In h (-720) 720) : In (ciedeT h) (1 / 32) 2 := by
  have l1 := in_lit' hf hm (f := f) (q := 1.0) 1 1 (by short) (by short) (by norm_num) (by norm_num)
  have l2 := in_lit' hf hm (f := f) (q := 2.0) 2 2 (by short) (by short) (by norm_num) (by norm_num)
  have l3 := in_lit' hf hm (f := f) (q := 3.0) 3 3 (by short) (by short) (by norm_num) (by norm_num)
  have l4 := in_lit' hf hm (f := f) (q := 4.0) 4 4 (by short) (by short) (by norm_num) (by norm_num)
  have l30 := in_lit' hf hm (f := f) (q := 30.0) 30 30 (by short) (by short) (by norm_num) (by norm_num)
  have l6 := in_lit' hf hm (f := f) (q := 6.0) 6 6 (by short) (by short) (by norm_num) (by norm_num)
  have l63 := in_lit' hf hm (f := f) (q := 63.0) 63 63 (by short) (by short) (by norm_num) (by norm_num)
  have c17 := in_lit' hf hm (f := f) (q := 0.17) 0 (175 / 1024) (by short) (by short) (by norm_num) (by norm_num)
  have c24 := in_lit' hf hm (f := f) (q := 0.24) 0 (246 / 1024) (by short) (by short) (by norm_num) (by norm_num)
  have c32 := in_lit' hf hm (f := f) (q := 0.32) 0 (328 / 1024) (by short) (by short) (by norm_num) (by norm_num)
  have c20 := in_lit' hf hm (f := f) (q := 0.20) 0 (205 / 1024) (by short) (by short) (by norm_num) (by norm_num)
  have cosb : ∀ {x : FP f}, In x (-3000) 3000 → In (Flt.cos (Flt.toRad x)) (-(1 + 1 / 2 ^ 8)) (1 + 1 / 2 ^ 8) := by
    intro x hx
    exact in_cos hf hm (X := 60) (in_toRad hf hm hx (by norm_num) (by norm_num)) (by norm_num)
  have a1 := cosb (hh.sub hf l30 (L := -3000) (H := 3000) (by short) (by short) (by norm_num) (by norm_num))
  have a2 := cosb (l2.mul_pos hf hh (L := -3000) (H := 3000) (by norm_num) (by norm_num) (by norm_num) (by short) (by short) (by norm_num) (by norm_num))
  have m3 := l3.mul_pos hf hh (L := -2160) (H := 2160) (by norm_num) (by norm_num) (by norm_num) (by short) (by short) (by norm_num) (by norm_num)
  have a3 := cosb (m3.add hf l6 (L := -3000) (H := 3000) (by short) (by short) (by norm_num) (by norm_num))
  have m4 := l4.mul_pos hf hh (L := -2880) (H := 2880) (by norm_num) (by norm_num) (by norm_num) (by short) (by short) (by norm_num) (by norm_num)
  have a4 := cosb (m4.sub hf l63 (L := -3000) (H := 3000) (by short) (by short) (by norm_num) (by norm_num))
  have b1 := c17.mul_pos hf a1 (L := -(11/64)) (H := 11/64) (by norm_num) (by norm_num) (by norm_num) (by short) (by short) (by norm_num) (by norm_num)
  have b2 := c24.mul_pos hf a2 (L := -(31/128)) (H := 31/128) (by norm_num) (by norm_num) (by norm_num) (by short) (by short) (by norm_num) (by norm_num)
  have b3 := c32.mul_pos hf a3 (L := -(83/256)) (H := 83/256) (by norm_num) (by norm_num) (by norm_num) (by short) (by short) (by norm_num) (by norm_num)
  have b4 := c20.mul_pos hf a4 (L := -(26/128)) (H := 26/128) (by norm_num) (by norm_num) (by norm_num) (by short) (by short) (by norm_num) (by norm_num)
  have t1 := l1.sub hf b1 (L := 53/64) (H := 75/64) (by short) (by short) (by norm_num) (by norm_num)
  have t2 := t1.add hf b2 (L := 75/128) (H := 181/128) (by short) (by short) (by norm_num) (by norm_num)
  have t3 := t2.add hf b3 (L := 67/256) (H := 445/256) (by short) (by short) (by norm_num) (by norm_num)
  exact t3.sub hf b4 (by short) (by short) (by norm_num) (by norm_num)

theorem in_SL {x : FP f} (hx : In x (-1024) 1024) : In (ciedeSL x) 1 8192 := by
  have l1 := in_lit' hf hm (f := f) (q := 1.0) 1 1 (by short) (by short) (by norm_num) (by norm_num)
  have l20 := in_lit' hf hm (f := f) (q := 20.0) 20 20 (by short) (by short) (by norm_num) (by norm_num)
  have l50 := in_lit' hf hm (f := f) (q := 50.0) 50 50 (by short) (by short) (by norm_num) (by norm_num)
  have c := in_lit' hf hm (f := f) (q := 0.015) 0 (1 / 64) (by short) (by short) (by norm_num) (by norm_num)
  have d := hx.sub hf l50 (L := -1080) (H := 1080) (by short) (by short) (by norm_num) (by norm_num)
  have s := in_square hf hm (H := 1200000) d (by norm_num) (by norm_num)
  have n := c.mul hf s (L := 0) (H := 18750) (by norm_num) (by norm_num) (by short) (by short) (by norm_num) (by norm_num)
  have m := l20.add hf s (L := 20) (H := 1200020) (by short) (by short) (by norm_num) (by norm_num)
  have r := in_sqrt hf hm (L := 4) (H := 2000) m (by norm_num) (by norm_num) (by norm_num) (by norm_num) (by norm_num) (by norm_num)
  have q := n.div hf r (L := 0) (H := 5000) (by norm_num) (by short) (by short) (by norm_num) (by norm_num) (by norm_num) (by norm_num)
  exact l1.add hf q (by short) (by short) (by norm_num) (by norm_num)

theorem in_SC {c : FP f} (hc : In c 0 1860) : In (ciedeSC c) 1 128 := by
  have l1 := in_lit' hf hm (f := f) (q := 1.0) 1 1 (by short) (by short) (by norm_num) (by norm_num)
  have k := in_lit' hf hm (f := f) (q := 0.045) 0 (1 / 16) (by short) (by short) (by norm_num) (by norm_num)
  have n := k.mul hf hc (L := 0) (H := 120) (by norm_num) (by norm_num) (by short) (by short) (by norm_num) (by norm_num)
  exact l1.add hf n (by short) (by short) (by norm_num) (by norm_num)

theorem in_SH {c h : FP f} (hc : In c 0 1860) (hh : In h (-720) 720) : In (ciedeSH c h) 1 128 := by
  have l1 := in_lit' hf hm (f := f) (q := 1.0) 1 1 (by short) (by short) (by norm_num) (by norm_num)
  have k := in_lit' hf hm (f := f) (q := 0.015) 0 (1 / 64) (by short) (by short) (by norm_num) (by norm_num)
  have n := k.mul hf hc (L := 0) (H := 30) (by norm_num) (by norm_num) (by short) (by short) (by norm_num) (by norm_num)
  have m := n.mul hf (in_T hf hm hh) (L := 0) (H := 60) (by norm_num) (by norm_num) (by short) (by short) (by norm_num) (by norm_num)
  exact l1.add hf m (by short) (by short) (by norm_num) (by norm_num)

/-- the rotation term: at most 29/16, and at most 1 for chromas below 16 -/
theorem in_RT {c h : FP f} (hc : In c 0 1860) (hh : In h (-720) 720) :
    In (ciedeRT c h) (-(29/16)) (29/16) ∧ (c.val < 16 → In (ciedeRT c h) (-1) 1) := by
  have hc' : In c 0 2048 := hc.mono le_rfl (by norm_num)
  have l2 := in_lit' hf hm (f := f) (q := 2.0) 2 2 (by short) (by short) (by norm_num) (by norm_num)
  have l275 := in_lit' hf hm (f := f) (q := 275.0) 275 275 (by short) (by short) (by norm_num) (by norm_num)
  have l25 := in_lit' hf hm (f := f) (q := 25.0) 25 25 (by short) (by short) (by norm_num) (by norm_num)
  have l30 := in_lit' hf hm (f := f) (q := 30.0) 30 30 (by short) (by short) (by norm_num) (by norm_num)
  have d1 := hh.sub hf l275 (L := -1000) (H := 1000) (by short) (by short) (by norm_num) (by norm_num)
  have d2 := d1.div hf l25 (L := -40) (H := 40) (by norm_num) (by short) (by short) (by norm_num) (by norm_num) (by norm_num) (by norm_num)
  have d3 : In (sqr ((h - Flt.lit 275.0) / Flt.lit 25.0) : FP f) 0 1600 := by
    unfold sqr
    generalize ((h - Flt.lit 275.0) / Flt.lit 25.0 : FP f) = x at d2 ⊢
    refine (In.mul_gen hf d2.1 d2.1 (by short) (by short) (mul_self_nonneg _) ?_).2
    have := d2.2
    nlinarith
  have d4 := in_exp hf hm (l := -1600) (x := -(sqr ((h - Flt.lit 275.0) / Flt.lit 25.0)))
    ((in_neg d3).mono le_rfl (by norm_num)) (by norm_num)
  have d5 := l30.mul hf d4 (L := 0) (H := 30 + 1 / 2 ^ 10) (by norm_num) (by norm_num) (by short) (by short) (by norm_num) (by norm_num)
  have d6 := l2.mul hf d5 (L := 0) (H := 60 + 1 / 2 ^ 9) (by norm_num) (by norm_num) (by short) (by short) (by norm_num) (by norm_num)
  have d7 := in_toRad hf hm (X := 60 + 1 / 2 ^ 9) (H := 1073 / 1024) (d6.mono (by norm_num) le_rfl) (by norm_num) (by norm_num)
  have d8 : In (Flt.sin (Flt.toRad (Flt.lit 2.0 * (Flt.lit 30.0 *
      Flt.exp (-(sqr ((h - Flt.lit 275.0) / Flt.lit 25.0)))))) : FP f) (-(115/128)) (115/128) := by
    generalize (Flt.toRad (Flt.lit 2.0 * (Flt.lit 30.0 *
      Flt.exp (-(sqr ((h - Flt.lit 275.0) / Flt.lit 25.0))))) : FP f) = x at d7 ⊢
    obtain ⟨u0, u1, -, -⟩ := hf.real_u
    have hs := hm.sin x d7.1 (d7.abs_val.trans (by norm_num))
    have hx : |(x.val : ℝ)| ≤ 1073 / 1024 := by qcast d7.abs_val
    have hc := Real.one_sub_sq_div_two_le_cos (x := (x.val : ℝ))
    have hq := Real.sin_sq_add_cos_sq (x.val : ℝ)
    have hx2 : (x.val : ℝ) ^ 2 ≤ (1073 / 1024) ^ 2 := by rw [← sq_abs]; exact pow_le_pow_left₀ (abs_nonneg _) hx 2
    have hc2 : (0.45:ℝ) ≤ Real.cos x.val := by norm_num at hx2 ⊢; linarith
    have hsin : |Real.sin (x.val : ℝ)| ≤ 0.8935 := by
      apply abs_le_of_sq_le_sq _ (by norm_num)
      nlinarith
    obtain ⟨s1, s2⟩ := abs_le.1 hsin
    generalize Real.sin (x.val : ℝ) = S at *
    refine near_in hf hs ?_ ?_ <;> push_cast <;> norm_num at u1 s1 s2 ⊢ <;> linarith
  have d9 := in_neg d8
  rw [neg_neg] at d9
  obtain ⟨r1, r2⟩ := in_ratio hf hm hc'
  refine ⟨?_, fun hlt => ?_⟩
  · have q1 := in_sqrt hf hm (L := 0) (H := 1 + 1 / 2 ^ 16) r1 (by norm_num) (by norm_num) (by norm_num) (by norm_num)
      (by norm_num) (by norm_num)
    have q2 := l2.mul hf q1 (L := 0) (H := 2 + 1 / 2 ^ 15) (by norm_num) (by norm_num) (by short) (by short) (by norm_num) (by norm_num)
    exact d9.mul_sym hf (q2.mono (l' := -(2 + 1 / 2 ^ 15)) (by norm_num) le_rfl) (by short) (by norm_num)
  · have q1 := in_sqrt hf hm (L := 0) (H := 3 / 8) (r2 hlt) (by norm_num) (by norm_num) (by norm_num) (by norm_num)
      (by norm_num) (by norm_num)
    have q2 := l2.mul hf q1 (L := 0) (H := 3 / 4) (by norm_num) (by norm_num) (by short) (by short) (by norm_num) (by norm_num)
    exact d9.mul_sym hf (q2.mono (l' := -(3 / 4)) (by norm_num) le_rfl) (by short) (by norm_num)

/-- `a`, `b` and the corrected chroma -/
theorem in_chroma {g a b : FP f} (hg : In g (1 - 1 / 2 ^ 9) (3 / 2)) (ha : In a (-1024) 1024) (hb : In b (-1024) 1024) :
    In (g * a) (-1536) 1536 ∧ In (Flt.hypot (g * a) b) 0 1860 := by
  have h1 := hg.mul_pos hf ha (L := -1536) (H := 1536) (by norm_num) (by norm_num) (by norm_num) (by short) (by short) (by norm_num) (by norm_num)
  refine ⟨h1, ?_⟩
  exact (in_hypot hf hm (H := 1850) h1 hb (by norm_num) (by norm_num) (by norm_num) (by norm_num)).mono le_rfl (by norm_num)

/-- half of a sum of two chromas -/
theorem in_mean {x y : FP f} {H : ℚ} (hx : In x 0 H) (hy : In y 0 H) (H0 : 0 ≤ H) (hH : Short (2 * H)) (hH' : Short H) :
    In ((x + y) / Flt.lit 2.0) 0 H := by
  have l2 := in_lit' hf hm (f := f) (q := 2.0) 2 2 (by short) (by short) (by norm_num) (by norm_num)
  have s := hx.add hf hy (L := 0) (H := 2 * H) (by short) hH (by norm_num) (by linarith)
  exact s.div hf l2 (by norm_num) (by short) hH' le_rfl H0 (by norm_num) (by linarith)

end
end CS

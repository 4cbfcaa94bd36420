import Verif.Lemmas.FPCiede2
import Verif.Props.DeltaEF
import Verif.Props.LabF

/-!
# Colour differences in floating point are finite and not negative (C93)
-/

namespace CS
section
variable {f : Fmt}

theorem round_abs (q : ℚ) : |roundQ f q| = roundQ f |q| := by
  rcases le_total 0 q with h | h
  · rw [abs_of_nonneg h, abs_of_nonneg (roundQ_nonneg f h)]
  · have : roundQ f q = -roundQ f (-q) := by rw [roundQ_neg, neg_neg]
    rw [abs_of_nonpos h, this, abs_neg, abs_of_nonneg (roundQ_nonneg f (by linarith))]

/-- the exact inequality behind a radicand that is not negative -/
theorem radicand_core {x y r u η D P Q M t s : ℚ} (hu0 : 0 < u) (hu : u ≤ 1 / 2 ^ 24) (hη0 : 0 < η) (hη : η ≤ u ^ 2 / 2 ^ 30)
    (hD : D = x ^ 2 + y ^ 2) (hx : u / 64 ≤ |x|) (hr : |r| ≤ 29 / 16)
    (hP : |P - x * x| ≤ |x * x| * u + η) (hQ : |Q - y * y| ≤ |y * y| * u + η) (hM : |M - x * y| ≤ |x * y| * u + η)
    (ht : |t - r * M| ≤ |r * M| * u + η) (hs : (P + Q) * (1 - u) ≤ s) (hP0 : 0 ≤ P) (hQ0 : 0 ≤ Q) : 0 ≤ s + t := by
  have hu' : u ≤ 1 / 2 ^ 20 := hu.trans (by norm_num)
  have hx2 : u ^ 2 / 4096 ≤ x ^ 2 := by
    rw [← sq_abs x]
    have := pow_le_pow_left₀ (by positivity) hx 2
    calc u ^ 2 / 4096 = (u / 64) ^ 2 := by ring
      _ ≤ _ := this
  have hD1 : x ^ 2 ≤ D := by rw [hD]; nlinarith [sq_nonneg y]
  have hD0 : 0 ≤ D := (sq_nonneg x).trans hD1
  have hDη : 2 ^ 16 * η ≤ D := by
    have h1 : 2 ^ 16 * η ≤ 2 ^ 16 * (u ^ 2 / 2 ^ 30) := mul_le_mul_of_nonneg_left hη (by norm_num)
    have h2 : 2 ^ 16 * (u ^ 2 / 2 ^ 30) ≤ u ^ 2 / 4096 := by
      have := sq_nonneg u
      norm_num; linarith
    linarith
  have hxy : |x * y| ≤ D / 2 := by
    rw [hD, abs_mul]
    nlinarith [sq_nonneg (|x| - |y|), sq_abs x, sq_abs y]
  have hM1 : |M| ≤ D / 2 * (1 + 1 / 2 ^ 20) + η := by
    have h1 := abs_add_le (M - x * y) (x * y)
    rw [sub_add_cancel] at h1
    have h2 : |x * y| * u ≤ D / 2 * (1 / 2 ^ 20) := mul_le_mul hxy hu' hu0.le (by linarith)
    linarith
  have hrM : |r * M| ≤ 29 / 16 * (D / 2 * (1 + 1 / 2 ^ 20) + η) := by
    rw [abs_mul]; exact mul_le_mul hr hM1 (abs_nonneg _) (by norm_num)
  have ht1 : |t| ≤ 29 / 16 * (D / 2 * (1 + 1 / 2 ^ 20) + η) * (1 + 1 / 2 ^ 20) + η := by
    have h1 := abs_add_le (t - r * M) (r * M)
    rw [sub_add_cancel] at h1
    have h2 : |r * M| * u ≤ 29 / 16 * (D / 2 * (1 + 1 / 2 ^ 20) + η) * (1 / 2 ^ 20) :=
      mul_le_mul hrM hu' hu0.le ((abs_nonneg _).trans hrM)
    linarith
  have hPQ : D * (1 - 1 / 2 ^ 20) - 2 * η ≤ P + Q := by
    have h1 : |x * x| * u ≤ x ^ 2 * (1 / 2 ^ 20) := by
      rw [abs_of_nonneg (mul_self_nonneg x), ← sq]; exact mul_le_mul_of_nonneg_left hu' (sq_nonneg _)
    have h2 : |y * y| * u ≤ y ^ 2 * (1 / 2 ^ 20) := by
      rw [abs_of_nonneg (mul_self_nonneg y), ← sq]; exact mul_le_mul_of_nonneg_left hu' (sq_nonneg _)
    have h3 := (abs_le.1 hP).1
    have h4 := (abs_le.1 hQ).1
    rw [hD]
    nlinarith
  have hs1 : (P + Q) * (1 - 1 / 2 ^ 20) ≤ s :=
    (mul_le_mul_of_nonneg_left (by linarith) (by linarith)).trans hs
  have ht2 := (abs_le.1 ht1).1
  norm_num at *
  linarith

section
variable [Libm f] (hf : Std f) (he : f.eta ≤ f.u ^ 2 / 2 ^ 30)
include hf

/-- the sum under the root -/
theorem radicand_in (he : f.eta ≤ f.u ^ 2 / 2 ^ 30) {A b c r : FP f} (hA : In A 0 (2 ^ 22)) (hb : In b (-2048) 2048)
    (hc : In c (-4096) 4096) (hr : In r (-(29/16)) (29/16)) (hcase : |r.val| ≤ 1 ∨ b.val = 0 ∨ f.u / 64 ≤ |b.val|) :
    In (A + b * b + c * c + r * (b * c)) 0 (2 ^ 27) := by
  have sq_in : ∀ {x : FP f} {X : ℚ}, In x (-X) X → Short (X ^ 2) →
      (x * x).val = roundQ f (x.val * x.val) ∧ In (x * x) 0 (X ^ 2) := by
    intro x X hx hX
    refine In.mul_gen hf hx.1 hx.1 (by short) hX (mul_self_nonneg _) ?_
    rw [← sq]; exact sq_le_sq' hx.2.1 hx.2.2
  obtain ⟨vP, iP⟩ := sq_in hb (by short)
  obtain ⟨vQ, iQ⟩ := sq_in hc (by short)
  obtain ⟨vM, iM⟩ : (b * c).val = roundQ f (b.val * c.val) ∧ In (b * c) (-(2 ^ 23)) (2 ^ 23) := by
    have : |b.val * c.val| ≤ 2 ^ 23 := by
      rw [abs_mul]
      exact (mul_le_mul hb.abs_val hc.abs_val (abs_nonneg _) (by norm_num)).trans (by norm_num)
    exact In.mul_gen hf hb.1 hc.1 (by short) (by short) (abs_le.1 this).1 (abs_le.1 this).2
  obtain ⟨vt, it⟩ : (r * (b * c)).val = roundQ f (r.val * (b * c).val) ∧ In (r * (b * c)) (-(2 ^ 24)) (2 ^ 24) := by
    have : |r.val * (b * c).val| ≤ 2 ^ 24 := by
      rw [abs_mul]
      exact (mul_le_mul hr.abs_val iM.abs_val (abs_nonneg _) (by norm_num)).trans (by norm_num)
    exact In.mul_gen hf hr.1 iM.1 (by short) (by short) (abs_le.1 this).1 (abs_le.1 this).2
  obtain ⟨v1, i1⟩ := hA.add' hf iP (L := 0) (H := 2 ^ 23) (by short) (by short) (by norm_num) (by norm_num)
  obtain ⟨v2, i2⟩ := i1.add' hf iQ (L := 0) (H := 2 ^ 25) (by short) (short_pow 25 (by norm_num)) (by norm_num) (by norm_num)
  obtain ⟨v3, i3⟩ := i2.add' hf it (L := -(2 ^ 24)) (H := 2 ^ 27) (by short) (short_pow 27 (by norm_num)) (by norm_num) (by norm_num)
  refine ⟨i3.1, ?_, i3.2.2⟩
  rw [v3]
  apply roundQ_nonneg
  -- the sum of squares dominates each square
  have g1 : (b * b).val ≤ (A + b * b).val := by
    rw [v1]
    conv_lhs => rw [← FP.round_val (b * b)]
    exact roundQ_mono f (by linarith [hA.2.1])
  have g2 : (A + b * b).val ≤ (A + b * b + c * c).val := by
    rw [v2]
    conv_lhs => rw [← FP.round_val (A + b * b)]
    exact roundQ_mono f (by linarith [iQ.2.1])
  have g3 : (c * c).val ≤ (A + b * b + c * c).val := by
    rw [v2]
    conv_lhs => rw [← FP.round_val (c * c)]
    exact roundQ_mono f (by linarith [i1.2.1])
  rcases hcase with h | h | h
  · have t1 : |(r * (b * c)).val| ≤ |(b * c).val| := by
      rw [vt, round_abs, ← FP.round_val (b * c), round_abs]
      refine roundQ_mono f ?_
      rw [FP.round_val, abs_mul]
      exact mul_le_of_le_one_left (abs_nonneg _) h
    have t2 : |(b * c).val| ≤ (A + b * b + c * c).val := by
      rw [vM, round_abs, abs_mul]
      rcases le_total |b.val| |c.val| with k | k
      · refine le_trans ?_ g3
        rw [vQ, ← abs_mul_abs_self c.val]
        exact roundQ_mono f (mul_le_mul_of_nonneg_right k (abs_nonneg _))
      · refine le_trans ?_ (g1.trans g2)
        rw [vP, ← abs_mul_abs_self b.val]
        exact roundQ_mono f (mul_le_mul_of_nonneg_left k (abs_nonneg _))
    have := (abs_le.1 (t1.trans t2)).1
    linarith
  · have : (r * (b * c)).val = 0 := by
      rw [vt, vM, h, zero_mul, roundQ_zero, mul_zero, roundQ_zero]
    rw [this, add_zero]
    exact i2.2.1
  · refine radicand_core (u := f.u) (η := f.eta) (D := b.val ^ 2 + c.val ^ 2) f.u_pos hf.hu f.eta_pos he rfl h hr.abs_val
      (P := (b * b).val) (Q := (c * c).val) (M := (b * c).val) ?_ ?_ ?_ ?_ ?_ iP.2.1 iQ.2.1
    · rw [vP]; exact roundQ_err_mixed f _
    · rw [vQ]; exact roundQ_err_mixed f _
    · rw [vM]; exact roundQ_err_mixed f _
    · rw [vt]; exact roundQ_err_mixed f _
    · have e := roundQ_err_add (FP.round_val (b * b)) (FP.round_val (c * c))
      have m : roundQ f ((b * b).val + (c * c).val) ≤ (A + b * b + c * c).val := by
        rw [v2]; exact roundQ_mono f (by linarith)
      have n0 : 0 ≤ (b * b).val + (c * c).val := add_nonneg iP.2.1 iQ.2.1
      rw [abs_of_nonneg n0] at e
      have := (abs_le.1 e).1
      linarith

end

/-! ### The theorem -/
section
variable [Libm f]

/-- finite L*a*b* coordinates of size at most 1024 -/
def Spec.Moderate (c : Lab (FP f)) : Prop :=
  Spec.FinLab c ∧ |c.L.val| ≤ 1024 ∧ |c.a.val| ≤ 1024 ∧ |c.b.val| ≤ 1024

theorem Spec.Moderate.ins {c : Lab (FP f)} (h : Spec.Moderate c) :
    In c.L (-1024) 1024 ∧ In c.a (-1024) 1024 ∧ In c.b (-1024) 1024 :=
  ⟨⟨h.1.1, abs_le.1 h.2.1⟩, ⟨h.1.2.1, abs_le.1 h.2.2.1⟩, ⟨h.1.2.2, abs_le.1 h.2.2.2⟩⟩

/-- two chromas whose mean is at least 16 are equal or their scaled difference is not tiny -/
theorem chroma_gap (hf : Std f) (hm : Spec.MathAccurate f) (he : f.eta ≤ f.u ^ 2 / 2 ^ 30) {p q s : FP f}
    (hp : In p 0 1860) (hq : In q 0 1860) (hs : In s 1 128) (h16 : 16 ≤ ((p + q) / Flt.lit 2.0 : FP f).val) :
    ((q - p) / s).val = 0 ∨ f.u / 64 ≤ |((q - p) / s).val| := by
  have u0 := f.u_pos
  have u1 := hf.hu
  obtain ⟨vd, d⟩ := hq.sub' hf hp (L := -1860) (H := 1860) (by short) (by short) (by norm_num) (by norm_num)
  have sp : 0 < s.val := lt_of_lt_of_le one_pos hs.2.1
  have hb : |(q - p).val / s.val| ≤ 1860 := by
    rw [abs_div, abs_of_pos sp, div_le_iff₀ sp]
    have := d.abs_val
    nlinarith [hs.2.1]
  obtain ⟨vb, b⟩ := In.div_gen hf d.1 hs.1 sp.ne' (L := -1860) (H := 1860) (by short) (by short) (abs_le.1 hb).1 (abs_le.1 hb).2
  by_cases hpq : q.val = p.val
  · left
    rw [vb, vd, hpq, sub_self, roundQ_zero, zero_div, roundQ_zero]
  · right
    have gap : 8 * f.u ≤ |q.val - p.val| := by
      have big : 15 ≤ p.val ∨ 15 ≤ q.val := by
        by_contra hcon
        push Not at hcon
        have hp' : In p 0 15 := ⟨hp.1, hp.2.1, hcon.1.le⟩
        have hq' : In q 0 15 := ⟨hq.1, hq.2.1, hcon.2.le⟩
        have := (in_mean hf hm hp' hq' (by norm_num) (by short) (by short)).2.2
        linarith
      by_cases h8 : 8 ≤ p.val ∧ 8 ≤ q.val
      · have := rep_gap (k := 3) (FP.round_val q) (FP.round_val p) (by norm_num; exact h8.2) (by norm_num; exact h8.1) hpq
        norm_num at this
        exact this
      · have : 7 ≤ |q.val - p.val| := by
          rw [le_abs]
          rcases big with h | h
          · right
            have : q.val < 8 := by
              by_contra h'
              exact h8 ⟨by linarith, by linarith⟩
            linarith
          · left
            have : p.val < 8 := by
              by_contra h'
              exact h8 ⟨by linarith, by linarith⟩
            linarith
        norm_num at u1
        linarith
    have hd : 4 * f.u ≤ |(q - p).val| := by
      have e := roundQ_err_add (FP.round_val q) (by rw [roundQ_neg, FP.round_val] : roundQ f (-p.val) = -p.val)
      rw [← sub_eq_add_neg, ← vd] at e
      have h1 := abs_sub_abs_le_abs_sub (q.val - p.val) (q - p).val
      rw [abs_sub_comm (q.val - p.val)] at h1
      have h2 : |q.val - p.val| * f.u ≤ |q.val - p.val| * (1 / 2) :=
        mul_le_mul_of_nonneg_left (by norm_num at u1; linarith) (abs_nonneg _)
      linarith
    have hdiv : f.u / 32 ≤ |(q - p).val / s.val| := by
      rw [abs_div, abs_of_pos sp, le_div_iff₀ sp]
      have : f.u / 32 * s.val ≤ f.u / 32 * 128 := mul_le_mul_of_nonneg_left hs.2.2 (by linarith)
      linarith
    have e := roundQ_err_mixed f ((q - p).val / s.val)
    rw [← vb] at e
    have h1 := abs_sub_abs_le_abs_sub ((q - p).val / s.val) ((q - p) / s).val
    rw [abs_sub_comm] at h1
    have h2 : |(q - p).val / s.val| * f.u ≤ |(q - p).val / s.val| * (1 / 4) :=
      mul_le_mul_of_nonneg_left (by norm_num at u1; linarith) (abs_nonneg _)
    have h3 : f.eta ≤ f.u / 2 ^ 30 := he.trans (by
      apply div_le_div_of_nonneg_right _ (by norm_num)
      rw [sq]; exact mul_le_of_le_one_left u0.le (by norm_num at u1; linarith))
    norm_num at h3
    linarith

set_option maxHeartbeats 800000 in
/-- the argument of the final square root is finite and not negative -/
theorem radicand_ok (hf : Std f) (hm : Spec.MathAccurate f) (he : f.eta ≤ f.u ^ 2 / 2 ^ 30) (c d : Lab (FP f))
    (hc : Spec.Moderate c) (hd : Spec.Moderate d) : In (ciedeRadicand (ciede c d)) 0 (2 ^ 27) := by
  obtain ⟨cL, ca, cb⟩ := hc.ins
  obtain ⟨dL, da, db⟩ := hd.ins
  have l1 := in_lit' hf hm (f := f) (q := 1.0) 1 1 (by short) (by short) (by norm_num) (by norm_num)
  have l2 := in_lit' hf hm (f := f) (q := 2.0) 2 2 (by short) (by short) (by norm_num) (by norm_num)
  have hyp : ∀ {x y : FP f}, In x (-1024) 1024 → In y (-1024) 1024 → In (Flt.hypot x y) 0 1450 := fun hx hy =>
    (in_hypot hf hm (H := 1449) hx hy (by norm_num) (by norm_num) (by norm_num) (by norm_num)).mono le_rfl (by norm_num)
  have mab := in_mean hf hm (hyp ca cb) (hyp da db) (by norm_num) (by short) (by short)
  have g := in_G hf hm (mab.mono le_rfl (by norm_num))
  obtain ⟨ap1, cp1⟩ := in_chroma hf hm g ca cb
  obtain ⟨ap2, cp2⟩ := in_chroma hf hm g da db
  have h1 := in_hue hf hm cb.1 ap1.1
  have h2 := in_hue hf hm db.1 ap2.1
  unfold ciedeRadicand ciede
  dsimp only
  generalize (Flt.lit 1.0 + ciedeG ((Flt.hypot c.a c.b + Flt.hypot d.a d.b) / Flt.lit 2.0) : FP f) * c.a = A1 at *
  generalize (Flt.lit 1.0 + ciedeG ((Flt.hypot c.a c.b + Flt.hypot d.a d.b) / Flt.lit 2.0) : FP f) * d.a = A2 at *
  generalize (Flt.hypot A1 c.b : FP f) = p at *
  generalize (Flt.hypot A2 d.b : FP f) = q at *
  generalize (hueDeg c.b A1 : FP f) = hu1 at *
  generalize (hueDeg d.b A2 : FP f) = hu2 at *
  have dh := in_deltaHue hf hm (p := p) (q := q) h1 h2
  have mh := in_meanHue hf hm (p := p) (q := q) h1 h2
  have cbar := in_mean hf hm cp1 cp2 (by norm_num) (by short) (by short)
  -- hue difference
  have s1 := in_sin hf hm (X := 7) (in_toRad hf hm (in_half hf hm dh (by norm_num) (by norm_num) (by short) (by short) |>.mono
    (l' := -360) (h' := 360) (by norm_num) (by norm_num)) (by norm_num) (by norm_num)) (by norm_num)
  have pq := cp1.mul hf cp2 (L := 0) (H := 3500000) (by norm_num) (by norm_num) (by short) (by short) (by norm_num) (by norm_num)
  have rt := in_sqrt hf hm (L := 0) (H := 1900) pq (by norm_num) (by norm_num) (by norm_num) (by norm_num) (by norm_num) (by norm_num)
  have r2 := l2.mul hf rt (L := -3800) (H := 3800) (by norm_num) (by norm_num) (by short) (by short) (by norm_num) (by norm_num)
  have dH := r2.mul_sym hf s1 (H := 4000) (by short) (by norm_num)
  -- weights
  have Lb : In ((c.L + d.L) / Flt.lit 2.0) (-1024) 1024 := by
    have s := cL.add hf dL (L := -2048) (H := 2048) (by short) (by short) (by norm_num) (by norm_num)
    exact (in_half hf hm s (by norm_num) (by norm_num) (by short) (by short)).mono (by norm_num) (by norm_num)
  have SL := l1.mul hf (in_SL hf hm Lb) (L := 1) (H := 8192) (by norm_num) (by norm_num) (by short) (by short) (by norm_num) (by norm_num)
  have SC := l1.mul hf (in_SC hf hm cbar) (L := 1) (H := 128) (by norm_num) (by norm_num) (by short) (by short) (by norm_num) (by norm_num)
  have SH := l1.mul hf (in_SH hf hm cbar mh) (L := 1) (H := 128) (by norm_num) (by norm_num) (by short) (by short) (by norm_num) (by norm_num)
  obtain ⟨RT, RT1⟩ := in_RT hf hm cbar mh
  have dl := (dL.sub hf cL (L := -2048) (H := 2048) (by short) (by short) (by norm_num) (by norm_num)).div hf SL
    (L := -2048) (H := 2048) (by norm_num) (by short) (by short) (by norm_num) (by norm_num) (by norm_num) (by norm_num)
  have dc := (cp2.sub hf cp1 (L := -2048) (H := 2048) (by short) (by short) (by norm_num) (by norm_num)).div hf SC
    (L := -2048) (H := 2048) (by norm_num) (by short) (by short) (by norm_num) (by norm_num) (by norm_num) (by norm_num)
  have dhh := dH.div hf SH (L := -4096) (H := 4096) (by norm_num) (by short) (by short) (by norm_num) (by norm_num) (by norm_num) (by norm_num)
  unfold sqr
  refine radicand_in hf he ?_ dc dhh RT ?_
  · refine (In.mul_gen hf dl.1 dl.1 (by short) (by short) (mul_self_nonneg _) ?_).2
    rw [← sq]
    exact (sq_le_sq' dl.2.1 dl.2.2).trans (by norm_num)
  · by_cases h16 : ((p + q) / Flt.lit 2.0 : FP f).val < 16
    · exact Or.inl (abs_le.2 (RT1 h16).2)
    · exact Or.inr (chroma_gap hf hm he cp1 cp2 SC (not_lt.1 h16))

/-- C93 [F]: for finite coordinates of size up to 1024 the result of `delta_E_2000` is a finite number, never
NaN, between 0 and 2^14: the argument of the final square root never rounds below zero, although the rotation
term can be as large as the squares it is added to. -/
theorem C93_finite_2000 (hf : Std f) (hm : Spec.MathAccurate f) (he : f.eta ≤ f.u ^ 2 / 2 ^ 30) (c d : Lab (FP f))
    (hc : Spec.Moderate c) (hd : Spec.Moderate d) :
    (deltaE2000 c d).isFinite = true ∧ 0 ≤ (deltaE2000 c d).val ∧ (deltaE2000 c d).val ≤ 2 ^ 14 := by
  have h := radicand_ok hf hm he c d hc hd
  exact in_sqrt hf hm (L := 0) (H := 2 ^ 14) h (by norm_num) (by norm_num) (by norm_num) (by norm_num) (by norm_num) (by norm_num)

theorem zero_sub (hf : Std f) {x : FP f} {X : ℚ} (hx : In x (-X) X) : FP.IsZero (x - x) := by
  obtain ⟨s, e⟩ := sub_finite_eq hx.1 hx.1
  rw [e, sub_self, FP.ofQ_zero]
  exact FP.isZero_zeroOf _

theorem zero_div {x y : FP f} (hx : FP.IsZero x) (hy : y.isFinite = true) (h0 : y.val ≠ 0) : FP.IsZero (x / y) := by
  rw [FP.div_finite hx.1 hy h0, hx.2, _root_.zero_div, FP.ofQ_zero]
  exact FP.isZero_zeroOf _

theorem zero_mul' {x y : FP f} (hx : x.isFinite = true) (hy : FP.IsZero y) : FP.IsZero (x * y) := by
  rw [FP.mul_finite hx hy.1, hy.2, mul_zero, FP.ofQ_zero]
  exact FP.isZero_zeroOf _

theorem zero_add' {x y : FP f} (hx : FP.IsZero x) (hy : FP.IsZero y) : FP.IsZero (x + y) := by
  obtain ⟨s, e⟩ := add_finite_eq hx.1 hy.1
  rw [e, hx.2, hy.2, add_zero, FP.ofQ_zero]
  exact FP.isZero_zeroOf _

theorem sqrt_zero (hm : Spec.MathAccurate f) {x : FP f} (hx : FP.IsZero x) : FP.IsZero (Flt.sqrt x) := by
  obtain ⟨-, h1, h2⟩ := hm.sqrt x hx.1 hx.2.ge (by rw [hx.2]; norm_num)
  refine ⟨h1, ?_⟩
  rw [hx.2, Rat.cast_zero, Real.sqrt_zero, mul_zero, sub_zero] at h2
  have := abs_nonpos_iff.1 h2
  exact_mod_cast this

set_option maxHeartbeats 800000 in
/-- C93 [F]: the `delta_E_2000` of a colour with itself is zero, for finite coordinates of size up to 1024. -/
theorem C93_equal_2000 (hf : Std f) (hm : Spec.MathAccurate f) (ht : Spec.OddTrig f) (c : Lab (FP f))
    (hc : Spec.Moderate c) : (deltaE2000 c c).isFinite = true ∧ (deltaE2000 c c).val = 0 := by
  obtain ⟨cL, ca, cb⟩ := hc.ins
  have l1 := in_lit' hf hm (f := f) (q := 1.0) 1 1 (by short) (by short) (by norm_num) (by norm_num)
  have l0 := in_lit' hf hm (f := f) (q := 0.0) 0 0 (by short) (by short) (by norm_num) (by norm_num)
  have l2 := in_lit' hf hm (f := f) (q := 2.0) 2 2 (by short) (by short) (by norm_num) (by norm_num)
  have l180 := in_lit' hf hm (f := f) (q := 180.0) 180 180 (by short) (by short) (by norm_num) (by norm_num)
  have hyp : In (Flt.hypot c.a c.b) 0 1450 :=
    (in_hypot hf hm (H := 1449) ca cb (by norm_num) (by norm_num) (by norm_num) (by norm_num)).mono le_rfl (by norm_num)
  have mab := in_mean hf hm hyp hyp (by norm_num) (by short) (by short)
  have g := in_G hf hm (mab.mono le_rfl (by norm_num))
  obtain ⟨ap1, cp1⟩ := in_chroma hf hm g ca cb
  have h1 := in_hue hf hm cb.1 ap1.1
  refine sqrt_zero hm ?_
  unfold ciedeRadicand ciede
  dsimp only
  generalize (Flt.lit 1.0 + ciedeG ((Flt.hypot c.a c.b + Flt.hypot c.a c.b) / Flt.lit 2.0) : FP f) * c.a = A1 at *
  generalize (Flt.hypot A1 c.b : FP f) = p at *
  generalize (hueDeg c.b A1 : FP f) = hu1 at *
  have mh := in_meanHue hf hm (p := p) (q := p) h1 h1
  have cbar := in_mean hf hm cp1 cp1 (by norm_num) (by short) (by short)
  have zh : FP.IsZero (deltaHue p p hu1 hu1) := by
    have z := zero_sub hf (h1.mono (l' := -360) (by norm_num) le_rfl)
    have z0 : FP.IsZero (Flt.lit 0.0 : FP f) := ⟨l0.1, le_antisymm l0.2.2 l0.2.1⟩
    unfold deltaHue
    dsimp only
    have hle : Flt.le (Flt.abs (hu1 - hu1)) (Flt.lit 180.0) = true := by
      show FP.le (FP.abs _) _ = true
      have e : FP.abs (hu1 - hu1) = .fin 0 (FP.isRep_zero f) := by
        rcases z.cases with e | e <;> rw [e]
        · rfl
        · simp [FP.abs]
      rw [e, FP.le_finite rfl l180.1]
      exact decide_eq_true (le_trans (by norm_num) l180.2.1)
    rw [if_pos hle]
    split_ifs
    · exact z0
    · exact z
  have zs := ht.sin_zero _ (ht.rad_zero _ (zero_div zh l2.1 (lt_of_lt_of_le two_pos l2.2.1).ne'))
  have pq := cp1.mul hf cp1 (L := 0) (H := 3500000) (by norm_num) (by norm_num) (by short) (by short) (by norm_num) (by norm_num)
  have rt := in_sqrt hf hm (L := 0) (H := 1900) pq (by norm_num) (by norm_num) (by norm_num) (by norm_num) (by norm_num) (by norm_num)
  have r2 := l2.mul hf rt (L := -3800) (H := 3800) (by norm_num) (by norm_num) (by short) (by short) (by norm_num) (by norm_num)
  have zH := zero_mul' r2.1 zs
  have Lb : In ((c.L + c.L) / Flt.lit 2.0) (-1024) 1024 := by
    have s := cL.add hf cL (L := -2048) (H := 2048) (by short) (by short) (by norm_num) (by norm_num)
    exact (in_half hf hm s (by norm_num) (by norm_num) (by short) (by short)).mono (by norm_num) (by norm_num)
  have SL := l1.mul hf (in_SL hf hm Lb) (L := 1) (H := 8192) (by norm_num) (by norm_num) (by short) (by short) (by norm_num) (by norm_num)
  have SC := l1.mul hf (in_SC hf hm cbar) (L := 1) (H := 128) (by norm_num) (by norm_num) (by short) (by short) (by norm_num) (by norm_num)
  have SH := l1.mul hf (in_SH hf hm cbar mh) (L := 1) (H := 128) (by norm_num) (by norm_num) (by short) (by short) (by norm_num) (by norm_num)
  have RT := (in_RT hf hm cbar mh).1
  have zL := zero_div (zero_sub hf cL) SL.1 (lt_of_lt_of_le one_pos SL.2.1).ne'
  have zC := zero_div (zero_sub hf (cp1.mono (l' := -1860) (by norm_num) le_rfl)) SC.1 (lt_of_lt_of_le one_pos SC.2.1).ne'
  have zH' := zero_div zH SH.1 (lt_of_lt_of_le one_pos SH.2.1).ne'
  unfold sqr
  exact zero_add' (zero_add' (zero_add' (zero_mul' zL.1 zL) (zero_mul' zC.1 zC)) (zero_mul' zH'.1 zH'))
    (zero_mul' RT.1 (zero_mul' zC.1 zH'))

end
end
end CS

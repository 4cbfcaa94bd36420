import Verif.Lemmas.FPSym
import Verif.Lemmas.FPSprague
import Verif.Lemmas.IdealLibm

/-!
# Colour differences in floating point (C93)
-/

namespace CS

section
variable {f : Fmt} [Libm f]

/-- What the symmetry of `delta_E_2000` needs of the platform: sine and the conversion to radians are odd and
send zero to zero. -/
structure Spec.OddTrig (f : Fmt) [Libm f] : Prop where
  sin_neg : ∀ x : FP f, Flt.sin (-x) = -(Flt.sin x)
  sin_zero : ∀ x : FP f, FP.IsZero x → FP.IsZero (Flt.sin x)
  rad_neg : ∀ x : FP f, Flt.toRad (-x) = -(Flt.toRad x)
  rad_zero : ∀ x : FP f, FP.IsZero x → FP.IsZero (Flt.toRad x)

theorem FP.lt_neg_of_lt {a d : FP f} (ha : a.isFinite = true) (h0 : 0 < a.val) (h : FP.lt a d = true) :
    FP.lt a (-d) = false := by
  rw [FP.lt_iff] at h
  rw [Bool.eq_false_iff, ne_eq, FP.lt_iff]
  rw [FP.ext_finite ha] at h ⊢
  rintro ⟨x, y, rfl', hy, hlt⟩
  obtain ⟨x', y', e1, e2, hlt'⟩ := h
  cases e1
  cases rfl'
  cases d with
  | nan => simp [FP.ext] at e2
  | pinf =>
    have : (-(FP.pinf : FP f)).ext = some ⊥ := rfl
    rw [this] at hy
    cases hy
    exact absurd hlt (not_lt_bot)
  | ninf =>
    simp only [FP.ext, Option.some.injEq] at e2
    subst e2
    exact absurd hlt' (not_lt_bot)
  | nzero =>
    simp only [FP.ext, Option.some.injEq] at e2
    subst e2
    have : a.val < 0 := by exact_mod_cast hlt'
    linarith
  | fin q hq =>
    simp only [FP.ext, Option.some.injEq] at e2
    subst e2
    have h1 : a.val < q := by exact_mod_cast hlt'
    have hf : (-(FP.fin q hq : FP f)).isFinite = true := by rw [FP.isFinite_neg]; rfl
    rw [FP.ext_finite hf, FP.val_neg] at hy
    cases hy
    have h2 : a.val < -q := by exact_mod_cast hlt
    linarith

theorem FP.lt_neg_of_not {a d : FP f} (ha : a.isFinite = true) (hd : d ≠ .nan) (h1 : FP.le (FP.abs d) a = false)
    (h2 : FP.lt a d = false) : FP.lt a (-d) = true := by
  cases d with
  | nan => exact absurd rfl hd
  | pinf =>
    rw [FP.lt, FP.ext_finite ha] at h2
    simp [FP.ext] at h2
  | ninf =>
    show FP.lt a .pinf = true
    rw [FP.lt, FP.ext_finite ha]
    simp only [FP.ext, decide_eq_true_eq]
    exact WithBot.coe_lt_coe.2 (WithTop.coe_lt_top _)
  | nzero =>
    have e : FP.abs (FP.nzero : FP f) = .fin 0 (FP.isRep_zero f) := rfl
    rw [e, FP.le_finite rfl ha] at h1
    rw [FP.lt_finite ha rfl] at h2
    have h1 := of_decide_eq_false h1
    have h2 := of_decide_eq_false h2
    simp only [FP.val_fin, FP.val_nzero] at h1 h2
    linarith
  | fin q hq =>
    rw [FP.lt_finite ha rfl] at h2
    rw [FP.lt_finite ha (by rw [FP.isFinite_neg]; rfl), FP.val_neg, decide_eq_true_eq]
    by_cases hq0 : q < 0
    · have e : FP.abs (FP.fin q hq) = -(FP.fin q hq) := by
        show (if q < 0 then _ else _) = _
        rw [if_pos hq0]; rfl
      rw [e, FP.le_finite (by rw [FP.isFinite_neg]; rfl) ha, FP.val_neg] at h1
      have := not_le.1 (of_decide_eq_false h1)
      simpa using this
    · have e : FP.abs (FP.fin q hq) = FP.fin q hq := by
        show (if q < 0 then _ else _) = _
        rw [if_neg hq0]
      rw [e, FP.le_finite rfl ha] at h1
      have h1 := of_decide_eq_false h1
      have h2 := of_decide_eq_false h2
      exact absurd (lt_of_not_ge h1) h2

/-- `delta_h_p` changes sign when the colours are swapped -/
theorem deltaHue_opp (ha : (Flt.lit 180.0 : FP f).isFinite = true) (h0 : 0 < (Flt.lit 180.0 : FP f).val)
    (p q h k : FP f) : FP.Opp (deltaHue p q h k) (deltaHue q p k h) := by
  unfold deltaHue
  dsimp only
  rw [FP.mul_comm' q p]
  by_cases hz : Flt.eqb (p * q) (Flt.lit 0.0) = true
  · rw [if_pos hz, if_pos hz]
    right
    have : FP.IsZero (Flt.lit 0.0 : FP f) := by
      show FP.IsZero (FP.lit _)
      rw [show (0.0 : ℚ) = 0 by norm_num, FP.lit_zero]
      exact ⟨rfl, rfl⟩
    exact ⟨this, this⟩
  rw [if_neg hz, if_neg hz]
  have hs := FP.sub_swap k h
  have hab : Flt.abs (k - h) = Flt.abs (h - k) := hs.abs
  rw [← hab]
  by_cases h2 : Flt.le (Flt.abs (k - h)) (Flt.lit 180.0) = true
  · rw [if_pos h2, if_pos h2]; exact hs
  rw [if_neg h2, if_neg h2]
  by_cases hn : k - h = .nan
  · have hn' : h - k = .nan := by
      rcases hs with e | ⟨e, -⟩
      · rw [e, hn]; rfl
      · rw [hn] at e; exact absurd e.1 (by simp [FP.isFinite])
    rw [hn, hn']
    have : Flt.gt (FP.nan : FP f) (Flt.lit 180.0) = false := FP.lt_nan_right _
    rw [this]
    left; rfl
  rcases hs with e | ⟨e, -⟩
  · rw [e]
    by_cases h3 : Flt.gt (k - h) (Flt.lit 180.0) = true
    · have h4 : Flt.gt (-(k - h)) (Flt.lit 180.0) = false := FP.lt_neg_of_lt ha h0 h3
      rw [if_pos h3, h4, FP.add_comm' (-(k - h))]
      exact FP.sub_swap _ _
    · have h4 : Flt.gt (-(k - h)) (Flt.lit 180.0) = true :=
        FP.lt_neg_of_not ha hn (Bool.eq_false_iff.2 h2) (Bool.eq_false_iff.2 h3)
      rw [if_neg h3, if_pos h4]
      exact FP.neg_add_opp _ _
  · exfalso
    apply h2
    show FP.le (FP.abs _) _ = true
    have : FP.abs (k - h) = .fin 0 (FP.isRep_zero f) := by
      rcases e.cases with e | e <;> rw [e]
      · rfl
      · simp [FP.abs]
    rw [this, FP.le_finite rfl ha]
    exact decide_eq_true (by simpa using h0.le)

theorem meanHue_same (p q h k : FP f) : meanHue p q h k = meanHue q p k h := by
  unfold meanHue
  dsimp only
  rw [FP.mul_comm' q p, FP.add_comm' k h, show Flt.abs (h - k) = Flt.abs (k - h) from (FP.sub_swap h k).abs]

theorem lit_180 (hf : Std f) : (Flt.lit 180.0 : FP f).isFinite = true ∧ 0 < (Flt.lit 180.0 : FP f).val := by
  obtain ⟨h1, h2⟩ := lit_natural hf 180 (by norm_num) (by norm_num) 180.0 (by norm_num)
  refine ⟨h1, ?_⟩
  show 0 < (FP.lit _).val
  rw [h2]; norm_num

/-- C93 [F]: `delta_E_2000` is symmetric to the last bit, for all floats including infinities and NaN. -/
theorem C93_symmetric_2000 (hf : Std f) (ht : Spec.OddTrig f) (c d : Lab (FP f)) :
    deltaE2000 c d = deltaE2000 d c := by
  obtain ⟨l1, l2⟩ := lit_180 hf
  have hG : (Flt.hypot d.a d.b + Flt.hypot c.a c.b : FP f) = Flt.hypot c.a c.b + Flt.hypot d.a d.b := FP.add_comm' _ _
  unfold deltaE2000 ciede
  simp only [hG]
  generalize ciedeG ((Flt.hypot c.a c.b + Flt.hypot d.a d.b : FP f) / Flt.lit 2.0) = G
  generalize (Flt.lit 1.0 + G) * c.a = A
  generalize (Flt.lit 1.0 + G) * d.a = B
  generalize hp : (Flt.hypot A c.b : FP f) = P
  generalize hq : (Flt.hypot B d.b : FP f) = Q
  generalize (hueDeg c.b A : FP f) = H
  generalize (hueDeg d.b B : FP f) = K
  have hd := deltaHue_opp l1 l2 P Q H K
  have hsin : ∀ {x y : FP f}, FP.Opp x y → FP.Opp (Flt.sin (Flt.toRad x)) (Flt.sin (Flt.toRad y)) := by
    intro x y h
    rcases h with h | ⟨h1, h2⟩
    · left; rw [h, ht.rad_neg, ht.sin_neg]
    · exact Or.inr ⟨ht.sin_zero _ (ht.rad_zero _ h1), ht.sin_zero _ (ht.rad_zero _ h2)⟩
  have oL := FP.sub_swap d.L c.L
  have oC := FP.sub_swap Q P
  have oH := (hsin (hd.div (Flt.lit 2.0))).mul_left (Flt.lit 2.0 * Flt.sqrt (P * Q))
  unfold ciedeRadicand
  dsimp only
  rw [FP.add_comm' d.L, FP.add_comm' Q P, FP.mul_comm' Q P, ← meanHue_same P Q H K]
  generalize (Flt.lit 1.0 * ciedeSL ((c.L + d.L) / Flt.lit 2.0) : FP f) = sl
  generalize (Flt.lit 1.0 * ciedeSC ((P + Q) / Flt.lit 2.0) : FP f) = sc
  generalize (Flt.lit 1.0 * ciedeSH ((P + Q) / Flt.lit 2.0) (meanHue P Q H K) : FP f) = sh
  generalize (ciedeRT ((P + Q) / Flt.lit 2.0) (meanHue P Q H K) : FP f) = rt
  have e1 : sqr ((d.L - c.L) / sl) = sqr ((c.L - d.L) / sl) := (oL.div sl).sq
  have e2 : sqr ((Q - P) / sc) = sqr ((P - Q) / sc) := (oC.div sc).sq
  have e3 := (oH.div sh).sq
  unfold sqr at *
  rw [e1, e2, e3]
  congr 1
  refine FP.Same.add_left (((oC.div sc).mul_opp (oH.div sh)).mul_left rt) ?_
  exact FP.ne_nzero_of_sgn (FP.add_sgn (FP.add_sgn (FP.sq_sgn _) (FP.sq_sgn _)) (FP.sq_sgn _))

/-- C93 [F]: `delta_E_1976` is symmetric to the last bit, for all floats, if squaring with `powi` does not see
the sign. -/
theorem C93_symmetric_1976 (he : ∀ x : FP f, Flt.powi (-x) 2 = Flt.powi x 2)
    (hz : ∀ x y : FP f, FP.IsZero x → FP.IsZero y → Flt.powi x 2 = Flt.powi y 2) (c d : Lab (FP f)) :
    deltaE1976 c d = deltaE1976 d c := by
  have key : ∀ x y : FP f, Flt.powi (x - y) 2 = Flt.powi (y - x) 2 := by
    intro x y
    rcases FP.sub_swap x y with h | ⟨h1, h2⟩
    · rw [h, he]
    · exact hz _ _ h1 h2
  unfold deltaE1976
  rw [key c.L, key c.a, key c.b]

end

section
/-- rounded exact functions are odd -/
theorem ideal_odd (f : Fmt) : @Spec.OddTrig f (idealLibm f) := by
  letI := idealLibm f
  exact ⟨roundOdd_neg Real.sin_zero, roundOdd_zero Real.sin_zero, roundOdd_neg (by simp), roundOdd_zero (by simp)⟩

/-- some library meets the assumptions of the symmetry theorems -/
example : ∃ L : Libm Fmt.b64, @Spec.OddTrig Fmt.b64 L ∧
    (∀ x : FP Fmt.b64, @Libm.powi _ L (-x) 2 = @Libm.powi _ L x 2) ∧
    ∀ x y : FP Fmt.b64, FP.IsZero x → FP.IsZero y → @Libm.powi _ L x 2 = @Libm.powi _ L y 2 := by
  refine ⟨idealLibm Fmt.b64, ideal_odd _, ?_, ?_⟩
  · intro x
    show roundR _ (((-x).val : ℝ) ^ 2) = roundR _ ((x.val : ℝ) ^ 2)
    rw [FP.val_neg]; push_cast; rw [neg_sq]
  · intro x y hx hy
    show roundR _ ((x.val : ℝ) ^ 2) = roundR _ ((y.val : ℝ) ^ 2)
    rw [hx.2, hy.2]
end
end CS

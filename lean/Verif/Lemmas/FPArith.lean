import Verif.Lemmas.Quant

/-! # Arithmetic lemmas for the IEEE model -/

namespace CS.FP
variable {f : Fmt}

theorem val_of_not_finite {a : FP f} (h : a.isFinite = false) : a.val = 0 := by
  cases a <;> simp_all [isFinite, val]

theorem add_finite {a b : FP f} (ha : a.isFinite = true) (hb : b.isFinite = true)
    (h : |roundQ f (a.val + b.val)| < 2 ^ (f.emax + 1)) :
    (a + b).isFinite = true ∧ (a + b).val = roundQ f (a.val + b.val) := by
  show (add a b).isFinite = true ∧ (add a b).val = _
  unfold add
  simp only [isNaN_of_finite ha, isNaN_of_finite hb, ha, hb, Bool.or_self, Bool.false_eq_true,
    if_false, if_true]
  exact ofQ_finite _ h

theorem neg_finite {a : FP f} (ha : a.isFinite = true) :
    (-a).isFinite = true ∧ (-a).val = -a.val := by
  show (neg a).isFinite = true ∧ (neg a).val = _
  cases a with
  | nan => simp [isFinite] at ha
  | pinf => simp [isFinite] at ha
  | ninf => simp [isFinite] at ha
  | nzero => simp [neg]
  | fin q h =>
    unfold neg
    by_cases h0 : q = 0
    · simp [h0]
    · simp only [h0, if_false]
      exact ⟨rfl, rfl⟩

theorem sub_finite {a b : FP f} (ha : a.isFinite = true) (hb : b.isFinite = true)
    (h : |roundQ f (a.val - b.val)| < 2 ^ (f.emax + 1)) :
    (a - b).isFinite = true ∧ (a - b).val = roundQ f (a.val - b.val) := by
  obtain ⟨h1, h2⟩ := neg_finite hb
  have := add_finite (b := -b) ha h1 (by rw [h2, ← sub_eq_add_neg]; exact h)
  rw [h2, ← sub_eq_add_neg] at this
  exact this

theorem mul_finite' {a b : FP f} (ha : a.isFinite = true) (hb : b.isFinite = true)
    (h : |roundQ f (a.val * b.val)| < 2 ^ (f.emax + 1)) :
    (a * b).isFinite = true ∧ (a * b).val = roundQ f (a.val * b.val) := by
  rw [mul_finite ha hb]; exact ofQ_finite _ h

theorem div_finite' [Libm f] {a b : FP f} (ha : a.isFinite = true) (hb : b.isFinite = true) (h0 : b.val ≠ 0)
    (h : |roundQ f (a.val / b.val)| < 2 ^ (f.emax + 1)) :
    (a / b).isFinite = true ∧ (a / b).val = roundQ f (a.val / b.val) := by
  rw [div_finite ha hb h0]; exact ofQ_finite _ h

theorem isRep_one (f : Fmt) : IsRep f 1 := by
  simpa using isRep_nat (f := f) 1 Nat.one_le_two_pow

/-- `x / x = 1` exactly for finite non-zero `x` -/
theorem div_self [Libm f] {a : FP f} (ha : a.isFinite = true) (h0 : a.val ≠ 0) :
    a / a = fin 1 (isRep_one f) := by
  rw [div_finite ha ha h0, _root_.div_self h0, ofQ_isRep (isRep_one f) one_ne_zero]

theorem eqb_of_val {a b : FP f} (ha : a.isFinite = true) (hb : b.isFinite = true)
    (h : a.val = b.val) : eqb a b = true := by
  rw [eqb_finite ha hb]; simp [h]

theorem eq_of_val {a b : FP f} (ha : a.isFinite = true) (hb : b.isFinite = true)
    (h : a.val = b.val) (h0 : a.val ≠ 0) : a = b := by
  rw [eq_fin_of_val ha rfl h0 (val_rep a), eq_fin_of_val hb h.symm h0 (val_rep a)]

end CS.FP

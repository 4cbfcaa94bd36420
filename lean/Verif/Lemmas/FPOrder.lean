import Verif.Num.FP

/-! # Order lemmas for the IEEE model -/

namespace CS.FP
variable {f : Fmt}

theorem lt_iff (a b : FP f) : lt a b = true ↔ ∃ x y, a.ext = some x ∧ b.ext = some y ∧ x < y := by
  unfold lt
  cases ha : a.ext <;> cases hb : b.ext <;> simp

theorem le_iff (a b : FP f) : le a b = true ↔ ∃ x y, a.ext = some x ∧ b.ext = some y ∧ x ≤ y := by
  unfold le
  cases ha : a.ext <;> cases hb : b.ext <;> simp

theorem eqb_iff (a b : FP f) : eqb a b = true ↔ ∃ x, a.ext = some x ∧ b.ext = some x := by
  unfold eqb
  cases ha : a.ext <;> cases hb : b.ext <;> simp
  exact eq_comm

theorem isNaN_iff (a : FP f) : a.isNaN = true ↔ a.ext = none := by
  cases a <;> simp [isNaN, ext]

theorem isNaN_eq_nan {a : FP f} (h : a.isNaN = true) : a = nan := by
  cases a <;> simp_all [isNaN]

theorem ext_of_not_nan {a : FP f} (h : a.isNaN = false) : ∃ x, a.ext = some x := by
  cases h' : a.ext with
  | none => rw [(isNaN_iff a).2 h'] at h; cases h
  | some x => exact ⟨x, rfl⟩

@[simp] theorem lt_nan_left (a : FP f) : lt nan a = false := by simp [lt, ext]
@[simp] theorem lt_nan_right (a : FP f) : lt a nan = false := by
  unfold lt; cases a.ext <;> simp [ext]
@[simp] theorem le_nan_left (a : FP f) : le nan a = false := by simp [le, ext]
@[simp] theorem le_nan_right (a : FP f) : le a nan = false := by
  unfold le; cases a.ext <;> simp [ext]

theorem lt_fin (p q : ℚ) (hp : IsRep f p) (hq : IsRep f q) :
    lt (fin p hp) (fin q hq) = decide (p < q) := by
  simp [lt, ext]

theorem le_fin (p q : ℚ) (hp : IsRep f p) (hq : IsRep f q) :
    le (fin p hp) (fin q hq) = decide (p ≤ q) := by
  simp [le, ext]

@[simp] theorem val_fin (q : ℚ) (h : IsRep f q) : (fin q h).val = q := rfl
@[simp] theorem isFinite_fin (q : ℚ) (h : IsRep f q) : (fin q h).isFinite = true := rfl
@[simp] theorem val_nzero : (nzero : FP f).val = 0 := rfl
@[simp] theorem isFinite_nzero : (nzero : FP f).isFinite = true := rfl

@[simp] theorem lt_pinf_fin (q : ℚ) (h : IsRep f q) : lt pinf (fin q h) = false := by
  simp [lt, ext]
@[simp] theorem lt_fin_pinf (q : ℚ) (h : IsRep f q) : lt (fin q h) pinf = true := by
  simp only [lt, ext, decide_eq_true_eq]
  exact WithBot.coe_lt_coe.2 (WithTop.coe_lt_top _)
@[simp] theorem lt_ninf_fin (q : ℚ) (h : IsRep f q) : lt ninf (fin q h) = true := by
  simp [lt, ext]
@[simp] theorem lt_fin_ninf (q : ℚ) (h : IsRep f q) : lt (fin q h) ninf = false := by
  simp [lt, ext]
@[simp] theorem lt_nzero_fin (q : ℚ) (h : IsRep f q) : lt nzero (fin q h) = decide (0 < q) := by
  simp only [lt, ext]
  congr 1
  rw [WithBot.coe_lt_coe, WithTop.coe_lt_coe]
@[simp] theorem lt_fin_nzero (q : ℚ) (h : IsRep f q) : lt (fin q h) nzero = decide (q < 0) := by
  simp only [lt, ext]
  congr 1
  rw [WithBot.coe_lt_coe, WithTop.coe_lt_coe]
attribute [simp] lt_fin le_fin

theorem ext_finite {a : FP f} (h : a.isFinite = true) :
    a.ext = some ((a.val : WithTop ℚ) : WithBot (WithTop ℚ)) := by
  cases a <;> simp_all [isFinite, ext, val]

theorem lt_finite {a b : FP f} (ha : a.isFinite = true) (hb : b.isFinite = true) :
    lt a b = decide (a.val < b.val) := by
  simp [lt, ext_finite ha, ext_finite hb]

theorem le_finite {a b : FP f} (ha : a.isFinite = true) (hb : b.isFinite = true) :
    le a b = decide (a.val ≤ b.val) := by
  simp [le, ext_finite ha, ext_finite hb]

theorem eqb_finite {a b : FP f} (ha : a.isFinite = true) (hb : b.isFinite = true) :
    eqb a b = decide (a.val = b.val) := by
  simp [eqb, ext_finite ha, ext_finite hb]

theorem isNaN_of_finite {a : FP f} (h : a.isFinite = true) : a.isNaN = false := by
  cases a <;> simp_all [isFinite, isNaN]

theorem val_rep (a : FP f) : IsRep f a.val := by
  cases a <;> simp only [val] <;> first | exact isRep_zero f | assumption

/-- a finite datum with non-zero value is determined by its value -/
theorem eq_fin_of_val {a : FP f} {q : ℚ} (h : a.isFinite = true) (hq : a.val = q) (h0 : q ≠ 0)
    (hr : IsRep f q) : a = fin q hr := by
  cases a <;> simp_all [isFinite, val]

theorem ofQ_isRep {q : ℚ} (h : IsRep f q) (h0 : q ≠ 0) (s : Bool) : ofQ f s q = fin q h := by
  unfold ofQ
  have h1 : |roundQ f q| < 2 ^ (f.emax + 1) := by rw [h.1]; exact h.2
  rw [dif_pos h1]
  have : roundQ f q ≠ 0 := by rw [h.1]; exact h0
  rw [if_neg this]
  congr 1
  exact h.1

theorem ofQ_zero (s : Bool) : ofQ f s 0 = zeroOf s := by
  unfold ofQ
  simp [roundQ_zero]

theorem isFinite_zeroOf (s : Bool) : (zeroOf s : FP f).isFinite = true := by
  cases s <;> simp [zeroOf, isFinite]

theorem val_zeroOf (s : Bool) : (zeroOf s : FP f).val = 0 := by
  cases s <;> simp [zeroOf, val]

theorem ofQ_finite {q : ℚ} (s : Bool) (h : |roundQ f q| < 2 ^ (f.emax + 1)) :
    (ofQ f s q).isFinite = true ∧ (ofQ f s q).val = roundQ f q := by
  unfold ofQ
  rw [dif_pos h]
  split
  · next h0 => exact ⟨isFinite_zeroOf _, by rw [val_zeroOf, h0]⟩
  · exact ⟨rfl, rfl⟩

/-- A rational of magnitude at most a representable bound rounds to a finite value. -/
theorem ofQ_finite_of_le {q b : ℚ} (s : Bool) (hb : IsRep f b) (h : |q| ≤ b) :
    (ofQ f s q).isFinite = true ∧ (ofQ f s q).val = roundQ f q := by
  apply ofQ_finite
  have h1 : roundQ f q ≤ b := by
    rw [← hb.1]; exact roundQ_mono f (le_of_abs_le h)
  have h2 : -b ≤ roundQ f q := by
    rw [← hb.1, ← roundQ_neg]; exact roundQ_mono f (neg_le_of_abs_le h)
  have : |roundQ f q| ≤ b := abs_le.2 ⟨h2, h1⟩
  exact lt_of_le_of_lt (le_trans this (le_abs_self b)) hb.2

theorem isRep_int (m : ℤ) (hm : |m| ≤ 2 ^ f.p) (h2 : |(m : ℚ)| < 2 ^ (f.emax + 1)) :
    IsRep f (m : ℚ) := ⟨roundQ_int f m hm, h2⟩

theorem isRep_neg {q : ℚ} (h : IsRep f q) : IsRep f (-q) :=
  ⟨by rw [roundQ_neg, h.1], by rw [abs_neg]; exact h.2⟩

end CS.FP

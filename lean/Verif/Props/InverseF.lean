import Verif.Lemmas.FPInverse
import Verif.Lemmas.FPFast
import Mathlib.LinearAlgebra.Matrix.NonsingularInverse
import Mathlib.LinearAlgebra.Matrix.Adjugate

/-!
# C100: matrix inversion in floating point
-/

namespace CS

/-! ### specification -/

/-- the matrix of numbers held by a matrix of floats -/
def Spec.exactM {f : Fmt} (m : Matrix33 (FP f)) : Matrix (Fin 3) (Fin 3) ℚ := fun i j => (m.get i j).val

section
variable {f : Fmt} [Libm f]

omit [Libm f] in
theorem abs_val {a : FP f} (h : a.isFinite = true) : a.abs.isFinite = true ∧ a.abs.val = |a.val| := by
  cases a with
  | nan => simp [FP.isFinite] at h
  | pinf => simp [FP.isFinite] at h
  | ninf => simp [FP.isFinite] at h
  | nzero => simp [FP.abs, FP.val, FP.isFinite]
  | fin q hq =>
    by_cases hq0 : q < 0
    · have e : (FP.fin q hq : FP f).abs = -(FP.fin q hq) := by
        show (if q < 0 then FP.neg (FP.fin q hq) else FP.fin q hq) = _
        rw [if_pos hq0]; rfl
      rw [e]
      obtain ⟨a, b⟩ := FP.neg_finite (a := (FP.fin q hq : FP f)) rfl
      exact ⟨a, by rw [b]; simp [FP.val, abs_of_neg hq0]⟩
    · simp [FP.abs, hq0, FP.val, FP.isFinite, abs_of_nonneg (not_lt.1 hq0)]

theorem general_of (hf : Std f) (m : Matrix33 (FP f)) (hm : ∀ i j, (m.get i j).isFinite = true)
    (h : 4 * f.u ≤ (m.get 0 2).val ∨ 4 * f.u ≤ (m.get 1 2).val ∨ 4 * f.u ≤ |(m.get 2 2).val - 1|)
    (h2 : |(m.get 2 2).val| ≤ 2 ^ 20) : m.generalPath = true := by
  have u0 := f.u_pos
  have u1 := hf.hu
  have hE : (FP.ofQ f false (2 ^ (1 - (f.p : ℤ)))).isFinite = true ∧
      (FP.ofQ f false (2 ^ (1 - (f.p : ℤ)))).val < 3 * f.u := by
    have e : (2:ℚ) ^ (1 - (f.p : ℤ)) = 2 * f.u := by
      rw [zpow_sub₀ (by norm_num)]; unfold Fmt.u; simp [div_eq_mul_inv]
    rw [e]
    obtain ⟨a, b⟩ := ofQ_err (f := f) false (q := 2 * f.u) (by
      rw [abs_of_pos (by positivity)]
      refine le_trans ?_ (emax_big hf); norm_num at u1 ⊢; linarith)
    refine ⟨a, ?_⟩
    rw [abs_of_pos (by positivity : 0 < 2 * f.u)] at b
    have := (abs_le.1 b).2
    have e2 := hf.wide.heta
    have : 2 * f.u * f.u ≤ 2 * f.u * (1 / 2 ^ 24) := mul_le_mul_of_nonneg_left u1 (by positivity)
    norm_num at e2 this ⊢; linarith
  have h1 : (Flt.one : FP f).isFinite = true ∧ (Flt.one : FP f).val = 1 := by
    show (FP.lit 1 : FP f).isFinite = true ∧ (FP.lit 1 : FP f).val = 1
    rw [FP.lit_one]; exact ⟨rfl, rfl⟩
  unfold Matrix33.generalPath
  show (FP.lt (FP.ofQ f false (2 ^ (1 - (f.p : ℤ)))) (m.get 0 2) ||
    FP.lt (FP.ofQ f false (2 ^ (1 - (f.p : ℤ)))) (m.get 1 2) ||
    FP.lt (FP.ofQ f false (2 ^ (1 - (f.p : ℤ)))) (FP.abs (m.get 2 2 - Flt.one))) = true
  simp only [Bool.or_eq_true]
  rcases h with h | h | h
  · left; left
    rw [FP.lt_finite hE.1 (hm 0 2)]; simp only [decide_eq_true_eq]; linarith [hE.2]
  · left; right
    rw [FP.lt_finite hE.1 (hm 1 2)]; simp only [decide_eq_true_eq]; linarith [hE.2]
  · right
    have hb : |(m.get 2 2).val - (Flt.one : FP f).val| ≤ 2 ^ 20 + 1 := by
      rw [h1.2]; refine (abs_sub _ _).trans ?_; rw [abs_one]; linarith
    obtain ⟨s1, s2⟩ := FP.sub_err (hm 2 2) h1.1 (hb.trans ((by norm_num : (2:ℚ) ^ 20 + 1 ≤ 2 ^ 126).trans (emax_big hf)))
    obtain ⟨a1, a2⟩ := abs_val s1
    rw [FP.lt_finite hE.1 a1, a2]
    simp only [decide_eq_true_eq]
    rw [h1.2] at s2
    have t := abs_sub_abs_le_abs_sub ((m.get 2 2).val - 1) (m.get 2 2 - Flt.one : FP f).val
    rw [abs_sub_comm _ ((m.get 2 2 - Flt.one : FP f).val)] at t
    have k : |(m.get 2 2).val - 1| * f.u ≤ |(m.get 2 2).val - 1| * (1 / 2 ^ 24) :=
      mul_le_mul_of_nonneg_left u1 (abs_nonneg _)
    have := hE.2
    norm_num at k ⊢; linarith

theorem scaleBy_big (hf : Std f) (s : Matrix33 (FP f)) {r : FP f} (hr : r.isFinite = true)
    (hs : ∀ i j, (s.get i j).isFinite = true ∧ |(s.get i j).val| ≤ 2 ^ 42) (h0 : 1 / 2 ^ 61 ≤ |r.val|) :
    s.scaleBy r = some (s.map (· / r)) := by
  obtain ⟨a1, a2⟩ := abs_val hr
  have h1 : (Flt.one : FP f).isFinite = true ∧ (Flt.one : FP f).val = 1 := by
    show (FP.lit 1 : FP f).isFinite = true ∧ (FP.lit 1 : FP f).val = 1
    rw [FP.lit_one]; exact ⟨rfl, rfl⟩
  unfold Matrix33.scaleBy
  by_cases hc : 1 ≤ |r.val|
  · have : Flt.ge (Flt.abs r) (Flt.one : FP f) = true := by
      show FP.le Flt.one r.abs = true
      rw [FP.le_finite h1.1 a1, h1.2, a2]; simpa using hc
    rw [if_pos this]
  · have : ¬ Flt.ge (Flt.abs r) (Flt.one : FP f) = true := by
      show ¬ FP.le Flt.one r.abs = true
      rw [FP.le_finite h1.1 a1, h1.2, a2]; simpa using hc
    rw [if_neg this]
    push Not at hc
    have u0 := f.u_pos
    have u1 := hf.hu
    have eta := hf.wide.heta
    have em := hf.wide.hmax
    -- the smallest normal number
    have z0 : (0:ℚ) < 2 ^ f.emin := two_zpow_pos _
    have ze : (2:ℚ) ^ f.emin = 2 / 2 ^ f.emax := by
      unfold Fmt.emin; rw [zpow_sub₀ (by norm_num)]; simp
    have zl : (2:ℚ) ^ f.emin ≤ 1 / 2 ^ 126 := by
      rw [ze, div_le_div_iff₀ (by positivity) (by norm_num)]; linarith
    obtain ⟨m1, m2⟩ := ofQ_err (f := f) false (q := 2 ^ f.emin) (by
      rw [abs_of_pos z0]; exact zl.trans (le_trans (by norm_num) (emax_big hf)))
    have ee : f.eta = 2 ^ f.emin * f.u := by
      unfold Fmt.eta Fmt.u; rw [zpow_sub₀ (by norm_num)]; simp [div_eq_mul_inv]
    rw [abs_of_pos z0, ee] at m2
    have zu : 2 ^ f.emin * f.u ≤ 2 ^ f.emin * (1 / 2 ^ 24) := mul_le_mul_of_nonneg_left u1 z0.le
    obtain ⟨m3, m4⟩ := abs_le.1 m2
    set mp := FP.ofQ f false (2 ^ f.emin) with hmp
    have mp1 : 2 ^ f.emin * 0.99 ≤ mp.val := by norm_num at zu ⊢; linarith
    have mp2 : mp.val ≤ 2 ^ f.emin * 1.01 := by norm_num at zu ⊢; linarith
    have mp0 : 0 < mp.val := lt_of_lt_of_le (by positivity) mp1
    have ba : 0 < |r.val| := lt_of_lt_of_le (by norm_num) h0
    obtain ⟨q1, q2⟩ := FP.div_err (a := r.abs) (b := mp) a1 m1 mp0.ne' (by
      rw [a2, abs_div, abs_abs, abs_of_pos mp0, div_le_iff₀ mp0]
      calc |r.val| ≤ 1 := hc.le
        _ ≤ 2 ^ f.emax * (2 ^ f.emin * 0.99) := by
          rw [ze]
          have : (2:ℚ) ^ f.emax * (2 / 2 ^ f.emax * 0.99) = 2 * 0.99 := by field_simp
          rw [this]; norm_num
        _ ≤ _ := mul_le_mul_of_nonneg_left mp1 (by positivity))
    rw [a2] at q2
    have big : 2 ^ 64 ≤ |r.val| / mp.val := by
      rw [le_div_iff₀ mp0]
      norm_num at mp2 zl h0 ⊢; linarith
    have qb : 2 ^ 43 ≤ (r.abs / mp).val := by
      rw [abs_of_pos (by positivity : 0 < |r.val| / mp.val)] at q2
      have := (abs_le.1 q2).1
      have k : |r.val| / mp.val * f.u ≤ |r.val| / mp.val * (1 / 2 ^ 24) :=
        mul_le_mul_of_nonneg_left u1 (by positivity)
      generalize |r.val| / mp.val = y at *
      norm_num at u1 eta k big ⊢
      linarith
    have each : ∀ i j, Flt.gt (Flt.abs r / Flt.minPos : FP f) (Flt.abs (s.get i j)) = true := by
      intro i j
      obtain ⟨b1, b2⟩ := abs_val (hs i j).1
      show FP.lt (s.get i j).abs (r.abs / mp) = true
      rw [FP.lt_finite b1 q1, b2]
      simp only [decide_eq_true_eq]
      have := (hs i j).2
      norm_num at this qb ⊢; linarith
    have all : s.all (fun e => Flt.gt (Flt.abs r / Flt.minPos : FP f) (Flt.abs e)) = true := by
      unfold Matrix33.all
      simp only [Bool.and_eq_true]
      exact ⟨⟨⟨⟨⟨⟨⟨⟨each 0 0, each 0 1⟩, each 0 2⟩, each 1 0⟩, each 1 1⟩, each 1 2⟩, each 2 0⟩, each 2 1⟩, each 2 2⟩
    rw [if_pos all]

/-- every entry of the cofactor matrix is near the exact one -/
theorem cofactors_err (hf : Std f) (m : Matrix33 (FP f)) {A : ℚ} (hm : ∀ i j, (m.get i j).isFinite = true)
    (hA : ∀ i j, |(m.get i j).val| ≤ A) (hA1 : 1 / 2 ^ 20 ≤ A) (hA2 : A ≤ 2 ^ 20) (i j : Fin 3) :
    (m.cofactors.get i j).isFinite = true ∧
    |(m.cofactors.get i j).val - (Spec.exactM m).adjugate i j| ≤ 4.01 * (A ^ 2 * f.u) ∧
    |(Spec.exactM m).adjugate i j| ≤ 2 * A ^ 2 ∧ |(m.cofactors.get i j).val| ≤ 2.001 * A ^ 2 := by
  have key : ∀ (a b c e a' b' c' e' : Fin 3) (t : FP f) (T : ℚ),
      t = m.get a b * m.get c e - m.get a' b' * m.get c' e' →
      T = (m.get a b).val * (m.get c e).val - (m.get a' b').val * (m.get c' e').val →
      t.isFinite = true ∧ |t.val - T| ≤ 4.01 * (A ^ 2 * f.u) ∧ |T| ≤ 2 * A ^ 2 ∧ |t.val| ≤ 2.001 * A ^ 2 := by
    intro a b c e a' b' c' e' t T ht hT
    rw [ht, hT]
    exact minor_err hf (hm _ _) (hm _ _) (hm _ _) (hm _ _) (hA _ _) (hA _ _) (hA _ _) (hA _ _) hA1 hA2
  rw [Matrix.adjugate_fin_three]
  fin_cases i <;> fin_cases j
  · exact key 1 1 2 2 2 1 1 2 _ _ rfl (by simp [Spec.exactM]; ring)
  · exact key 2 1 0 2 0 1 2 2 _ _ rfl (by simp [Spec.exactM]; ring)
  · exact key 0 1 1 2 1 1 0 2 _ _ rfl (by simp [Spec.exactM]; ring)
  · exact key 2 0 1 2 1 0 2 2 _ _ rfl (by simp [Spec.exactM]; ring)
  · exact key 0 0 2 2 2 0 0 2 _ _ rfl (by simp [Spec.exactM]; ring)
  · exact key 1 0 0 2 0 0 1 2 _ _ rfl (by simp [Spec.exactM]; ring)
  · exact key 1 0 2 1 2 0 1 1 _ _ rfl (by simp [Spec.exactM]; ring)
  · exact key 2 0 0 1 0 0 2 1 _ _ rfl (by simp [Spec.exactM]; ring)
  · exact key 0 0 1 1 1 0 0 1 _ _ rfl (by simp [Spec.exactM]; ring)

end

/-! ## C100 -/

/-- C100 [F]: `inverse` of a matrix whose entries are at most `A`, whose determinant is at least `d` and not
lost in the rounding errors, and whose last column does not look like `(0, 0, 1)`, succeeds. Each entry of
the result is within `100 A^5/d^2` roundings of the entry of the exact inverse. -/
theorem C100_entries {f : Fmt} (hf : Std f) [Libm f] (m : Matrix33 (FP f))
    (hm : ∀ i j, (m.get i j).isFinite = true) (A d : ℚ) (hA : ∀ i j, |(m.get i j).val| ≤ A)
    (hA1 : 1 / 2 ^ 20 ≤ A) (hA2 : A ≤ 2 ^ 20) (hd : d ≤ |(Spec.exactM m).det|)
    (hd1 : 2 ^ 12 * (A ^ 3 * f.u) ≤ d) (hd2 : 1 / 2 ^ 60 ≤ d)
    (hg : 4 * f.u ≤ (m.get 0 2).val ∨ 4 * f.u ≤ (m.get 1 2).val ∨ 4 * f.u ≤ |(m.get 2 2).val - 1|) :
    ∃ n, m.inverse = some n ∧ ∀ i j, (n.get i j).isFinite = true ∧
      |(n.get i j).val - (Spec.exactM m)⁻¹ i j| ≤ 100 * (A ^ 5 / d ^ 2 * f.u) := by
  obtain ⟨u0, u1, A0, _, _⟩ := scale_facts hf hA1
  have cof := cofactors_err hf m hm hA hA1 hA2
  have term : ∀ k : Fin 3, (m.get 0 k * m.cofactors.get k 0).isFinite = true ∧
      |(m.get 0 k * m.cofactors.get k 0).val - (m.get 0 k).val * (Spec.exactM m).adjugate k 0| ≤
        6.02 * (A ^ 3 * f.u) ∧ |(m.get 0 k).val * (Spec.exactM m).adjugate k 0| ≤ 2 * A ^ 3 := by
    intro k
    obtain ⟨c1, c2, c3, c4⟩ := cof k 0
    obtain ⟨t1, t2⟩ := term_err hf (hm 0 k) c1 (hA 0 k) c2 c4 hA1 hA2
    refine ⟨t1, t2, ?_⟩
    rw [abs_mul, show 2 * A ^ 3 = A * (2 * A ^ 2) by ring]
    exact mul_le_mul (hA 0 k) c3 (abs_nonneg _) A0.le
  obtain ⟨r1, r2⟩ := det_err hf (term 0).1 (term 1).1 (term 2).1 (term 0).2.1 (term 1).2.1 (term 2).2.1
    (term 0).2.2 (term 1).2.2 (term 2).2.2 hA1 hA2
  have hdet : (m.get 0 0).val * (Spec.exactM m).adjugate 0 0 + (m.get 0 1).val * (Spec.exactM m).adjugate 1 0
      + (m.get 0 2).val * (Spec.exactM m).adjugate 2 0 = (Spec.exactM m).det := by
    have := congrFun (congrFun (Matrix.mul_adjugate (Spec.exactM m)) 0) 0
    rw [Matrix.mul_apply, Fin.sum_univ_three] at this
    simpa [Spec.exactM] using this
  rw [hdet] at r2
  have d6 : |(Spec.exactM m).det| ≤ 6 * A ^ 3 := by
    rw [← hdet]
    refine (abs_add_le _ _).trans ((add_le_add_left (abs_add_le _ _) _).trans ?_)
    linarith [(term 0).2.2, (term 1).2.2, (term 2).2.2]
  set r := m.get 0 0 * m.cofactors.get 0 0 + m.get 0 1 * m.cofactors.get 1 0 + m.get 0 2 * m.cofactors.get 2 0
    with hr
  have rl : 1 / 2 ^ 61 ≤ |r.val| := by
    have := abs_sub_abs_le_abs_sub (Spec.exactM m).det r.val
    rw [abs_sub_comm] at this
    norm_num at hd1 hd2 ⊢; linarith
  have sb : ∀ i j, (m.cofactors.get i j).isFinite = true ∧ |(m.cofactors.get i j).val| ≤ 2 ^ 42 := by
    intro i j
    obtain ⟨c1, _, _, c4⟩ := cof i j
    refine ⟨c1, c4.trans ?_⟩
    have : A ^ 2 ≤ (2 ^ 20) ^ 2 := pow_le_pow_left₀ A0.le hA2 2
    norm_num at this ⊢; linarith
  refine ⟨m.cofactors.map (· / r), ?_, fun i j => ?_⟩
  · unfold Matrix33.inverse
    rw [if_pos (general_of hf m hm hg ((hA 2 2).trans hA2))]
    exact scaleBy_big hf _ r1 sb rl
  · obtain ⟨c1, c2, c3, c4⟩ := cof i j
    have e1 : (m.cofactors.map (· / r)).get i j = m.cofactors.get i j / r := by
      fin_cases i <;> fin_cases j <;> rfl
    have e2 : (Spec.exactM m)⁻¹ i j = (Spec.exactM m).adjugate i j / (Spec.exactM m).det := by
      rw [Matrix.inv_def, Matrix.smul_apply, Ring.inverse_eq_inv', smul_eq_mul, div_eq_inv_mul]
    rw [e1, e2]
    exact quot_err hf c1 r1 c2 c3 r2 d6 hd hd1 hd2 hA1 hA2

/-- C100 [F]: multiplied with the matrix on either side, the returned inverse is within `300 A^6/d^2`
roundings of the identity. -/
theorem C100_residual {f : Fmt} (hf : Std f) [Libm f] (m n : Matrix33 (FP f))
    (hm : ∀ i j, (m.get i j).isFinite = true) (A d : ℚ) (hA : ∀ i j, |(m.get i j).val| ≤ A)
    (hA1 : 1 / 2 ^ 20 ≤ A) (hA2 : A ≤ 2 ^ 20) (hd : d ≤ |(Spec.exactM m).det|)
    (hd1 : 2 ^ 12 * (A ^ 3 * f.u) ≤ d) (hd2 : 1 / 2 ^ 60 ≤ d)
    (hg : 4 * f.u ≤ (m.get 0 2).val ∨ 4 * f.u ≤ (m.get 1 2).val ∨ 4 * f.u ≤ |(m.get 2 2).val - 1|)
    (hn : m.inverse = some n) (i j : Fin 3) :
    |(Spec.exactM m * Spec.exactM n) i j - (if i = j then 1 else 0)| ≤ 300 * (A ^ 6 / d ^ 2 * f.u) ∧
    |(Spec.exactM n * Spec.exactM m) i j - (if i = j then 1 else 0)| ≤ 300 * (A ^ 6 / d ^ 2 * f.u) := by
  obtain ⟨n', h1, h2⟩ := C100_entries hf m hm A d hA hA1 hA2 hd hd1 hd2 hg
  obtain rfl : n' = n := Option.some.inj (h1.symm.trans hn)
  have d0 : 0 < d := lt_of_lt_of_le (by norm_num) hd2
  have A0 : 0 ≤ A := le_trans (abs_nonneg _) (hA 0 0)
  have hu : IsUnit (Spec.exactM m).det := by
    rw [isUnit_iff_ne_zero]; intro e; rw [e, abs_zero] at hd; linarith
  have i1 : (if i = j then (1:ℚ) else 0) = (Spec.exactM m * (Spec.exactM m)⁻¹) i j := by
    rw [Matrix.mul_nonsing_inv _ hu, Matrix.one_apply]
  have i2 : (if i = j then (1:ℚ) else 0) = ((Spec.exactM m)⁻¹ * Spec.exactM m) i j := by
    rw [Matrix.nonsing_inv_mul _ hu, Matrix.one_apply]
  set E := 100 * (A ^ 5 / d ^ 2 * f.u) with hE
  have e : 300 * (A ^ 6 / d ^ 2 * f.u) = A * E + A * E + A * E := by rw [hE]; ring
  have b1 : ∀ k, |(m.get i k).val * ((n'.get k j).val - (Spec.exactM m)⁻¹ k j)| ≤ A * E := fun k => by
    rw [abs_mul]; exact mul_le_mul (hA i k) (h2 k j).2 (abs_nonneg _) A0
  have b2 : ∀ k, |((n'.get i k).val - (Spec.exactM m)⁻¹ i k) * (m.get k j).val| ≤ A * E := fun k => by
    rw [abs_mul, mul_comm]; exact mul_le_mul (hA k j) (h2 i k).2 (abs_nonneg _) A0
  constructor
  · rw [i1, Matrix.mul_apply, Matrix.mul_apply, ← Finset.sum_sub_distrib, Fin.sum_univ_three, e]
    simp only [← mul_sub]
    refine (abs_add_le _ _).trans ((add_le_add_left (abs_add_le _ _) _).trans ?_)
    exact add_le_add (add_le_add (b1 0) (b1 1)) (b1 2)
  · rw [i2, Matrix.mul_apply, Matrix.mul_apply, ← Finset.sum_sub_distrib, Fin.sum_univ_three, e]
    simp only [← sub_mul]
    refine (abs_add_le _ _).trans ((add_le_add_left (abs_add_le _ _) _).trans ?_)
    exact add_le_add (add_le_add (b2 0) (b2 1)) (b2 2)

/-- Not vacuous: the matrix `[[2,1,1],[1,2,1],[1,1,2]]` in f32 meets the hypotheses with `A = 2`, `d = 4`. -/
example : ∃ m : Matrix33 (FP Fmt.b32), (∀ i j, (m.get i j).isFinite = true) ∧ (∀ i j, |(m.get i j).val| ≤ 2) ∧
    (4:ℚ) ≤ |(Spec.exactM m).det| ∧ 2 ^ 12 * (2 ^ 3 * Fmt.b32.u) ≤ 4 ∧ 4 * Fmt.b32.u ≤ (m.get 0 2).val := by
  have v1 : (FP.ofQ Fmt.b32 false 1).isFinite = true ∧ (FP.ofQ Fmt.b32 false 1).val = 1 := of_decide_eq_true (by krefl)
  have v2 : (FP.ofQ Fmt.b32 false 2).isFinite = true ∧ (FP.ofQ Fmt.b32 false 2).val = 2 := of_decide_eq_true (by krefl)
  generalize FP.ofQ Fmt.b32 false 1 = a at v1
  generalize FP.ofQ Fmt.b32 false 2 = b at v2
  refine ⟨⟨b, a, a, a, b, a, a, a, b⟩, fun i j => ?_, fun i j => ?_, ?_, ?_, ?_⟩
  · fin_cases i <;> fin_cases j <;> first | exact v1.1 | exact v2.1
  · fin_cases i <;> fin_cases j <;> simp [Matrix33.get, v1.2, v2.2]
  · rw [Matrix.det_fin_three]
    simp [Spec.exactM, Matrix33.get, v1.2, v2.2]; norm_num
  · norm_num [Fmt.u, Fmt.b32]
  · simp [Matrix33.get, v1.2]; norm_num [Fmt.u, Fmt.b32]

end CS

import Verif.Lemmas.Matrix

/-! # Lemmas about the two inversion routines over the reals -/

namespace CS
open Spec Matrix33

/-- the entries that select the adjugate branch of `inverse` -/
def GeneralCase (m : Matrix33 ℝ) : Prop :=
  (2:ℝ) ^ (-52 : ℤ) < m.x2 ∨ (2:ℝ) ^ (-52 : ℤ) < m.x5 ∨ (2:ℝ) ^ (-52 : ℤ) < |m.x8 - 1|

theorem generalPath_iff (m : Matrix33 ℝ) : m.generalPath = true ↔ GeneralCase m := by
  unfold Matrix33.generalPath GeneralCase
  simp only [Flt.gt, flt_lt, Bool.or_eq_true, decide_eq_true_eq, Matrix33.get, Flt.one, flt_lit,
    flt_abs, Rat.cast_one, or_assoc]
  rfl

theorem map_div_get (s : Matrix33 ℝ) (r : ℝ) : toM (s.map (· / r)) = r⁻¹ • toM s := by
  ext i j
  fin_cases i <;> fin_cases j <;> simp [toM, Matrix33.map, div_eq_inv_mul]

theorem cof_mul (m : Matrix33 ℝ) : toM m.cofactors * toM m = m.determinant • 1 := by
  ext i j
  fin_cases i <;> fin_cases j <;>
    simp [toM, Matrix.mul_apply, Fin.sum_univ_three, Matrix33.cofactors, Matrix33.get,
      Matrix33.determinant] <;> ring

theorem cof_det (m : Matrix33 ℝ) :
    m.get 0 0 * m.cofactors.get 0 0 + m.get 0 1 * m.cofactors.get 1 0
      + m.get 0 2 * m.cofactors.get 2 0 = m.determinant := by
  simp [Matrix33.cofactors, Matrix33.get, Matrix33.determinant]; ring

theorem inverse_general {m : Matrix33 ℝ} (h : GeneralCase m) :
    m.inverse = m.cofactors.scaleBy m.determinant := by
  unfold Matrix33.inverse
  rw [if_pos ((generalPath_iff m).2 h)]
  simp only [cof_det]

/-- the upper left 2x2 determinant, which is what the affine branch divides by -/
def det2 (m : Matrix33 ℝ) : ℝ := m.x0 * m.x4 - m.x3 * m.x1

/-- the matrix returned by the affine branch -/
noncomputable def affineInv (m : Matrix33 ℝ) : Matrix33 ℝ :=
  let r := det2 m
  ⟨m.x4 / r, -m.x1 / r, 0, -m.x3 / r, m.x0 / r, 0,
   (m.x7 * m.x3 - m.x6 * m.x4) / r, (m.x6 * m.x1 - m.x7 * m.x0) / r, 1 / r⟩

theorem inverse_affine {m : Matrix33 ℝ} (h : ¬ GeneralCase m) (n : Matrix33 ℝ) :
    m.inverse = some n ↔
      (1 ≤ |det2 m| ∨ ∀ e ∈ [m.x0, m.x1, m.x3, m.x4, 1], |e| < |det2 m| / 2 ^ (-1022 : ℤ)) ∧
        n = affineInv m := by
  unfold Matrix33.inverse
  rw [if_neg (by rw [generalPath_iff]; exact h)]
  simp only [Option.map_eq_some_iff, scaleBy_some_iff, Matrix33.get, entries, Flt.zero, Flt.one,
    flt_lit, Rat.cast_one, Rat.cast_zero, List.forall_mem_cons, List.not_mem_nil, false_imp_iff,
    implies_true, and_true, abs_neg, abs_zero, abs_one]
  have hd : m.x0 * m.x4 - m.x3 * m.x1 = det2 m := rfl
  simp only [hd]
  have he : (Flt.minPos : ℝ) = 2 ^ (-1022 : ℤ) := rfl
  rw [he]
  have hpos : (0:ℝ) < 2 ^ (-1022 : ℤ) := zpow_pos (by norm_num) _
  constructor
  · rintro ⟨s, ⟨h1, rfl⟩, rfl⟩
    refine ⟨by tauto, ?_⟩
    ext <;> simp [affineInv, Matrix33.map, det2] <;> ring
  · rintro ⟨h1, rfl⟩
    refine ⟨_, ⟨?_, rfl⟩, ?_⟩
    · rcases h1 with h1 | ⟨a1, a2, a3, a4, a5⟩
      · exact Or.inl h1
      · have : (0:ℝ) < |det2 m| / 2 ^ (-1022 : ℤ) := lt_trans (by norm_num) a5
        tauto
    · ext <;> simp [affineInv, Matrix33.map, det2] <;> ring

/-! ## Gauss-Jordan -/

theorem get_ofFn (f : Fin 3 → Fin 3 → ℝ) (i j : Fin 3) : (ofFn f).get i j = f i j := by
  fin_cases i <;> fin_cases j <;> rfl

theorem get_ext {a b : Matrix33 ℝ} (h : ∀ i j, a.get i j = b.get i j) : a = b := by
  ext
  exacts [h 0 0, h 0 1, h 0 2, h 1 0, h 1 1, h 1 2, h 2 0, h 2 1, h 2 2]

theorem get_mul (a b : Matrix33 ℝ) (i j : Fin 3) :
    (a * b).get i j = a.get i 0 * b.get 0 j + a.get i 1 * b.get 1 j + a.get i 2 * b.get 2 j := by
  rw [mul_def]
  fin_cases i <;> fin_cases j <;> simp [Matrix33.get]

theorem rowSub_get (a : Matrix33 ℝ) (j i : Fin 3) (f : ℝ) (p q : Fin 3) :
    (a.rowSub j i f).get p q = if p = j then a.get j q - f * a.get i q else a.get p q := by
  simp [rowSub, get_ofFn]
theorem rowSwap_get (a : Matrix33 ℝ) (i p : Fin 3) (x y : Fin 3) :
    (a.rowSwap i p).get x y = if x = i then a.get p y else if x = p then a.get i y else a.get x y := by
  simp [rowSwap, get_ofFn]
theorem rowDiv_get (a : Matrix33 ℝ) (i : Fin 3) (f : ℝ) (x y : Fin 3) :
    (a.rowDiv i f).get x y = if x = i then a.get i y / f else a.get x y := by
  simp [rowDiv, get_ofFn]

theorem rowSub_mul (a b : Matrix33 ℝ) (j i : Fin 3) (f : ℝ) :
    (a * b).rowSub j i f = a.rowSub j i f * b := by
  apply get_ext; intro p q
  simp only [rowSub_get, get_mul]; split <;> ring
theorem rowSwap_mul (a b : Matrix33 ℝ) (i p : Fin 3) :
    (a * b).rowSwap i p = a.rowSwap i p * b := by
  apply get_ext; intro x y
  simp only [rowSwap_get, get_mul]; split <;> [rfl; split <;> rfl]
theorem rowDiv_mul (a b : Matrix33 ℝ) (i : Fin 3) (f : ℝ) :
    (a * b).rowDiv i f = a.rowDiv i f * b := by
  apply get_ext; intro x y
  simp only [rowDiv_get, get_mul]; split <;> ring

theorem rowSub_det (a : Matrix33 ℝ) {j i : Fin 3} (h : j ≠ i) (f : ℝ) :
    (a.rowSub j i f).determinant = a.determinant := by
  simp only [Matrix33.determinant, rowSub_get]
  fin_cases j <;> fin_cases i <;> simp at h ⊢ <;> ring
theorem rowSwap_det (a : Matrix33 ℝ) {i p : Fin 3} (h : p ≠ i) :
    (a.rowSwap i p).determinant = -a.determinant := by
  simp only [Matrix33.determinant, rowSwap_get]
  fin_cases p <;> fin_cases i <;> simp at h ⊢ <;> ring
theorem rowSwap_self (a : Matrix33 ℝ) (i : Fin 3) : a.rowSwap i i = a := by
  apply get_ext; intro x y
  simp only [rowSwap_get]; split <;> [simp_all; rfl]

/-- the swap step, uniform in whether a swap happens -/
theorem swap_uniform (t s : Matrix33 ℝ) (i p : Fin 3) :
    (if p ≠ i then (t.rowSwap i p, s.rowSwap i p) else (t, s))
      = (t.rowSwap i p, s.rowSwap i p) := by
  by_cases h : p = i
  · subst h; simp [rowSwap_self]
  · simp [h]

theorem rowSwap_absdet (a : Matrix33 ℝ) (i p : Fin 3) :
    |(a.rowSwap i p).determinant| = |a.determinant| := by
  by_cases h : p = i
  · subst h; rw [rowSwap_self]
  · rw [rowSwap_det a h, abs_neg]

/-- The pivot row of column `c` among rows `c..2`: the first one of largest absolute value. -/
structure IsPivot (m : Matrix33 ℝ) (c p : Fin 3) : Prop where
  ge : c ≤ p
  le : ∀ j, c ≤ j → |m.get j c| ≤ |m.get p c|
  first : ∀ j, c ≤ j → j < p → |m.get j c| < |m.get p c|

theorem fwd0 (m : Matrix33 ℝ) (p : Fin 3) (hp : IsPivot m 0 p) :
    m.gjForward 0 [1, 2] (m, identity) = if m.get p 0 = 0 then none else
      let u := m.rowSwap 0 p
      let v := (identity : Matrix33 ℝ).rowSwap 0 p
      let f := u.get 1 0 / u.get 0 0
      let u1 := u.rowSub 1 0 f
      let v1 := v.rowSub 1 0 f
      let g := u1.get 2 0 / u1.get 0 0
      some (u1.rowSub 2 0 g, v1.rowSub 2 0 g) := by
  have hpv : [1, 2].foldl (m.pivotStep 0) (0, Flt.abs (m.get 0 0)) = (p, |m.get p 0|) := by
    obtain ⟨h1, h2, h3⟩ := hp
    have a0 := h2 0 (by decide); have a1 := h2 1 (by decide); have a2 := h2 2 (by decide)
    have b0 := h3 0 (by decide); have b1 := h3 1 (by decide)
    simp only [List.foldl, pivotStep, Flt.gt, flt_lt, flt_abs, decide_eq_true_eq]
    fin_cases p
    · have e1 : ¬ |m.get 0 0| < |m.get 1 0| := by simpa using a1
      have e2 : ¬ |m.get 0 0| < |m.get 2 0| := by simpa using a2
      simp [e1, e2]
    · have e1 : |m.get 0 0| < |m.get 1 0| := by simpa using b0 (by decide)
      have e2 : ¬ |m.get 1 0| < |m.get 2 0| := by simpa using a2
      simp [e1, e2]
    · have e1 : |m.get 0 0| < |m.get 2 0| := by simpa using b0 (by decide)
      have e2 : |m.get 1 0| < |m.get 2 0| := by simpa using b1 (by decide)
      split <;> simp [e1, e2]
  unfold gjForward
  rw [hpv]
  simp only [flt_eqb, Flt.zero, flt_lit, Rat.cast_zero, decide_eq_true_eq, abs_eq_zero]
  split
  · rfl
  · rw [swap_uniform]; rfl

theorem fwd1 (m : Matrix33 ℝ) (q : Fin 3) (hq : IsPivot m 1 q) (st : Matrix33 ℝ × Matrix33 ℝ) :
    m.gjForward 1 [2] st = if m.get q 1 = 0 then none else
      let u := st.1.rowSwap 1 q
      let v := st.2.rowSwap 1 q
      let f := u.get 2 1 / u.get 1 1
      some (u.rowSub 2 1 f, v.rowSub 2 1 f) := by
  have hpv : [2].foldl (m.pivotStep 1) (1, Flt.abs (m.get 1 1)) = (q, |m.get q 1|) := by
    obtain ⟨h1, h2, h3⟩ := hq
    have a2 := h2 2 (by decide)
    have b1 := h3 1 (by decide)
    simp only [List.foldl, pivotStep, Flt.gt, flt_lt, flt_abs, decide_eq_true_eq]
    fin_cases q
    · simp at h1
    · rw [if_neg (by simpa using a2)]; rfl
    · rw [if_pos (by simpa using b1 (by decide))]; rfl
  unfold gjForward
  rw [hpv]
  simp only [flt_eqb, Flt.zero, flt_lit, Rat.cast_zero, decide_eq_true_eq, abs_eq_zero]
  split
  · rfl
  · obtain ⟨t, s⟩ := st
    simp only [swap_uniform]; rfl

/-- The backward phase on an upper triangular matrix with non-zero first two pivots. -/
theorem bwd (t s : Matrix33 ℝ) (h10 : t.get 1 0 = 0) (h20 : t.get 2 0 = 0) (h21 : t.get 2 1 = 0)
    (h00 : t.get 0 0 ≠ 0) (h11 : t.get 1 1 ≠ 0) :
    let r := (do
      let st ← gjBackward 2 [0, 1] (t, s)
      let st ← gjBackward 1 [0] st
      let st ← gjBackward 0 [] st
      some st.2)
    (t.get 2 2 = 0 → r = none) ∧
    (t.get 2 2 ≠ 0 → ∃ n, r = some n ∧ ∀ m, s * m = t → n * m = identity) := by
  intro r
  constructor
  · intro h
    simp [r, gjBackward, h, Flt.zero]
  · intro h22
    have e2 := h22
    simp only [r, gjBackward, Flt.zero, flt_lit, flt_eqb, Rat.cast_zero, decide_eq_true_eq]
    rw [if_neg h22]
    simp only [Option.bind_eq_bind, Option.bind_some, List.foldl]
    set t1 := t.rowDiv 2 (t.get 2 2)
    set s1 := s.rowDiv 2 (t.get 2 2)
    set t2 := t1.rowSub 0 2 (t1.get 0 2)
    set s2 := s1.rowSub 0 2 (t1.get 0 2)
    set t3 := t2.rowSub 1 2 (t2.get 1 2)
    set s3 := s2.rowSub 1 2 (t2.get 1 2)
    have g11 : t3.get 1 1 = t.get 1 1 := by
      simp [t3, t2, t1, rowSub_get, rowDiv_get, h21]
    rw [g11, if_neg h11]
    simp only [Option.bind_some, List.foldl]
    set t4 := t3.rowDiv 1 (t.get 1 1)
    set s4 := s3.rowDiv 1 (t.get 1 1)
    set t5 := t4.rowSub 0 1 (t4.get 0 1)
    set s5 := s4.rowSub 0 1 (t4.get 0 1)
    have g00 : t5.get 0 0 = t.get 0 0 := by
      simp [t5, t4, t3, t2, t1, rowSub_get, rowDiv_get, h20, h10]
    rw [g00, if_neg h00]
    simp only [Option.bind_some, List.foldl]
    refine ⟨_, rfl, fun m hm => ?_⟩
    have k : s5.rowDiv 0 (t.get 0 0) * m = t5.rowDiv 0 (t.get 0 0) := by
      simp only [s5, s4, s3, s2, s1, t5, t4, t3, t2, t1, ← rowDiv_mul, ← rowSub_mul, hm]
    rw [k]
    apply get_ext
    intro i j
    simp only [t5, t4, t3, t2, t1, rowSub_get, rowDiv_get]
    fin_cases i <;> fin_cases j <;>
      simp [identity, Flt.zero, Flt.one, Matrix33.get] <;>
      simp only [Matrix33.get] at h10 h20 h21 h00 h11 h22 <;> simp_all

end CS

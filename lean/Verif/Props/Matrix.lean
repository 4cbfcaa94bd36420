import Verif.Lemmas.Inverse
import Verif.Num.KRefl
import Mathlib.LinearAlgebra.Matrix.Gershgorin

/-!
# Matrix properties (C09 - C13)
-/

namespace CS
open Spec

/-! ## C09 -/

/-- C09 [R]: product, identity, transpose and determinant are the mathematical ones. -/
theorem C09_matches_matrix (a b : Matrix33 ℝ) :
    toM (a * b) = toM a * toM b ∧ toM Matrix33.identity = 1 ∧
      toM a.transposed = (toM a).transpose ∧ a.determinant = (toM a).det :=
  ⟨toM_mul a b, toM_identity, toM_transposed a, determinant_eq a⟩

/-- C09 [R]: the ring laws. -/
theorem C09_laws (a b c : Matrix33 ℝ) :
    (a * b) * c = a * (b * c) ∧ a * Matrix33.identity = a ∧ Matrix33.identity * a = a ∧
      (a * b).transposed = b.transposed * a.transposed ∧ a.transposed.transposed = a ∧
      (a * b).determinant = a.determinant * b.determinant ∧
      a.transposed.determinant = a.determinant ∧
      (Matrix33.identity : Matrix33 ℝ).determinant = 1 := by
  refine ⟨m33_mul_assoc a b c, m33_mul_one a, m33_one_mul a, ?_, rfl, ?_, ?_, ?_⟩
  · apply toM_inj; simp only [toM_transposed, toM_mul, Matrix.transpose_mul]
  · simp only [determinant_eq, toM_mul, Matrix.det_mul]
  · simp only [determinant_eq, toM_transposed, Matrix.det_transpose]
  · simp only [determinant_eq, toM_identity, Matrix.det_one]

/-- C09 [G]: transposing twice is the identity in every arithmetic. -/
theorem C09_transpose_involutive {T : Type} (a : Matrix33 T) :
    a.transposed.transposed = a := rfl

/-- Not vacuous: multiplication is genuinely non-commutative in the model. -/
example : ∃ a b : Matrix33 ℝ, a * b ≠ b * a := by
  refine ⟨⟨0,1,0,0,0,0,0,0,0⟩, ⟨0,0,0,1,0,0,0,0,0⟩, ?_⟩
  intro h
  have := congrArg Matrix33.x0 h
  simp [mul_def] at this

/-! ## C10 -/

/-- C10 [R]: matrix times colour is the mathematical matrix-vector product. -/
theorem C10_matches_mulVec (a : Matrix33 ℝ) (v : XYZ ℝ) (w : RGBf ℝ) :
    vecX (a * v) = (toM a).mulVec (vecX v) ∧ vecR (a * w) = (toM a).mulVec (vecR w) :=
  ⟨vecX_mul a v, vecR_mul a w⟩

/-- C10 [R]: products compose and the identity is neutral. -/
theorem C10_compose (a b : Matrix33 ℝ) (v : XYZ ℝ) (w : RGBf ℝ) :
    (a * b) * v = a * (b * v) ∧ (a * b) * w = a * (b * w) ∧
      (Matrix33.identity : Matrix33 ℝ) * v = v ∧ (Matrix33.identity : Matrix33 ℝ) * w = w :=
  ⟨m33_mul_mulX a b v, m33_mul_mulR a b w, m33_one_mulX v, m33_one_mulR w⟩

/-- C10 [R]: the product is linear in the colour. -/
theorem C10_linear (a : Matrix33 ℝ) (s : ℝ) (v v' : XYZ ℝ) (w w' : RGBf ℝ) :
    a * (v + v') = a * v + a * v' ∧ a * (v * s) = (a * v) * s ∧
      a * (w + w') = a * w + a * w' ∧ a * (w * s) = (a * w) * s := by
  refine ⟨?_, ?_, ?_, ?_⟩ <;> ext <;> simp <;> ring

/-- C10 [G]: the XYZ and the RGB product perform the same operations in the same order. -/
theorem C10_xyz_rgb_same {T : Type} [Add T] [Sub T] [Mul T] [Div T] [Neg T] [Flt T]
    (a : Matrix33 T) (p q r : T) :
    ((a * (⟨p, q, r⟩ : XYZ T)).x = (a * (⟨p, q, r⟩ : RGBf T)).r) ∧
    ((a * (⟨p, q, r⟩ : XYZ T)).y = (a * (⟨p, q, r⟩ : RGBf T)).g) ∧
    ((a * (⟨p, q, r⟩ : XYZ T)).z = (a * (⟨p, q, r⟩ : RGBf T)).b) := ⟨rfl, rfl, rfl⟩

/-! ## C11: `inverse` returns an inverse

The full statement "`m.inverse = some n` implies `n` is a two-sided inverse" is false
(`C11_inverse_counterexample`, `C11_inverse_counterexample_shear`). It holds for every matrix that
takes the adjugate branch (`C11_inverse_partial`); on the other branch `C11_inverse_affine_iff` says
exactly when the result is an inverse. -/

/-- C11 [R], partial: correct for every matrix with `m[0][2] > eps`, `m[1][2] > eps` or
`|m[2][2] - 1| > eps`. Missing: all other matrices, where the claim is false. -/
theorem C11_inverse_partial (m n : Matrix33 ℝ)
    (h : (2:ℝ) ^ (-52 : ℤ) < m.x2 ∨ (2:ℝ) ^ (-52 : ℤ) < m.x5 ∨ (2:ℝ) ^ (-52 : ℤ) < |m.x8 - 1|)
    (hn : m.inverse = some n) : IsInverse m n := by
  rw [inverse_general h] at hn
  have h0 := scaleBy_ne_zero hn
  obtain ⟨-, rfl⟩ := (scaleBy_some_iff _ _ _).1 hn
  apply isInverse_of_left
  rw [map_div_get, Matrix.smul_mul, cof_mul, smul_smul, inv_mul_cancel₀ h0, one_smul]

/-- A matrix meeting the hypotheses of `C11_inverse_partial` (a shear). -/
example : ∃ m n : Matrix33 ℝ, (2:ℝ) ^ (-52 : ℤ) < m.x5 ∧ m.inverse = some n := by
  have h : GeneralCase (⟨1, 0, 0, 0, 1, 1, 0, 0, 1⟩ : Matrix33 ℝ) := Or.inr (Or.inl (by norm_num))
  have h' := (scaleBy_some_iff (Matrix33.cofactors ⟨1, 0, 0, 0, 1, 1, 0, 0, 1⟩)
    (Matrix33.determinant ⟨1, 0, 0, 0, 1, 1, 0, 0, 1⟩) _).2
    ⟨Or.inl (by norm_num [Matrix33.determinant, Matrix33.get]), rfl⟩
  exact ⟨⟨1, 0, 0, 0, 1, 1, 0, 0, 1⟩, _, by norm_num, by rw [inverse_general h]; exact h'⟩

/-- C11 [R]: on the other branch a returned matrix is an inverse exactly when the last column is
`(0, 0, D)` with `D` the upper left 2x2 determinant, and `D = 1` or the last row is `(0, 0, D)`. -/
theorem C11_inverse_affine_iff (m n : Matrix33 ℝ)
    (h : ¬ ((2:ℝ) ^ (-52 : ℤ) < m.x2 ∨ (2:ℝ) ^ (-52 : ℤ) < m.x5 ∨ (2:ℝ) ^ (-52 : ℤ) < |m.x8 - 1|))
    (hn : m.inverse = some n) :
    IsInverse m n ↔ m.x2 = 0 ∧ m.x5 = 0 ∧ m.x8 = m.x0 * m.x4 - m.x3 * m.x1 ∧
      (m.x0 * m.x4 - m.x3 * m.x1 = 1 ∨ m.x6 = 0 ∧ m.x7 = 0) := by
  obtain ⟨hd, rfl⟩ := (inverse_affine h n).1 hn
  have hpos : (0:ℝ) < 2 ^ (-1022 : ℤ) := zpow_pos (by norm_num) _
  have h0 : det2 m ≠ 0 := by
    intro e; rw [e] at hd
    rcases hd with hd | hd
    · norm_num at hd
    · have := hd 1 (by simp); norm_num at this
  rw [isInverse_iff]
  have hD : m.x0 * m.x4 - m.x3 * m.x1 = det2 m := rfl
  rw [hD]
  constructor
  · rintro ⟨h1, -⟩
    rw [mul_def] at h1
    simp only [Matrix33.identity, Flt.one, Flt.zero, flt_lit, Matrix33.mk.injEq, affineInv,
      Rat.cast_one, Rat.cast_zero] at h1
    obtain ⟨-, -, e3, -, -, e6, e7, e8, e9⟩ := h1
    field_simp at e3 e6 e7 e8 e9
    have e3' : m.x2 = 0 := by linarith
    have e6' : m.x5 = 0 := by linarith
    have e9' : m.x8 = det2 m := by linarith
    refine ⟨e3', e6', e9', ?_⟩
    rw [e9'] at e7 e8
    by_cases hone : det2 m = 1
    · exact Or.inl hone
    · right
      have k1 : (1 - det2 m) * (m.x6 * m.x4 - m.x7 * m.x3) = 0 := by linear_combination e7
      have k2 : (1 - det2 m) * (m.x7 * m.x0 - m.x6 * m.x1) = 0 := by linear_combination e8
      have hne : 1 - det2 m ≠ 0 := fun e => hone (by linarith)
      have j1 := (mul_eq_zero.1 k1).resolve_left hne
      have j2 := (mul_eq_zero.1 k2).resolve_left hne
      have i1 : det2 m * m.x6 = 0 := by rw [← hD]; linear_combination m.x0 * j1 + m.x3 * j2
      have i2 : det2 m * m.x7 = 0 := by rw [← hD]; linear_combination m.x1 * j1 + m.x4 * j2
      exact ⟨(mul_eq_zero.1 i1).resolve_left h0, (mul_eq_zero.1 i2).resolve_left h0⟩
  · rintro ⟨e3, e6, e9, e⟩
    rw [← isInverse_iff]
    apply isInverse_of_left
    rw [← toM_mul, ← toM_identity, mul_def]
    congr 1
    simp only [affineInv, e3, e6, e9, Matrix33.identity, Flt.one, Flt.zero, flt_lit, Rat.cast_one,
      Rat.cast_zero]
    ext <;> dsimp only
    · field_simp; linear_combination hD
    · field_simp; ring
    · ring
    · field_simp; ring
    · field_simp; linear_combination hD
    · ring
    · rcases e with e | ⟨e, e'⟩
      · rw [e] at hD ⊢; linear_combination (-m.x6) * hD
      · rw [e, e']; ring
    · rcases e with e | ⟨e, e'⟩
      · rw [e] at hD ⊢; linear_combination (-m.x7) * hD
      · rw [e, e']; ring
    · field_simp; ring

/-- C11 [R], counterexample: for the scaling `diag(2,1,1)` the returned "inverse" is
`diag(1/2, 1, 1/2)`: the bottom-right 1 was divided by the determinant as well. -/
theorem C11_inverse_counterexample :
    ∃ m n : Matrix33 ℝ, m.inverse = some n ∧ ¬ IsInverse m n ∧
      m = ⟨2, 0, 0, 0, 1, 0, 0, 0, 1⟩ ∧ n = ⟨1/2, 0, 0, 0, 1, 0, 0, 0, 1/2⟩ := by
  have h : ¬ GeneralCase (⟨2, 0, 0, 0, 1, 0, 0, 0, 1⟩ : Matrix33 ℝ) := by
    unfold GeneralCase; norm_num
  have hn : (⟨2, 0, 0, 0, 1, 0, 0, 0, 1⟩ : Matrix33 ℝ).inverse
      = some ⟨1/2, 0, 0, 0, 1, 0, 0, 0, 1/2⟩ := by
    rw [inverse_affine h]
    exact ⟨Or.inl (by norm_num [det2]), by norm_num [affineInv, det2]⟩
  refine ⟨_, _, hn, ?_, rfl, rfl⟩
  rw [C11_inverse_affine_iff _ _ h hn]
  norm_num

/-- C11 [R], counterexample: an invertible shear with a negative last-column entry gets the
identity as its inverse, because the branch test lacks an absolute value. -/
theorem C11_inverse_counterexample_shear :
    ∃ m n : Matrix33 ℝ, m.inverse = some n ∧ ¬ IsInverse m n ∧
      m = ⟨1, 0, -1, 0, 1, 0, 0, 0, 1⟩ ∧ n = Matrix33.identity := by
  have h : ¬ GeneralCase (⟨1, 0, -1, 0, 1, 0, 0, 0, 1⟩ : Matrix33 ℝ) := by
    unfold GeneralCase; norm_num
  have hn : (⟨1, 0, -1, 0, 1, 0, 0, 0, 1⟩ : Matrix33 ℝ).inverse = some Matrix33.identity := by
    rw [inverse_affine h]
    exact ⟨Or.inl (by norm_num [det2]),
      by norm_num [affineInv, det2, Matrix33.identity, Flt.one, Flt.zero]⟩
  refine ⟨_, _, hn, ?_, rfl, rfl⟩
  rw [C11_inverse_affine_iff _ _ h hn]
  norm_num

/-! ## C12: `inverse` detects singularity -/

theorem adjugate_cofactors (m : Matrix33 ℝ) : (toM m).adjugate = toM m.cofactors := by
  rw [Matrix.adjugate_fin_three]
  ext i j
  fin_cases i <;> fin_cases j <;> simp [toM, Matrix33.cofactors, Matrix33.get] <;> ring

/-- C12 [R], partial (same class of matrices as `C11_inverse_partial`): the result is `None` exactly
when `|det| < 1` and some entry of the adjugate is at least `|det| / 2^-1022` - in particular for
every singular matrix, and never when `|det| ≥ 1`. Missing: the other matrices, where it is false. -/
theorem C12_none_iff_partial (m : Matrix33 ℝ)
    (h : (2:ℝ) ^ (-52 : ℤ) < m.x2 ∨ (2:ℝ) ^ (-52 : ℤ) < m.x5 ∨ (2:ℝ) ^ (-52 : ℤ) < |m.x8 - 1|) :
    (m.inverse = none ↔ |(toM m).det| < 1 ∧
      ∃ i j, |(toM m).det| / 2 ^ (-1022 : ℤ) ≤ |(toM m).adjugate i j|) ∧
    ((toM m).det = 0 → m.inverse = none) ∧ (1 ≤ |(toM m).det| → m.inverse ≠ none) := by
  have key : m.inverse = none ↔ |(toM m).det| < 1 ∧
      ∃ i j, |(toM m).det| / 2 ^ (-1022 : ℤ) ≤ |(toM m).adjugate i j| := by
    rw [inverse_general h, determinant_eq, adjugate_cofactors]
    rw [← Option.not_isSome_iff_eq_none, Option.isSome_iff_exists]
    simp only [scaleBy_some_iff, exists_and_left, exists_eq, and_true, not_or, not_le]
    refine and_congr_right fun _ => ?_
    have he : (Flt.minPos : ℝ) = 2 ^ (-1022 : ℤ) := rfl
    rw [he]
    simp only [Fin.exists_fin_succ, entries, toM]
    simp
    constructor
    · intro h'; by_contra hc; push Not at hc; exact absurd (h' (by tauto) (by tauto) (by tauto)
        (by tauto) (by tauto) (by tauto) (by tauto) (by tauto)) (not_le.2 (by tauto))
    · intro h' a1 a2 a3 a4 a5 a6 a7 a8
      by_contra hc; push Not at hc
      rcases h' with (h' | h' | h') | (h' | h' | h') | (h' | h' | h') <;> linarith
  refine ⟨key, fun h0 => ?_, fun h1 hc => ?_⟩
  · rw [key, h0]
    exact ⟨by norm_num, 0, 0, by simp⟩
  · exact absurd (key.1 hc).1 (not_lt.2 h1)

/-- C12 [R], counterexample: a singular matrix for which `inverse` returns `Some`. -/
theorem C12_singular_some_counterexample :
    ∃ m : Matrix33 ℝ, (toM m).det = 0 ∧ m.inverse ≠ none ∧ m = ⟨1, 0, -1, 0, 1, 0, -1, 0, 1⟩ := by
  have h : ¬ GeneralCase (⟨1, 0, -1, 0, 1, 0, -1, 0, 1⟩ : Matrix33 ℝ) := by
    unfold GeneralCase; norm_num
  refine ⟨_, ?_, ?_, rfl⟩
  · rw [← determinant_eq]; norm_num [Matrix33.determinant, Matrix33.get]
  · rw [((inverse_affine h _).2 ⟨Or.inl (by norm_num [det2]), rfl⟩ :)]
    exact Option.some_ne_none _

/-- C12 [R], counterexample: a matrix of determinant 1 for which `inverse` returns `None`. -/
theorem C12_det_one_none_counterexample :
    ∃ m : Matrix33 ℝ, (toM m).det = 1 ∧ m.inverse = none ∧ m = ⟨0, 0, -1, 0, 1, 0, 1, 0, 1⟩ := by
  have h : ¬ GeneralCase (⟨0, 0, -1, 0, 1, 0, 1, 0, 1⟩ : Matrix33 ℝ) := by
    unfold GeneralCase; norm_num
  refine ⟨_, ?_, ?_, rfl⟩
  · rw [← determinant_eq]; norm_num [Matrix33.determinant, Matrix33.get]
  · rw [← Option.not_isSome_iff_eq_none, Option.isSome_iff_exists]
    rintro ⟨n, hn⟩
    obtain ⟨h1, -⟩ := (inverse_affine h n).1 hn
    norm_num [det2] at h1

/-! ## C13: `gj_inverse`

The full statement "`None` exactly for singular matrices, otherwise a two-sided inverse" is false:
the pivot is searched in the original matrix, not in the partially eliminated one. -/

/-- C13 [R], partial: let `p` be the row of the (first) largest entry of column 0, `q ∈ {1,2}` the
row of the (first) largest entry of column 1 below row 0, and `q'` where row `q` stood before rows 0
and `p` were swapped. If column entries `m[p][0]`, `m[q][1]` and the 2x2 minor of rows `p`, `q'` in
the first two columns are non-zero, the routine returns `None` exactly for a singular matrix, and
otherwise a two-sided inverse. Missing: matrices where that minor or `m[q][1]` vanishes. -/
theorem C13_gj_partial (m : Matrix33 ℝ) (p q q' : Fin 3)
    (hp : ∀ j, |m.get j 0| ≤ |m.get p 0|) (hp1 : ∀ j < p, |m.get j 0| < |m.get p 0|)
    (hq0 : 1 ≤ q) (hq : ∀ j, 1 ≤ j → |m.get j 1| ≤ |m.get q 1|)
    (hq1 : ∀ j, 1 ≤ j → j < q → |m.get j 1| < |m.get q 1|)
    (hqq : q' = Equiv.swap 0 p q)
    (h0 : m.get p 0 ≠ 0) (h1 : m.get q 1 ≠ 0)
    (hminor : m.get p 0 * m.get q' 1 - m.get q' 0 * m.get p 1 ≠ 0) :
    (m.gjInverse = none ↔ (toM m).det = 0) ∧ ∀ n, m.gjInverse = some n → IsInverse m n := by
  have e0 := fwd0 m p ⟨by simp, fun j _ => hp j, fun j _ h => hp1 j h⟩
  rw [if_neg h0] at e0
  simp only at e0
  unfold Matrix33.gjInverse
  rw [e0]
  simp only [Option.bind_eq_bind, Option.bind_some]
  rw [fwd1 m q ⟨hq0, hq, hq1⟩, if_neg h1]
  simp only [Option.bind_some]
  set u := m.rowSwap 0 p with hu
  set v := (Matrix33.identity : Matrix33 ℝ).rowSwap 0 p with hv
  set f := u.get 1 0 / u.get 0 0 with hf
  set u1 := u.rowSub 1 0 f with hu1
  set v1 := v.rowSub 1 0 f with hv1
  set g := u1.get 2 0 / u1.get 0 0 with hg
  set u2 := u1.rowSub 2 0 g with hu2
  set v2 := v1.rowSub 2 0 g with hv2
  set u3 := u2.rowSwap 1 q with hu3
  set v3 := v2.rowSwap 1 q with hv3
  set k := u3.get 2 1 / u3.get 1 1 with hk
  set t := u3.rowSub 2 1 k with ht
  set s := v3.rowSub 2 1 k with hs
  have hsm : s * m = t := by
    simp only [hs, hv3, hv2, hv1, hv, ht, hu3, hu2, hu1, hu, ← rowSub_mul, ← rowSwap_mul,
      m33_one_mul]
  have u00 : u.get 0 0 = m.get p 0 := by simp [hu, rowSwap_get]
  have u2_00 : u2.get 0 0 = m.get p 0 := by simp [hu2, hu1, rowSub_get, u00]
  have u2_10 : u2.get 1 0 = 0 := by
    simp only [hu2, hu1, rowSub_get, hf]; simp; rw [div_mul_cancel₀ _ (by rw [u00]; exact h0)]; simp
  have u1_00 : u1.get 0 0 = u.get 0 0 := by simp [hu1, rowSub_get]
  have u2_20 : u2.get 2 0 = 0 := by
    simp only [hu2, rowSub_get]
    rw [if_pos trivial, hg, div_mul_cancel₀ _ (by rw [u1_00, u00]; exact h0), sub_self]
  have u2_row : ∀ j, 1 ≤ j → u2.get j 1 = u.get j 1 - u.get j 0 / u.get 0 0 * u.get 0 1 := by
    intro j hj
    fin_cases j
    · simp at hj
    · simp [hu2, hu1, rowSub_get, hf]
    · simp [hu2, hg, hu1, rowSub_get]
  have uq : ∀ c, u.get q c = m.get q' c := by
    intro c
    have hq00 : q ≠ 0 := by rintro rfl; simp at hq0
    rw [hu, rowSwap_get, hqq, if_neg hq00, Equiv.swap_apply_def]
    rw [if_neg hq00]
    split <;> rfl
  have u01 : u.get 0 1 = m.get p 1 := by simp [hu, rowSwap_get]
  have u3_11 : u3.get 1 1 = u2.get q 1 := by simp [hu3, rowSwap_get]
  have h11 : u3.get 1 1 ≠ 0 := by
    rw [u3_11, u2_row q hq0, uq, uq, u00, u01]
    intro e
    apply hminor
    field_simp at e
    linear_combination e
  have t10 : t.get 1 0 = 0 := by
    simp only [ht, rowSub_get, hu3, rowSwap_get]
    fin_cases q <;> simp [u2_10, u2_20] at hq0 ⊢
  have u3_20 : u3.get 2 0 = 0 := by
    simp only [hu3, rowSwap_get]
    fin_cases q <;> simp [u2_10, u2_20] at hq0 ⊢
  have u3_10 : u3.get 1 0 = 0 := by
    simp only [hu3, rowSwap_get]
    fin_cases q <;> simp [u2_10, u2_20] at hq0 ⊢
  have u3_00 : u3.get 0 0 = m.get p 0 := by
    simp only [hu3, rowSwap_get]
    rw [if_neg (by decide), if_neg (by rintro rfl; simp at hq0), u2_00]
  have t20 : t.get 2 0 = 0 := by simp [ht, rowSub_get, u3_20, u3_10]
  have t21 : t.get 2 1 = 0 := by
    simp only [ht, rowSub_get, hk]
    rw [if_pos trivial, div_mul_cancel₀ _ h11, sub_self]
  have t00 : t.get 0 0 ≠ 0 := by simp [ht, rowSub_get, u3_00, h0]
  have t11 : t.get 1 1 ≠ 0 := by simp [ht, rowSub_get, h11]
  have tdet : |t.determinant| = |(toM m).det| := by
    rw [ht, rowSub_det _ (by decide), hu3, rowSwap_absdet, hu2, rowSub_det _ (by decide), hu1,
      rowSub_det _ (by decide), hu, rowSwap_absdet, determinant_eq]
  have tdet' : t.determinant = t.get 0 0 * t.get 1 1 * t.get 2 2 := by
    simp only [Matrix33.determinant, t10, t20, t21]; ring
  have t22 : t.get 2 2 = 0 ↔ (toM m).det = 0 := by
    rw [← abs_eq_zero (a := (toM m).det), ← tdet, abs_eq_zero, tdet']
    simp [t00, t11]
  obtain ⟨b1, b2⟩ := bwd t s t10 t20 t21 t00 t11
  simp only [Option.bind_eq_bind] at b1 b2
  by_cases hz : t.get 2 2 = 0
  · rw [b1 hz]
    exact ⟨by simp [← t22, hz], by simp⟩
  · obtain ⟨n, hn, hm⟩ := b2 hz
    rw [hn]
    refine ⟨by simp [← t22, hz], fun n' hn' => ?_⟩
    cases hn'
    apply isInverse_of_left
    rw [← toM_mul, hm m hsm, toM_identity]

/-- C13 [R], consequence: a strictly column-dominant matrix always gets its inverse. -/
theorem C13_gj_dominant_partial (m : Matrix33 ℝ)
    (d0 : |m.x3| + |m.x6| < |m.x0|) (d1 : |m.x1| + |m.x7| < |m.x4|)
    (d2 : |m.x2| + |m.x5| < |m.x8|) : ∃ n, m.gjInverse = some n ∧ IsInverse m n := by
  have p0 := abs_nonneg m.x0; have p1 := abs_nonneg m.x1; have p3 := abs_nonneg m.x3
  have p6 := abs_nonneg m.x6; have p7 := abs_nonneg m.x7; have p4 := abs_nonneg m.x4
  have p2 := abs_nonneg m.x2; have p5 := abs_nonneg m.x5
  have hdet : (toM m).det ≠ 0 := by
    apply det_ne_zero_of_sum_col_lt_diag
    intro k
    fin_cases k <;>
      simp [toM, Finset.sum_erase_eq_sub, Fin.sum_univ_three, Real.norm_eq_abs] <;> linarith
  obtain ⟨h1, h2⟩ := C13_gj_partial m 0 1 1
    (by intro j; fin_cases j <;> simp [Matrix33.get] <;> linarith)
    (by intro j hj; simp at hj)
    le_rfl
    (by intro j hj; fin_cases j <;> simp [Matrix33.get] at hj ⊢; linarith)
    (by intro j hj hj'; exact absurd hj' (not_lt.2 hj))
    (by simp)
    (by show m.x0 ≠ 0; rw [← abs_pos]; linarith)
    (by show m.x4 ≠ 0; rw [← abs_pos]; linarith)
    (by
      show m.x0 * m.x4 - m.x3 * m.x1 ≠ 0
      intro e
      have e' : |m.x0| * |m.x4| = |m.x3| * |m.x1| := by
        rw [← abs_mul, ← abs_mul, sub_eq_zero.1 e]
      nlinarith)
  cases hg : m.gjInverse with
  | none => exact absurd (h1.1 hg) hdet
  | some n => exact ⟨n, rfl, h2 n hg⟩

/-- Not vacuous: a dominant matrix, and a matrix needing both row swaps. -/
example : ∃ m : Matrix33 ℝ, |m.x3| + |m.x6| < |m.x0| ∧ |m.x1| + |m.x7| < |m.x4| ∧
    |m.x2| + |m.x5| < |m.x8| := ⟨⟨3, 1, 0, 1, 3, 1, 1, -1, 4⟩, by norm_num, by norm_num, by norm_num⟩

/-- C13 [R], counterexample: an invertible permutation matrix for which `gj_inverse` gives `None`. -/
theorem C13_gj_counterexample_none :
    ∃ m : Matrix33 ℝ, (toM m).det ≠ 0 ∧ m.gjInverse = none ∧ m = ⟨0, 1, 0, 1, 0, 0, 0, 0, 1⟩ := by
  refine ⟨_, ?_, ?_, rfl⟩
  · rw [← determinant_eq]; norm_num [Matrix33.determinant, Matrix33.get]
  · unfold Matrix33.gjInverse
    rw [fwd0 _ 1 ⟨by decide, by intro j _; fin_cases j <;> norm_num [Matrix33.get],
      by intro j _ h; fin_cases j <;> simp at h ⊢ <;> norm_num [Matrix33.get]⟩]
    rw [if_neg (by norm_num [Matrix33.get])]
    simp only [Option.bind_eq_bind, Option.bind_some]
    rw [fwd1 _ 1 ⟨by decide, by intro j h; fin_cases j <;> simp at h ⊢ <;> norm_num [Matrix33.get],
      by intro j h h'; exact absurd h' (not_lt.2 h)⟩]
    rw [if_pos (by norm_num [Matrix33.get])]
    rfl
/-- C13 [F], counterexample in binary64: for the invertible matrix [[1,1,0],[1,1,1],[0,1,0]]
(determinant -1) `gj_inverse` divides by zero and returns `Some` of a matrix holding NaN. -/
theorem C13_gj_counterexample_nan [Libm Fmt.b64] :
    (match (⟨FP.one64, FP.one64, FP.zero64, FP.one64, FP.one64, FP.one64, FP.zero64, FP.one64,
        FP.zero64⟩ : Matrix33 (FP Fmt.b64)).gjInverse with
      | some n => n.x0.isNaN && n.x4.isNaN && n.x8.isNaN
      | none => false) = true := by
  krefl

end CS

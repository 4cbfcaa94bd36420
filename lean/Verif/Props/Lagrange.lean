import Verif.Props.Vspd
import Mathlib.LinearAlgebra.Lagrange
import Mathlib.Data.List.GetD

/-!
# Lagrange coefficients (C49)

The specification is Mathlib's Lagrange basis and interpolation polynomials.
-/

namespace CS


theorem foldl_skip_prod (g : ℕ → ℝ) (j : ℕ) (L : List ℕ) (acc : ℝ) :
    L.foldl (fun acc i => if i ≠ j then acc * g i else acc) acc
      = acc * (L.map fun i => if i ≠ j then g i else 1).prod := by
  induction L generalizing acc with
  | nil => simp
  | cons i L ih =>
    rw [List.foldl_cons, ih, List.map_cons, List.prod_cons]
    split <;> simp [mul_assoc]

theorem list_prod_range (g : ℕ → ℝ) (n : ℕ) :
    ((List.range n).map g).prod = ∏ i ∈ Finset.range n, g i := by
  induction n with
  | zero => simp
  | succ n ih => rw [List.range_succ, List.map_append, List.prod_append, ih, Finset.prod_range_succ]; simp

theorem list_sum_range (g : ℕ → ℝ) (n : ℕ) :
    ((List.range n).map g).sum = ∑ i ∈ Finset.range n, g i := by
  induction n with
  | zero => simp
  | succ n ih => rw [List.range_succ, List.map_append, List.sum_append, ih, Finset.sum_range_succ]; simp

theorem injOn_cast (s : Set ℕ) : Set.InjOn (fun k : ℕ => (k : ℝ)) s :=
  fun _ _ _ _ h => Nat.cast_injective h

/-- C49 [R]: `lagrange_coefficients(r, n)` returns the values at `r` of the `n` Lagrange basis
polynomials of the nodes `0, 1, ..., n-1`. -/
theorem C49_basis (r : ℝ) (n : ℕ) : lagrangeCoefficients r n = (List.range n).map fun j =>
    (Lagrange.basis (Finset.range n) (fun k : ℕ => (k : ℝ)) j).eval r := by
  unfold lagrangeCoefficients
  refine List.map_congr_left fun j hj => ?_
  have hj := List.mem_range.1 hj
  rw [foldl_skip_prod (fun i => (r - Flt.ofNat i) / (Flt.ofNat j - Flt.ofNat i)), list_prod_range]
  unfold Lagrange.basis
  rw [Polynomial.eval_prod]
  have h1 : (Flt.lit 1.0 : ℝ) = 1 := by norm_num
  rw [h1, one_mul, ← Finset.mul_prod_erase _ _ (Finset.mem_range.2 hj), if_neg (by simp), one_mul]
  refine Finset.prod_congr rfl fun i hi => ?_
  rw [if_pos (Finset.ne_of_mem_erase hi)]
  simp [Lagrange.basisDivisor, div_eq_inv_mul]

theorem lagrange_length (r : ℝ) (n : ℕ) : (lagrangeCoefficients r n).length = n := by
  simp [lagrangeCoefficients]

/-- dot product of the coefficients with values is the Lagrange interpolation polynomial -/
theorem lagrange_dot (r : ℝ) (n : ℕ) (R : ℕ → ℝ) :
    ((List.range n).map fun j => (lagrangeCoefficients r n).getD j 0 * R j).sum =
      (Lagrange.interpolate (Finset.range n) (fun k : ℕ => (k : ℝ)) R).eval r := by
  rw [list_sum_range, Lagrange.interpolate_apply, Polynomial.eval_finset_sum]
  refine Finset.sum_congr rfl fun j hj => ?_
  rw [C49_basis, Polynomial.eval_mul, Polynomial.eval_C, mul_comm]
  congr 1
  rw [List.getD_eq_getElem _ _ (by simpa using hj)]
  simp

/-- C49 [R]: the dot product of the coefficients with the values of a polynomial of degree below `n`
at the nodes `0, ..., n-1` is its value at `r`. -/
theorem C49_polynomials (r : ℝ) (n : ℕ) (P : Polynomial ℝ) (hP : P.degree < n) :
    (List.zipWith (fun c (j : ℕ) => c * P.eval (j : ℝ)) (lagrangeCoefficients r n) (List.range n)).sum
      = P.eval r := by
  have e : List.zipWith (fun c (j : ℕ) => c * P.eval (j : ℝ)) (lagrangeCoefficients r n)
      (List.range n) = (List.range n).map fun j : ℕ => (lagrangeCoefficients r n).getD j 0 *
        P.eval (j : ℝ) := by
    apply List.ext_getElem
    · simp [lagrange_length]
    · intro k h1 h2
      have hk : k < n := by simpa using h2
      simp only [List.getElem_zipWith, List.getElem_map, List.getElem_range]
      rw [List.getD_eq_getElem _ _ (by rw [lagrange_length]; exact hk)]
  rw [e, lagrange_dot r n (fun j => P.eval (j : ℝ))]
  congr 1
  exact (Lagrange.eq_interpolate (injOn_cast _) (by simpa using hP)).symm

/-- C49 [R]: the coefficients sum to one. -/
theorem C49_sum_one (r : ℝ) (n : ℕ) (hn : 0 < n) : (lagrangeCoefficients r n).sum = 1 := by
  have h := C49_polynomials r n 1 (by
    rw [Polynomial.degree_one]; exact_mod_cast hn)
  simp only [Polynomial.eval_one, mul_one] at h
  rw [← h]
  congr 1
  apply List.ext_getElem
  · simp [lagrange_length]
  · intro k h1 h2; simp

/-- C49 [R]: at a node the coefficients are 1 for that node and 0 for the others. -/
theorem C49_nodes (k n : ℕ) (hk : k < n) :
    lagrangeCoefficients (k : ℝ) n = (List.range n).map fun j => if j = k then 1 else 0 := by
  rw [C49_basis]
  refine List.map_congr_left fun j hj => ?_
  have hj := List.mem_range.1 hj
  split
  · subst_vars
    exact Lagrange.eval_basis_self (injOn_cast _) (Finset.mem_range.2 hk)
  · rename_i h
    exact Lagrange.eval_basis_of_ne (v := fun k : ℕ => (k : ℝ)) h (Finset.mem_range.2 hk)

/-- Not vacuous: `lagrange_coefficients(1/2, 3)` is (3/8, 3/4, -1/8). -/
example : lagrangeCoefficients (1 / 2 : ℝ) 3 = [3 / 8, 3 / 4, -1 / 8] := by
  norm_num [lagrangeCoefficients, List.range_succ]

/-- C49 [R]: `lagrange_coefficients_astm_e2022(interval, degree)` for an interval whose integer part
is `n >= 3` returns `n - 1` rows; row `j` holds the Lagrange coefficients at the `j`-th of `n - 1`
equally spaced points from `1/interval` to `1 - 1/interval`, moved up by one when the degree is 4. For
an integer interval these points are `(j+1)/n`. -/
theorem C49_e2022 (i : ℝ) (n degree : ℕ) (hn : 3 ≤ n) (hi : (n : ℝ) ≤ i) (hi' : i < n + 1)
    (hmax : n < 2 ^ 64) :
    lagrangeCoefficientsE2022 i degree = .ok ((List.range (n - 1)).map fun j : ℕ =>
      lagrangeCoefficients (1 / i + j * ((1 - 2 / i) / (n - 2)) + if degree = 4 then 1 else 0) degree)
    ∧ (i = n → ∀ j : ℕ, 1 / i + j * ((1 - 2 / i) / (n - 2)) = (j + 1) / n) := by
  have hn3 : (3:ℝ) ≤ n := by exact_mod_cast hn
  have hfl : Flt.asUInt (2 ^ 64 - 1) i = n := by
    rw [flt_asUInt, (Nat.floor_eq_iff (by linarith)).2 ⟨hi, hi'⟩]
    exact Nat.min_eq_right (by omega)
  constructor
  · unfold lagrangeCoefficientsE2022 linspace usub
    rw [hfl, if_pos (by omega)]
    simp only [bind, Except.bind]
    rw [if_pos (by omega)]
    simp only [FloatRange.toList, FloatRange.drain_eq]
    congr 1
    rw [List.map_map]
    simp only [Nat.sub_zero]
    rw [show min (n - 1 + 1) (n - 1) = n - 1 by omega, ← List.range_eq_range']
    refine List.map_congr_left fun j _ => ?_
    simp only [Function.comp, flt_ofNat]
    congr 1
    have h1 : (Flt.lit 1.0 : ℝ) = 1 := by norm_num
    have h0 : (Flt.lit 0.0 : ℝ) = 0 := by norm_num
    rw [h1, h0, show ((n - 1 - 1 : ℕ) : ℝ) = (n:ℝ) - 2 by
      rw [show n - 1 - 1 = n - 2 by omega, Nat.cast_sub (by omega)]; norm_num]
    ring
  · rintro rfl j
    have h2 : (n:ℝ) - 2 ≠ 0 := by linarith
    have h3 : (n:ℝ) ≠ 0 := by linarith
    field_simp
    ring

/-- Not vacuous: a 10 nm interval. -/
example : ∃ l, lagrangeCoefficientsE2022 (10 : ℝ) 4 = .ok l ∧ l.length = 9 :=
  ⟨_, (C49_e2022 10 10 4 (by norm_num) (by norm_num) (by norm_num) (by norm_num)).1, by simp⟩

end CS

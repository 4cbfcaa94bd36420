import Verif.Model.Uplift
import Verif.Lemmas.Vspd
import Verif.Lemmas.FPOrder
import Mathlib.Algebra.BigOperators.Fin
import Mathlib.Data.List.GetD

/-!
# The fixed-size SPD (C56, C57, C58)
-/

namespace CS

/-- The three weighted sums of 40 samples. -/
noncomputable def Spec.weighted (wx wy wz s : Fin 40 → ℝ) : XYZ ℝ :=
  ⟨∑ i, s i * wx i, ∑ i, s i * wy i, ∑ i, s i * wz i⟩

theorem kahan_fold (s wx wy wz : SPD ℝ) (L : List (Fin 40)) (acc : XYZ ℝ) :
    L.foldl (kahanStep s wx wy wz) (acc, ⟨0, 0, 0⟩) =
      (⟨acc.x + (L.map fun i => s.values i * wx.values i).sum,
        acc.y + (L.map fun i => s.values i * wy.values i).sum,
        acc.z + (L.map fun i => s.values i * wz.values i).sum⟩, ⟨0, 0, 0⟩) := by
  induction L generalizing acc with
  | nil => simp
  | cons i L ih =>
    rw [List.foldl_cons]
    have : kahanStep s wx wy wz (acc, ⟨0, 0, 0⟩) i =
        (⟨acc.x + s.values i * wx.values i, acc.y + s.values i * wy.values i,
          acc.z + s.values i * wz.values i⟩, ⟨0, 0, 0⟩) := by
      have e : ∀ a b : ℝ, a + (b - 0) = a + b ∧ a + (b - 0) - a - (b - 0) = 0 :=
        fun a b => ⟨by ring, by ring⟩
      refine Prod.ext (XYZ.ext (e _ _).1 (e _ _).1 (e _ _).1) (XYZ.ext (e _ _).2 (e _ _).2 (e _ _).2)
    rw [this, ih]
    simp [add_assoc]

theorem sum_finRange (f : Fin 40 → ℝ) : ((List.finRange 40).map f).sum = ∑ i, f i := by
  rw [← List.ofFn_eq_map, List.sum_ofFn]

/-- C56 [R]: the scalar (Kahan-compensated) conversion is the weighted sum. -/
theorem C56_scalar (wx wy wz s : SPD ℝ) :
    spdToXyzScalar wx wy wz s = Spec.weighted wx.values wy.values wz.values s.values := by
  unfold spdToXyzScalar
  have h0 : (XYZ.fromScalar (Flt.lit 0.0) : XYZ ℝ) = ⟨0, 0, 0⟩ := by
    norm_num [XYZ.fromScalar]
  rw [h0, kahan_fold]
  simp [Spec.weighted, sum_finRange]

theorem avx_lanes (p : Fin 5 → Lanes ℝ) :
    haddAvx (ladd (ladd (ladd (p 0) (p 1)) (ladd (p 2) (p 3))) (p 4)) = ∑ k, ∑ l, p k l := by
  simp only [haddAvx, lhadd, ladd, lswap, Fin.sum_univ_five, Fin.sum_univ_eight,
    show (0 : Fin 8) + 4 = 4 from rfl, show (1 : Fin 8) + 4 = 5 from rfl,
    show (2 : Fin 8) + 4 = 6 from rfl, show (3 : Fin 8) + 4 = 7 from rfl]
  ring

theorem sum_lanes (f : Fin 40 → ℝ) :
    ∑ k : Fin 5, ∑ l : Fin 8, f ⟨8 * k.val + l.val, by omega⟩ = ∑ i, f i := by
  rw [← Fintype.sum_prod_type']
  refine Fintype.sum_equiv (finProdFinEquiv : Fin 5 × Fin 8 ≃ Fin (5 * 8)) _ f fun x => ?_
  congr 1
  ext
  simp [finProdFinEquiv]
  omega

/-- C56 [R]: the AVX conversion is the weighted sum. -/
theorem C56_avx (wx wy wz s : SPD ℝ) :
    spdToXyzAvx wx wy wz s = Spec.weighted wx.values wy.values wz.values s.values := by
  have h : ∀ w : SPD ℝ, avxChannel s w = ∑ i, s.values i * w.values i := by
    intro w
    rw [← sum_lanes]
    exact avx_lanes fun k => lmul (loadLanes s k) (loadLanes w k)
  simp [spdToXyzAvx, Spec.weighted, h]

/-- C56 [R]: `to_xyz` is the weighted sum with the built-in weights, whichever code path is compiled. -/
theorem C56_to_xyz (avx : Bool) (s : SPD ℝ) :
    s.toXyz avx = Spec.weighted wX.values wY.values wZ.values s.values := by
  unfold SPD.toXyz
  split
  · exact C56_avx _ _ _ s
  · exact C56_scalar _ _ _ s

/-- C56 [R]: the conversion is linear in the samples. -/
theorem C56_linear (avx : Bool) (a b : ℝ) (u v w : SPD ℝ)
    (h : ∀ i, w.values i = a * u.values i + b * v.values i) :
    (w.toXyz avx).x = a * (u.toXyz avx).x + b * (v.toXyz avx).x ∧
    (w.toXyz avx).y = a * (u.toXyz avx).y + b * (v.toXyz avx).y ∧
    (w.toXyz avx).z = a * (u.toXyz avx).z + b * (v.toXyz avx).z := by
  simp only [C56_to_xyz, Spec.weighted, Finset.mul_sum, ← Finset.sum_add_distrib]
  refine ⟨?_, ?_, ?_⟩ <;>
  · refine Finset.sum_congr rfl fun i _ => ?_
    rw [h i]; ring

/-- Not vacuous: the weights are not all zero, and a spectrum with one non-zero sample is not mapped to
zero. -/
example (avx : Bool) : (SPD.toXyz avx (⟨fun i => if i = 0 then 1 else 0⟩ : SPD ℝ)).x
    = 0.007864003493245105835818 := by
  rw [C56_to_xyz]
  simp only [Spec.weighted, ite_mul, one_mul, zero_mul, Finset.sum_ite_eq', Finset.mem_univ, if_true]
  show (Flt.lit _ : ℝ) = _
  simp [Tables.wX]

/-! ## C57 -/

section
variable {T : Type} [Add T] [Sub T] [Mul T] [Div T] [Neg T] [Flt T]

/-- C57 [G]: `SPD::constant(v)` holds `v` everywhere. -/
theorem C57_constant (v : T) (i : Fin 40) : (SPD.constant v).values i = v := rfl

/-- C57 [G]: the product is sample-wise. -/
theorem C57_mul (a b : SPD T) (i : Fin 40) : (a * b).values i = a.values i * b.values i := rfl

theorem eqLoop_iff (a b : SPD T) (L : List (Fin 40)) :
    SPD.eqLoop a b L = true ↔ ∀ i ∈ L, Flt.eqb (a.values i) (b.values i) = true := by
  induction L with
  | nil => simp [SPD.eqLoop]
  | cons i L ih =>
    unfold SPD.eqLoop
    cases h : Flt.eqb (a.values i) (b.values i) with
    | true => simp [h, ih]
    | false => simp [h]

/-- C57 [G]: `a == b` exactly when all samples compare equal. -/
theorem C57_eq (a b : SPD T) :
    SPD.eqb a b = true ↔ ∀ i, Flt.eqb (a.values i) (b.values i) = true := by
  unfold SPD.eqb
  rw [eqLoop_iff]
  simp
end

/-- C57 [F]: an SPD equals itself exactly when it holds no NaN. -/
theorem C57_reflexive {f : Fmt} [Libm f] (a : SPD (FP f)) :
    SPD.eqb a a = true ↔ ∀ i, (a.values i).isNaN = false := by
  rw [C57_eq]
  refine forall_congr' fun i => ?_
  show FP.eqb _ _ = true ↔ _
  rw [FP.eqb_iff]
  constructor
  · rintro ⟨x, hx, -⟩
    cases h : (a.values i).isNaN with
    | false => rfl
    | true => rw [(FP.isNaN_iff _).1 h] at hx; cases hx
  · intro h
    obtain ⟨x, hx⟩ := FP.ext_of_not_nan h
    exact ⟨x, hx, hx⟩

/-- Both cases occur. -/
example {f : Fmt} [Libm f] : SPD.eqb (SPD.constant (FP.nan : FP f)) (SPD.constant FP.nan) = false ∧
    SPD.eqb (SPD.constant (FP.pinf : FP f)) (SPD.constant FP.pinf) = true := by
  constructor
  · rw [Bool.eq_false_iff, Ne, C57_reflexive]
    intro h
    cases h 0
  · rw [C57_reflexive]; intro i; rfl

/-! ## C58 -/

theorem table_sum (t : List ℚ) (h : t.length = 40) :
    ∑ i, (SPD.ofTable t : SPD ℝ).values i = ((t.sum : ℚ) : ℝ) := by
  have : t = List.ofFn fun i : Fin 40 => t.getD i.val 0 := by
    apply List.ext_getElem
    · simp [h]
    · intro k hk hk'
      simp only [List.getElem_ofFn]
      rw [List.getD_eq_getElem _ _ hk]
  conv_rhs => rw [this]
  rw [List.sum_ofFn]
  push_cast
  rfl

theorem toXyz_constant (avx : Bool) (v : ℝ) : (SPD.constant v).toXyz avx =
    ⟨v * (Tables.wX.sum : ℚ), v * (Tables.wY.sum : ℚ), v * (Tables.wZ.sum : ℚ)⟩ := by
  rw [C56_to_xyz]
  unfold Spec.weighted SPD.constant wX wY wZ
  simp only [← Finset.mul_sum]
  rw [table_sum _ (by decide +kernel), table_sum _ (by decide +kernel), table_sum _ (by decide +kernel)]

/-- C58 [R]: a constant spectrum `v` has Y = 100 v, to a relative error of 4e-17. -/
theorem C58_luminance (avx : Bool) (v : ℝ) :
    |((SPD.constant v).toXyz avx).y - 100 * v| ≤ 4e-17 * |100 * v| := by
  rw [toXyz_constant]
  have h : |Tables.wY.sum - 100| ≤ 4e-15 := by decide +kernel
  show |v * _ - 100 * v| ≤ _
  generalize Tables.wY.sum = q at *
  have h' : |(q : ℝ) - 100| ≤ 4e-15 := by
    have : (((|q - 100| : ℚ)) : ℝ) ≤ ((4e-15 : ℚ) : ℝ) := by exact_mod_cast h
    push_cast at this
    convert this using 1
  rw [show v * (q : ℝ) - 100 * v = ((q : ℝ) - 100) * v by ring, abs_mul,
    abs_mul, abs_of_pos (by norm_num : (0:ℝ) < 100)]
  have := mul_le_mul_of_nonneg_right h' (abs_nonneg v)
  linarith

/-- C58 [R]: a non-zero constant spectrum has the chromaticity of D65, `(0.3127, 0.3290)`, to 1e-4. -/
theorem C58_chromaticity (avx : Bool) (v : ℝ) (hv : v ≠ 0) :
    let c := (SPD.constant v).toXyz avx
    |c.x / (c.x + c.y + c.z) - 0.3127| ≤ 1e-4 ∧ |c.y / (c.x + c.y + c.z) - 0.3290| ≤ 1e-4 := by
  intro c
  have hc : c = ⟨v * (Tables.wX.sum : ℚ), v * (Tables.wY.sum : ℚ), v * (Tables.wZ.sum : ℚ)⟩ :=
    toXyz_constant avx v
  have h1 : |Tables.wX.sum / (Tables.wX.sum + Tables.wY.sum + Tables.wZ.sum) - 0.3127| ≤ 1e-4 := by
    decide +kernel
  have h2 : |Tables.wY.sum / (Tables.wX.sum + Tables.wY.sum + Tables.wZ.sum) - 0.3290| ≤ 1e-4 := by
    decide +kernel
  have e : ∀ a b : ℝ, v * a / (v * b) = a / b := fun a b => mul_div_mul_left a b hv
  rw [hc]
  simp only
  rw [← mul_add, ← mul_add, e, e]
  generalize Tables.wX.sum = p at *
  generalize Tables.wY.sum = q at *
  generalize Tables.wZ.sum = r at *
  constructor
  · have : (((|p / (p + q + r) - 0.3127| : ℚ)) : ℝ) ≤ ((1e-4 : ℚ) : ℝ) := by exact_mod_cast h1
    push_cast at this
    convert this using 1
  · have : (((|q / (p + q + r) - 0.3290| : ℚ)) : ℝ) ≤ ((1e-4 : ℚ) : ℝ) := by exact_mod_cast h2
    push_cast at this
    convert this using 1

end CS

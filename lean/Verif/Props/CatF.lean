import Verif.Lemmas.ConeEval
import Verif.Props.LabF
import Verif.Props.Cat

/-!
# Chromatic adaptation in floating point (C94)

The specification is the same adaptation computed exactly, over the reals, on the same two white
points. `u` is the unit roundoff: `2^-24` in single and `2^-53` in double precision.
-/

namespace CS
section
variable {f : Fmt} [Libm f]

/-- A white point with finite components no larger than `S`, where `S` is neither huge nor tiny. -/
def Spec.WhiteUpTo (w : XYZ (FP f)) (S : ℚ) : Prop :=
  1 / 2 ^ 20 ≤ S ∧ S ≤ 2 ^ 20 ∧ (w.x.isFinite = true ∧ |w.x.val| ≤ S) ∧
    (w.y.isFinite = true ∧ |w.y.val| ≤ S) ∧ (w.z.isFinite = true ∧ |w.z.val| ≤ S)

/-- Two matrices agree: every entry of `m` is finite and within `e` of that of `E`. -/
def Spec.MatrixNear (m : Matrix33 (FP f)) (E : Matrix33 ℝ) (e : ℝ) : Prop :=
  ∀ i j, (m.get i j).isFinite = true ∧ |((m.get i j).val : ℝ) - E.get i j| ≤ e

/-- a rational matrix as a real one -/
noncomputable def castM (m : Matrix33 ℚ) : Matrix33 ℝ :=
  ⟨m.x0, m.x1, m.x2, m.x3, m.x4, m.x5, m.x6, m.x7, m.x8⟩

theorem castM_get (m : Matrix33 ℚ) (i j : Fin 3) : (castM m).get i j = ((m.get i j : ℚ) : ℝ) := by
  fin_cases i <;> fin_cases j <;> rfl

theorem std_of (hf : f = Fmt.b32 ∨ f = Fmt.b64) : Std f := by
  rcases hf with rfl | rfl
  · exact std_b32
  · exact std_b64

theorem castM_bradford : castM bradfordQ = bradfordM := by
  simp only [castM, bradfordQ, bradfordM, flt_lit]; norm_num

theorem castM_cat02 : castM cat02Q = cat02M := by
  simp only [castM, cat02Q, cat02M, flt_lit]; norm_num

theorem castM_vonKries : castM vonKriesQ = vonKriesM ∧ castM vonKriesQInv = vonKriesMInv := by
  constructor
  · simp only [castM, vonKriesQ, vonKriesM, flt_lit]; norm_num
  · simp only [castM, vonKriesQInv, vonKriesMInv, flt_lit]; norm_num

theorem inv_unique {A B C : Matrix33 ℝ} (h : Spec.IsInverse A B) (h' : A * C = Matrix33.identity) :
    B = C := by
  obtain ⟨_, h2⟩ := (isInverse_iff _ _).1 h
  calc B = B * (A * C) := by rw [h', m33_mul_one]
    _ = B * A * C := by rw [m33_mul_assoc]
    _ = C := by rw [h2, m33_one_mul]

theorem good_bradford : GoodCone bradfordM (castM (qInv bradfordQ)) := by
  obtain ⟨A, hA⟩ := goodCone_bradford
  rw [inv_unique hA.inv (C := castM (qInv bradfordQ)) ?_] at hA
  · exact hA
  · rw [mul_def]
    ext <;> simp only [castM, qInv, bradfordQ, bradfordM, flt_lit, Matrix33.identity, Flt.zero, Flt.one] <;>
      norm_num

theorem good_cat02 : GoodCone cat02M (castM (qInv cat02Q)) := by
  obtain ⟨A, hA⟩ := goodCone_cat02
  rw [inv_unique hA.inv (C := castM (qInv cat02Q)) ?_] at hA
  · exact hA
  · rw [mul_def]
    ext <;> simp only [castM, qInv, cat02Q, cat02M, flt_lit, Matrix33.identity, Flt.zero, Flt.one] <;>
      norm_num

theorem cat_get (A M : Matrix33 ℝ) (a b : XYZ ℝ) (i j : Fin 3) :
    (A * wpScale a b * M).get i j = ∑ k, A.get i k * (xyzVec b k / xyzVec a k) * M.get k j := by
  rw [mul_def, mul_def, Fin.sum_univ_three]
  fin_cases i <;> fin_cases j <;> simp [wpScale, Flt.zero, Matrix33.get, xyzVec]

theorem cone_cast (M : Matrix33 ℚ) (w : XYZ (FP f)) (k : Fin 3) :
    xyzVec (castM M * Spec.realXyz w) k = ((∑ l, M.get k l * (xyzVec w l).val : ℚ) : ℝ) := by
  rw [mulX_def, Fin.sum_univ_three]
  fin_cases k <;> simp [castM, Spec.realXyz, Matrix33.get, xyzVec]

theorem white_vec {w : XYZ (FP f)} {S : ℚ} (h : Spec.WhiteUpTo w S) :
    (∀ j, (xyzVec w j).isFinite = true) ∧ ∀ j, |(xyzVec w j).val| ≤ S := by
  obtain ⟨_, _, hx, hy, hz⟩ := h
  constructor <;> intro j <;> fin_cases j
  exacts [hx.1, hy.1, hz.1, hx.2, hy.2, hz.2]

/-- the two products compared -/
theorem product_near (hf : f = Fmt.b32 ∨ f = Fmt.b64) {MA MAi : Matrix33 (FP f)} {M I : Matrix33 ℚ}
    {α : ℚ} (hc : Cone MA MAi (fun k j => M.get k j) (fun k j => I.get k j) α)
    {src dst : XYZ (FP f)} {S R : ℚ} (hs : Spec.WhiteUpTo src S) (hd : Spec.WhiteUpTo dst R)
    (hcone : ∀ k, S / 4 ≤ ∑ j, M.get k j * (xyzVec src j).val) :
    Spec.MatrixNear (MAi * wpScale (MA * src) (MA * dst) * MA)
      (castM I * wpScale (castM M * Spec.realXyz src) (castM M * Spec.realXyz dst) * castM M)
      (1300 * α * f.u * (R / S)) := by
  intro i j
  obtain ⟨h1, h2⟩ := cat_near (std_of hf) hc hs.1 hs.2.1 hd.1 hd.2.1 (white_vec hs).1 (white_vec hs).2
    (white_vec hd).1 (white_vec hd).2 hcone i j
  refine ⟨h1, ?_⟩
  rw [cat_get]
  simp only [castM_get, cone_cast]
  generalize (MAi * wpScale (MA * src) (MA * dst) * MA).get i j = m at h2 ⊢
  simp only [Fin.sum_univ_three] at h2 ⊢
  have := (Rat.cast_le (K := ℝ)).2 h2
  push_cast at this ⊢
  exact this

theorem cone_explicit {M : Matrix33 ℚ} {src : XYZ (FP f)} {S : ℚ}
    (hL : S / 4 ≤ M.x0 * src.x.val + M.x1 * src.y.val + M.x2 * src.z.val)
    (hM : S / 4 ≤ M.x3 * src.x.val + M.x4 * src.y.val + M.x5 * src.z.val)
    (hS : S / 4 ≤ M.x6 * src.x.val + M.x7 * src.y.val + M.x8 * src.z.val) :
    ∀ k, S / 4 ≤ ∑ j, M.get k j * (xyzVec src j).val := by
  intro k
  rw [Fin.sum_univ_three]
  fin_cases k
  exacts [hL, hM, hS]

theorem coneNonzero_of {M : Matrix33 ℚ} {src : XYZ (FP f)} {S : ℚ} (hS : 1 / 2 ^ 20 ≤ S)
    (h : ∀ k, S / 4 ≤ ∑ j, M.get k j * (xyzVec src j).val) :
    ConeNonzero (castM M) (Spec.realXyz src) := by
  have key : ∀ k, xyzVec (castM M * Spec.realXyz src) k ≠ 0 := fun k => by
    rw [cone_cast]
    have := h k
    have : 0 < ∑ j, M.get k j * (xyzVec src j).val := by norm_num at hS; linarith
    exact_mod_cast this.ne'
  exact ⟨key 0, key 1, key 2⟩

theorem eqb_real {src dst : XYZ (FP f)} {S R : ℚ} (hs : Spec.WhiteUpTo src S) (hd : Spec.WhiteUpTo dst R) :
    XYZ.eqb src dst = XYZ.eqb (Spec.realXyz src) (Spec.realXyz dst) := by
  obtain ⟨_, _, a, b, c⟩ := hs
  obtain ⟨_, _, a', b', c'⟩ := hd
  have e : ∀ {x y : FP f}, x.isFinite = true → y.isFinite = true →
      Flt.eqb x y = Flt.eqb (x.val : ℝ) (y.val : ℝ) := by
    intro x y hx hy
    show FP.eqb x y = _
    rw [FP.eqb_finite hx hy, Bool.eq_iff_iff]
    simp
  unfold XYZ.eqb Spec.realXyz
  rw [e a.1 a'.1, e b.1 b'.1, e c.1 c'.1]

theorem identity_near (hf : f = Fmt.b32 ∨ f = Fmt.b64) {e : ℝ} (he : 0 ≤ e) :
    Spec.MatrixNear (Matrix33.identity : Matrix33 (FP f)) Matrix33.identity e := by
  have key : ∀ n : ℕ, n ≤ 1 → ∀ a : FP f, a = FP.lit ((n : ℕ) : ℚ) → a.isFinite = true ∧ a.val = n := by
    rintro n hn a rfl
    rw [FP.lit_nat n (le_trans hn Nat.one_le_two_pow) (by omega)]
    exact ⟨rfl, rfl⟩
  have h1 : (Flt.one : FP f).isFinite = true ∧ (Flt.one : FP f).val = 1 := by
    simpa using key 1 le_rfl Flt.one (by show FP.lit _ = _; norm_num)
  have h0 : (Flt.zero : FP f).isFinite = true ∧ (Flt.zero : FP f).val = 0 := by
    simpa using key 0 zero_le_one Flt.zero (by show FP.lit _ = _; norm_num)
  intro i j
  fin_cases i <;> fin_cases j <;>
    simp [Matrix33.identity, Matrix33.get, h1.1, h1.2, h0.1, h0.2, he, Flt.zero, Flt.one]

theorem catWith_near (hf : f = Fmt.b32 ∨ f = Fmt.b64) {MA MAi : Matrix33 (FP f)} {M I : Matrix33 ℚ}
    {α : ℚ} (hi : MA.inverse = some MAi)
    (hc : Cone MA MAi (fun k j => M.get k j) (fun k j => I.get k j) α)
    (hg : GoodCone (castM M) (castM I)) {src dst : XYZ (FP f)} {S R : ℚ} (hs : Spec.WhiteUpTo src S)
    (hd : Spec.WhiteUpTo dst R) (hcone : ∀ k, S / 4 ≤ ∑ j, M.get k j * (xyzVec src j).val) :
    ∃ m E, catWith MA src dst = .ok m ∧
      catWith (castM M) (Spec.realXyz src) (Spec.realXyz dst) = .ok E ∧
      E * Spec.realXyz src = Spec.realXyz dst ∧
      Spec.MatrixNear m E (1300 * α * f.u * (R / S)) := by
  have hn := coneNonzero_of hs.1 hcone
  obtain ⟨E, hE, hw⟩ := catWith_white hg (Spec.realXyz src) (Spec.realXyz dst) hn
  have S0 : (0:ℝ) < S := by exact_mod_cast lt_of_lt_of_le (by norm_num : (0:ℚ) < 1 / 2 ^ 20) hs.1
  have R0 : (0:ℝ) < R := by exact_mod_cast lt_of_lt_of_le (by norm_num : (0:ℚ) < 1 / 2 ^ 20) hd.1
  have u0 : (0:ℝ) < f.u := by exact_mod_cast f.u_pos
  have α0 : (0:ℝ) < α := by exact_mod_cast lt_of_lt_of_le (by norm_num : (0:ℚ) < 1) hc.one
  by_cases he : XYZ.eqb src dst = true
  · have he' := he
    rw [eqb_real hs hd] at he'
    have : E = Matrix33.identity := by
      have : catWith (castM M) (Spec.realXyz src) (Spec.realXyz dst) = .ok Matrix33.identity := if_pos he'
      rw [this] at hE
      cases hE; rfl
    subst this
    exact ⟨_, _, if_pos he, hE, hw, identity_near hf (by positivity)⟩
  · refine ⟨MAi * wpScale (MA * src) (MA * dst) * MA, E, ?_, hE, hw, ?_⟩
    · unfold catWith; rw [if_neg he, hi]; rfl
    · rw [catWith_eq hg _ _ hn] at hE
      cases hE
      exact product_near hf hc hs hd hcone

/-- the exact matrix is not large -/
theorem exact_bound {M I : Matrix33 ℚ} {α : ℚ} (htop : ∀ k j, |M.get k j| ≤ 7 / 4)
    (hrow : ∀ k, ∑ j, |M.get k j| ≤ 13 / 5) (hI : ∀ i, ∑ k, |I.get i k| ≤ α)
    {src dst : XYZ (FP f)} {S R : ℚ} (hs : Spec.WhiteUpTo src S) (hd : Spec.WhiteUpTo dst R)
    (hcone : ∀ k, S / 4 ≤ ∑ j, M.get k j * (xyzVec src j).val) (i j : Fin 3) :
    |(castM I * wpScale (castM M * Spec.realXyz src) (castM M * Spec.realXyz dst) * castM M).get i j|
      ≤ 18.2 * α * (R / S) := by
  have S0 : 0 < S := lt_of_lt_of_le (by norm_num : (0:ℚ) < 1 / 2 ^ 20) hs.1
  have R0 : 0 < R := lt_of_lt_of_le (by norm_num : (0:ℚ) < 1 / 2 ^ 20) hd.1
  have g : ∀ k, |(∑ l, M.get k l * (xyzVec dst l).val) / (∑ l, M.get k l * (xyzVec src l).val) *
      M.get k j| ≤ 10.4 * (R / S) * (7 / 4) := by
    intro k
    have := (gain_err (u := 1 / 2 ^ 24) S0 R0 (by norm_num) le_rfl (hcone k)
      (abs_dot3_le (hrow k) (white_vec hd).2) (s' := _) (d' := _)
      (by rw [sub_self, abs_zero]; positivity) (by rw [sub_self, abs_zero]; positivity)).2.1
    rw [abs_mul]
    exact mul_le_mul this (htop k j) (abs_nonneg _) (by positivity)
  have h := abs_dot3_le (hI i) g
  rw [cat_get]
  simp only [castM_get, cone_cast]
  have := (Rat.cast_le (K := ℝ)).2 h
  simp only [Fin.sum_univ_three] at this ⊢
  push_cast at this ⊢
  refine le_trans (le_of_eq ?_) (le_trans this (le_of_eq ?_))
  · congr 1; ring
  · ring

/-- the computed matrix applied to the source white -/
theorem white_near {m : Matrix33 (FP f)} {E : Matrix33 ℝ} {src dst : XYZ (FP f)} {S R α : ℚ}
    (hf : Std f) (hs : Spec.WhiteUpTo src S) (hd : Spec.WhiteUpTo dst R) (α1 : 1 ≤ α) (α4 : α ≤ 4)
    (hE : E * Spec.realXyz src = Spec.realXyz dst) (hb : ∀ i j, |E.get i j| ≤ 18.2 * α * (R / S))
    (hm : Spec.MatrixNear m E (1300 * α * f.u * (R / S))) (i : Fin 3) :
    (xyzVec (m * src) i).isFinite = true ∧
    |(xyzVec (m * src) i).val - (xyzVec dst i).val| ≤ 4121 * α * f.u * R := by
  have S0 : 0 < S := lt_of_lt_of_le (by norm_num : (0:ℚ) < 1 / 2 ^ 20) hs.1
  have R0 : 0 < R := lt_of_lt_of_le (by norm_num : (0:ℚ) < 1 / 2 ^ 20) hd.1
  have u0 := f.u_pos
  have u1 : f.u ≤ 1 / 2 ^ 24 := hf.hu
  have eta := hf.wide.heta
  have big := hf.wide.hmax
  obtain ⟨v1, v2⟩ := white_vec hs
  have a1 : ∀ j, |(m.get i j).val| ≤ 18.3 * α * (R / S) := by
    intro j
    have h1 := (hm i j).2
    have h2 := hb i j
    have u1' : (f.u : ℝ) ≤ 1 / 2 ^ 24 := by qcast u1
    have t0 : (0:ℝ) < α * (R / S) := by
      have : 0 < α * (R / S) := by positivity
      exact_mod_cast this
    have h3 := mul_le_mul_of_nonneg_right u1' t0.le
    have h4 := abs_add_le (((m.get i j).val : ℝ) - E.get i j) (E.get i j)
    rw [sub_add_cancel] at h4
    have : ((|(m.get i j).val| : ℚ) : ℝ) ≤ ((18.3 * α * (R / S) : ℚ) : ℝ) := by
      push_cast
      norm_num at h3 ⊢
      linarith
    exact_mod_cast this
  have αR : α * R ≤ 4 * R := mul_le_mul_of_nonneg_right α4 R0.le
  have hR20 := hd.2.1
  have e1 : 54.9 * α * (R / S) * S = 54.9 * (α * R) := by field_simp
  obtain ⟨r1, r2⟩ := row_err (a := fun j => m.get i j) (b := fun j => xyzVec src j)
    (fun j => (hm i j).1) v1 (α := 54.9 * α * (R / S)) (B := S)
    (by rw [Fin.sum_univ_three]; linarith [a1 0, a1 1, a1 2]) v2
    (by rw [e1]; norm_num at big hR20 αR ⊢; linarith)
  have e : xyzVec (m * src) i = m.get i 0 * xyzVec src 0 + m.get i 1 * xyzVec src 1
      + m.get i 2 * xyzVec src 2 := by fin_cases i <;> rfl
  rw [e]
  refine ⟨r1, ?_⟩
  rw [e1] at r2
  -- the exact matrix sends one white to the other
  have hx : ∑ j, E.get i j * ((xyzVec src j).val : ℝ) = ((xyzVec dst i).val : ℝ) := by
    have : xyzVec (E * Spec.realXyz src) i = xyzVec (Spec.realXyz dst) i := by rw [hE]
    rw [Fin.sum_univ_three]
    rw [mulX_def] at this
    fin_cases i <;> simpa [xyzVec, Spec.realXyz, Matrix33.get] using this
  have hdif : |(∑ j, ((m.get i j).val : ℝ) * ((xyzVec src j).val : ℝ)) - (xyzVec dst i).val|
      ≤ 3900 * (α * f.u * R) := by
    have S0' : (0:ℝ) < S := by exact_mod_cast S0
    have R0' : (0:ℝ) < R := by exact_mod_cast R0
    rw [← hx, ← Finset.sum_sub_distrib]
    refine le_trans (Finset.abs_sum_le_sum_abs _ _) ?_
    have : ∀ j ∈ Finset.univ, |((m.get i j).val : ℝ) * ((xyzVec src j).val : ℝ)
        - E.get i j * ((xyzVec src j).val : ℝ)| ≤ 1300 * (α * f.u * R) := by
      intro j _
      rw [← sub_mul, abs_mul]
      have h1 := (hm i j).2
      have h2 : |((xyzVec src j).val : ℝ)| ≤ S := by exact_mod_cast v2 j
      calc _ ≤ 1300 * (α:ℝ) * f.u * (R / S) * S :=
            mul_le_mul h1 h2 (abs_nonneg _) (le_trans (abs_nonneg _) h1)
        _ = 1300 * ((α:ℝ) * f.u * R) := by field_simp
    refine le_trans (Finset.sum_le_sum this) ?_
    rw [Fin.sum_univ_three]; linarith
  have hdif' : |(∑ j, (m.get i j).val * (xyzVec src j).val) - (xyzVec dst i).val|
      ≤ 3900 * (α * f.u * R) := by
    have : ((|(∑ j, (m.get i j).val * (xyzVec src j).val) - (xyzVec dst i).val| : ℚ) : ℝ)
      ≤ ((3900 * (α * f.u * R) : ℚ) : ℝ) := by push_cast; exact hdif
    exact_mod_cast this
  have h5 := abs_sub_le (m.get i 0 * xyzVec src 0 + m.get i 1 * xyzVec src 1
      + m.get i 2 * xyzVec src 2).val (∑ j, (m.get i j).val * (xyzVec src j).val) (xyzVec dst i).val
  have h6 : 5 * f.eta ≤ 0.1 * (α * f.u * R) := by
    have k1 := mul_le_mul_of_nonneg_left hd.1 u0.le
    have k2 := mul_le_mul_of_nonneg_right α1 (by positivity : 0 ≤ f.u * R)
    norm_num at eta k1 k2 ⊢
    linarith
  have h7 : 0 < α * f.u * R := by positivity
  linarith

theorem catWith_white_near (hf : f = Fmt.b32 ∨ f = Fmt.b64) {MA MAi : Matrix33 (FP f)}
    {M I : Matrix33 ℚ} {α : ℚ} (hi : MA.inverse = some MAi)
    (hc : Cone MA MAi (fun k j => M.get k j) (fun k j => I.get k j) α)
    (hg : GoodCone (castM M) (castM I)) {src dst : XYZ (FP f)} {S R : ℚ} (hs : Spec.WhiteUpTo src S)
    (hd : Spec.WhiteUpTo dst R) (hcone : ∀ k, S / 4 ≤ ∑ j, M.get k j * (xyzVec src j).val) :
    ∃ m, catWith MA src dst = .ok m ∧ ∀ i, (xyzVec (m * src) i).isFinite = true ∧
      |(xyzVec (m * src) i).val - (xyzVec dst i).val| ≤ 4121 * α * f.u * R := by
  obtain ⟨m, E, h1, h2, h3, h4⟩ := catWith_near hf hi hc hg hs hd hcone
  refine ⟨m, h1, white_near (std_of hf) hs hd hc.one hc.four h3 ?_ h4⟩
  rw [catWith_eq hg _ _ (coneNonzero_of hs.1 hcone)] at h2
  cases h2
  exact exact_bound hc.top hc.row hc.rowi hs hd hcone

/-- C94 [F]: Bradford in single and double precision, for any two finite white points of which the
source has cone responses of at least a quarter of its size: the adaptation succeeds and every entry
of its matrix is within `1690 u R / S` of the exact adaptation, where `S` and `R` bound the components
of the source and the destination. -/
theorem C94_bradford_near (hf : f = Fmt.b32 ∨ f = Fmt.b64) (src dst : XYZ (FP f)) (S R : ℚ)
    (hs : Spec.WhiteUpTo src S) (hd : Spec.WhiteUpTo dst R)
    (hL : S / 4 ≤ 0.8951 * src.x.val + 0.2664 * src.y.val - 0.1614 * src.z.val)
    (hM : S / 4 ≤ -0.7502 * src.x.val + 1.7135 * src.y.val + 0.0367 * src.z.val)
    (hZ : S / 4 ≤ 0.0389 * src.x.val - 0.0685 * src.y.val + 1.0296 * src.z.val) :
    ∃ m E, bradford src dst = .ok m ∧
      bradford (Spec.realXyz src) (Spec.realXyz dst) = .ok E ∧
      E * Spec.realXyz src = Spec.realXyz dst ∧ Spec.MatrixNear m E (1690 * f.u * (R / S)) := by
  obtain ⟨MAi, hi, hc⟩ := cone_bradford (f := f) hf
  have hg := good_bradford
  rw [← castM_bradford] at hg
  obtain ⟨m, E, h1, h2, h3, h4⟩ := catWith_near hf hi hc hg hs hd
    (cone_explicit (by unfold bradfordQ; linarith) (by unfold bradfordQ; linarith)
      (by unfold bradfordQ; linarith))
  rw [castM_bradford] at h2
  refine ⟨m, E, h1, h2, h3, ?_⟩
  convert h4 using 2
  push_cast; norm_num

/-- C94 [F]: CAT02 likewise, within `2028 u R / S`. -/
theorem C94_cat02_near (hf : f = Fmt.b32 ∨ f = Fmt.b64) (src dst : XYZ (FP f)) (S R : ℚ)
    (hs : Spec.WhiteUpTo src S) (hd : Spec.WhiteUpTo dst R)
    (hL : S / 4 ≤ 0.7328 * src.x.val + 0.4296 * src.y.val - 0.1624 * src.z.val)
    (hM : S / 4 ≤ -0.7036 * src.x.val + 1.6975 * src.y.val + 0.0061 * src.z.val)
    (hZ : S / 4 ≤ 0.0030 * src.x.val + 0.0136 * src.y.val + 0.9834 * src.z.val) :
    ∃ m E, cat02 src dst = .ok m ∧
      cat02 (Spec.realXyz src) (Spec.realXyz dst) = .ok E ∧
      E * Spec.realXyz src = Spec.realXyz dst ∧ Spec.MatrixNear m E (2028 * f.u * (R / S)) := by
  obtain ⟨MAi, hi, hc⟩ := cone_cat02 (f := f) hf
  have hg := good_cat02
  rw [← castM_cat02] at hg
  obtain ⟨m, E, h1, h2, h3, h4⟩ := catWith_near hf hi hc hg hs hd
    (cone_explicit (by unfold cat02Q; linarith) (by unfold cat02Q; linarith)
      (by unfold cat02Q; linarith))
  rw [castM_cat02] at h2
  refine ⟨m, E, h1, h2, h3, ?_⟩
  convert h4 using 2
  push_cast; norm_num

/-- C94 [F]: the Bradford matrix, applied in the same arithmetic, takes the source white to the
destination white within `5400 u R`. -/
theorem C94_bradford_white (hf : f = Fmt.b32 ∨ f = Fmt.b64) (src dst : XYZ (FP f)) (S R : ℚ)
    (hs : Spec.WhiteUpTo src S) (hd : Spec.WhiteUpTo dst R)
    (hL : S / 4 ≤ 0.8951 * src.x.val + 0.2664 * src.y.val - 0.1614 * src.z.val)
    (hM : S / 4 ≤ -0.7502 * src.x.val + 1.7135 * src.y.val + 0.0367 * src.z.val)
    (hZ : S / 4 ≤ 0.0389 * src.x.val - 0.0685 * src.y.val + 1.0296 * src.z.val) :
    ∃ m, bradford src dst = .ok m ∧
      ((m * src).x.isFinite = true ∧ |(m * src).x.val - dst.x.val| ≤ 5400 * f.u * R) ∧
      ((m * src).y.isFinite = true ∧ |(m * src).y.val - dst.y.val| ≤ 5400 * f.u * R) ∧
      ((m * src).z.isFinite = true ∧ |(m * src).z.val - dst.z.val| ≤ 5400 * f.u * R) := by
  obtain ⟨MAi, hi, hc⟩ := cone_bradford (f := f) hf
  have hg := good_bradford
  rw [← castM_bradford] at hg
  have hcone : ∀ k, S / 4 ≤ ∑ j, bradfordQ.get k j * (xyzVec src j).val :=
    cone_explicit (by unfold bradfordQ; linarith) (by unfold bradfordQ; linarith)
      (by unfold bradfordQ; linarith)
  obtain ⟨m, h1, h2⟩ := catWith_white_near hf hi hc hg hs hd hcone
  have R0 : 0 < R := lt_of_lt_of_le (by norm_num : (0:ℚ) < 1 / 2 ^ 20) hd.1
  have : 4121 * 1.3 * f.u * R ≤ 5400 * f.u * R := by
    have := mul_pos f.u_pos R0
    linarith
  exact ⟨m, h1, ⟨(h2 0).1, le_trans (h2 0).2 this⟩, ⟨(h2 1).1, le_trans (h2 1).2 this⟩,
    ⟨(h2 2).1, le_trans (h2 2).2 this⟩⟩

/-- C94 [F]: the CAT02 matrix likewise, within `6500 u R`. -/
theorem C94_cat02_white (hf : f = Fmt.b32 ∨ f = Fmt.b64) (src dst : XYZ (FP f)) (S R : ℚ)
    (hs : Spec.WhiteUpTo src S) (hd : Spec.WhiteUpTo dst R)
    (hL : S / 4 ≤ 0.7328 * src.x.val + 0.4296 * src.y.val - 0.1624 * src.z.val)
    (hM : S / 4 ≤ -0.7036 * src.x.val + 1.6975 * src.y.val + 0.0061 * src.z.val)
    (hZ : S / 4 ≤ 0.0030 * src.x.val + 0.0136 * src.y.val + 0.9834 * src.z.val) :
    ∃ m, cat02 src dst = .ok m ∧
      ((m * src).x.isFinite = true ∧ |(m * src).x.val - dst.x.val| ≤ 6500 * f.u * R) ∧
      ((m * src).y.isFinite = true ∧ |(m * src).y.val - dst.y.val| ≤ 6500 * f.u * R) ∧
      ((m * src).z.isFinite = true ∧ |(m * src).z.val - dst.z.val| ≤ 6500 * f.u * R) := by
  obtain ⟨MAi, hi, hc⟩ := cone_cat02 (f := f) hf
  have hg := good_cat02
  rw [← castM_cat02] at hg
  have hcone : ∀ k, S / 4 ≤ ∑ j, cat02Q.get k j * (xyzVec src j).val :=
    cone_explicit (by unfold cat02Q; linarith) (by unfold cat02Q; linarith)
      (by unfold cat02Q; linarith)
  obtain ⟨m, h1, h2⟩ := catWith_white_near hf hi hc hg hs hd hcone
  have R0 : 0 < R := lt_of_lt_of_le (by norm_num : (0:ℚ) < 1 / 2 ^ 20) hd.1
  have : 4121 * 1.56 * f.u * R ≤ 6500 * f.u * R := by
    have := mul_pos f.u_pos R0
    linarith
  exact ⟨m, h1, ⟨(h2 0).1, le_trans (h2 0).2 this⟩, ⟨(h2 1).1, le_trans (h2 1).2 this⟩,
    ⟨(h2 2).1, le_trans (h2 2).2 this⟩⟩

/-- C94 [F]: Von Kries likewise, within `4173 u R / S`; the exact adaptation is the one with the
published seven-digit inverse, whose distance from the destination white C16 states. -/
theorem C94_vonKries_near (hf : f = Fmt.b32 ∨ f = Fmt.b64) (src dst : XYZ (FP f)) (S R : ℚ)
    (hs : Spec.WhiteUpTo src S) (hd : Spec.WhiteUpTo dst R)
    (hL : S / 4 ≤ 0.40024 * src.x.val + 0.7076 * src.y.val - 0.08081 * src.z.val)
    (hM : S / 4 ≤ -0.2263 * src.x.val + 1.16532 * src.y.val + 0.0457 * src.z.val)
    (hZ : S / 4 ≤ 0.91822 * src.z.val) :
    Spec.MatrixNear (vonKries src dst) (vonKries (Spec.realXyz src) (Spec.realXyz dst))
      (4173 * f.u * (R / S)) := by
  have hcone : ∀ k, S / 4 ≤ ∑ j, vonKriesQ.get k j * (xyzVec src j).val :=
    cone_explicit (by unfold vonKriesQ; linarith) (by unfold vonKriesQ; linarith)
      (by unfold vonKriesQ; linarith)
  have S0 : (0:ℝ) < S := by exact_mod_cast lt_of_lt_of_le (by norm_num : (0:ℚ) < 1 / 2 ^ 20) hs.1
  have R0 : (0:ℝ) < R := by exact_mod_cast lt_of_lt_of_le (by norm_num : (0:ℚ) < 1 / 2 ^ 20) hd.1
  have u0 : (0:ℝ) < f.u := by exact_mod_cast f.u_pos
  by_cases he : XYZ.eqb src dst = true
  · have he' := he
    rw [eqb_real hs hd] at he'
    rw [show vonKries src dst = Matrix33.identity from if_pos he,
      show vonKries (Spec.realXyz src) (Spec.realXyz dst) = Matrix33.identity from if_pos he']
    exact identity_near hf (by positivity)
  · have he' := he
    rw [eqb_real hs hd] at he'
    rw [show vonKries src dst = _ from if_neg he,
      show vonKries (Spec.realXyz src) (Spec.realXyz dst) = _ from if_neg he']
    have h := product_near hf (cone_vonKries (f := f) hf) hs hd hcone
    rw [castM_vonKries.1, castM_vonKries.2] at h
    convert h using 2
    push_cast; norm_num

/-- Not vacuous: a daylight and an incandescent white meet all hypotheses of all three. -/
example : ∃ (src dst : XYZ (FP Fmt.b32)) (S R : ℚ), Spec.WhiteUpTo src S ∧ Spec.WhiteUpTo dst R ∧
    src.x.val ≠ dst.x.val ∧
    (S / 4 ≤ 0.8951 * src.x.val + 0.2664 * src.y.val - 0.1614 * src.z.val ∧
     S / 4 ≤ -0.7502 * src.x.val + 1.7135 * src.y.val + 0.0367 * src.z.val ∧
     S / 4 ≤ 0.0389 * src.x.val - 0.0685 * src.y.val + 1.0296 * src.z.val) ∧
    (S / 4 ≤ 0.7328 * src.x.val + 0.4296 * src.y.val - 0.1624 * src.z.val ∧
     S / 4 ≤ -0.7036 * src.x.val + 1.6975 * src.y.val + 0.0061 * src.z.val ∧
     S / 4 ≤ 0.0030 * src.x.val + 0.0136 * src.y.val + 0.9834 * src.z.val) ∧
    (S / 4 ≤ 0.40024 * src.x.val + 0.7076 * src.y.val - 0.08081 * src.z.val ∧
     S / 4 ≤ -0.2263 * src.x.val + 1.16532 * src.y.val + 0.0457 * src.z.val ∧
     S / 4 ≤ 0.91822 * src.z.val) := by
  refine ⟨⟨FP.fin (141 / 128) (by decide +kernel), FP.fin 1 (by decide +kernel),
      FP.fin (91 / 256) (by decide +kernel)⟩,
    ⟨FP.fin (61 / 64) (by decide +kernel), FP.fin 1 (by decide +kernel),
      FP.fin (139 / 128) (by decide +kernel)⟩, 141 / 128, 139 / 128, ?_⟩
  simp only [Spec.WhiteUpTo, FP.isFinite, FP.val]
  norm_num [abs_of_pos]

end
end CS

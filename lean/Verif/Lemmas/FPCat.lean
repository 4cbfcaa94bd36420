import Verif.Props.Rounding
import Verif.Lemmas.FPTrip
import Verif.Lemmas.FPRel
import Verif.Model.Cat

/-!
# Rounding error of a chromatic adaptation matrix
-/

namespace CS

/-- A cone matrix and the inverse used with it, both off by rounding only from the exact rational
matrices `M` and `I`. -/
structure Cone {f : Fmt} (MA MAi : Matrix33 (FP f)) (M I : Fin 3 → Fin 3 → ℚ) (α : ℚ) : Prop where
  fin : MA.fin = true
  fini : MAi.fin = true
  err : ∀ k j, |MA.q k j - M k j| ≤ 1.01 * f.u * |M k j|
  top : ∀ k j, |M k j| ≤ 7 / 4
  row : ∀ k, ∑ j, |M k j| ≤ 13 / 5
  rowi : ∀ i, ∑ k, |I i k| ≤ α
  erri : ∀ i, ∑ k, |MAi.q i k - I i k| ≤ 3 * f.u
  one : 1 ≤ α
  four : α ≤ 4

/-- the algebra of the error of `A diag(g) M` -/
theorem cat_split {M M' I A B m : Fin 3 → Fin 3 → ℚ} {g g' : Fin 3 → ℚ} {i j : Fin 3}
    {α t e1 e2 e3 e4 e5 : ℚ}
    (h1 : |m i j - ∑ k, B i k * M' k j| ≤ e1)
    (h2 : ∑ k, |B i k - A i k * g' k| ≤ e2)
    (h3 : ∑ k, |A i k - I i k| ≤ e3) (hg' : ∀ k, |g' k| ≤ 10.42 * t)
    (hI : ∑ k, |I i k| ≤ α) (h4 : ∀ k, |g' k - g k| ≤ e4) (hg : ∀ k, |g k| ≤ 10.4 * t)
    (hM' : ∀ k j, |M' k j| ≤ 1.76) (h5 : ∀ k j, |M' k j - M k j| ≤ e5) :
    |m i j - ∑ k, I i k * g k * M k j| ≤
      e1 + e2 * 1.76 + e3 * (10.42 * t * 1.76) + α * (e4 * 1.76) + α * (10.4 * t * e5) := by
  have e : m i j - ∑ k, I i k * g k * M k j = (m i j - ∑ k, B i k * M' k j)
      + (∑ k, (B i k - A i k * g' k) * M' k j) + (∑ k, (A i k - I i k) * (g' k * M' k j))
      + (∑ k, I i k * ((g' k - g k) * M' k j)) + ∑ k, I i k * (g k * (M' k j - M k j)) := by
    simp only [Fin.sum_univ_three]; ring
  have t2 := abs_dot3_le (x := fun k => M' k j) h2 (fun k => hM' k j)
  have ht : 0 ≤ 10.42 * t := le_trans (abs_nonneg _) (hg' 0)
  have ht' : 0 ≤ 10.4 * t := le_trans (abs_nonneg _) (hg 0)
  have h40 : 0 ≤ e4 := le_trans (abs_nonneg _) (h4 0)
  have t3 := abs_dot3_le (x := fun k => g' k * M' k j) (X := 10.42 * t * 1.76) h3
    (fun k => by rw [abs_mul]; exact mul_le_mul (hg' k) (hM' k j) (abs_nonneg _) ht)
  have t4 := abs_dot3_le (x := fun k => (g' k - g k) * M' k j) (X := e4 * 1.76) hI
    (fun k => by rw [abs_mul]; exact mul_le_mul (h4 k) (hM' k j) (abs_nonneg _) h40)
  have t5 := abs_dot3_le (x := fun k => g k * (M' k j - M k j)) (X := 10.4 * t * e5) hI
    (fun k => by rw [abs_mul]; exact mul_le_mul (hg k) (h5 k j) (abs_nonneg _) ht')
  rw [e]
  refine le_trans (abs_add_le _ _) (add_le_add ?_ t5)
  refine le_trans (abs_add_le _ _) (add_le_add ?_ t4)
  refine le_trans (abs_add_le _ _) (add_le_add ?_ t3)
  exact le_trans (abs_add_le _ _) (add_le_add h1 t2)

/-- the error of a quotient of perturbed cone responses -/
theorem gain_err {s d s' d' S R u : ℚ} (S0 : 0 < S) (R0 : 0 < R) (u0 : 0 < u) (u1 : u ≤ 1 / 2 ^ 24)
    (hs : S / 4 ≤ s) (hd : |d| ≤ 13 / 5 * R) (hs' : |s' - s| ≤ 13.1 * u * S)
    (hd' : |d' - d| ≤ 13.1 * u * R) :
    0 < s' ∧ |d / s| ≤ 10.4 * (R / S) ∧ |d' / s'| ≤ 10.41 * (R / S) ∧
      |d' / s' - d / s| ≤ 598.2 * u * (R / S) := by
  have uS : u * S ≤ 1 / 2 ^ 24 * S := mul_le_mul_of_nonneg_right u1 S0.le
  have uR : u * R ≤ 1 / 2 ^ 24 * R := mul_le_mul_of_nonneg_right u1 R0.le
  have uR0 : 0 < u * R := by positivity
  norm_num at uS uR
  obtain ⟨a1, a2⟩ := abs_le.1 hs'
  have s0 : 0.24999 * S ≤ s' := by linarith
  have s'0 : 0 < s' := by linarith
  have s00 : 0 < s := by linarith
  have hD' : |d'| ≤ 2.60001 * R := by
    have := abs_sub_abs_le_abs_sub d' d
    linarith
  have k1 : |d / s| ≤ 10.4 * (R / S) := by
    rw [abs_div, abs_of_pos s00, div_le_iff₀ s00]
    calc |d| ≤ 13 / 5 * R := hd
      _ = 10.4 * (R / S) * (S / 4) := by field_simp; norm_num
      _ ≤ 10.4 * (R / S) * s := mul_le_mul_of_nonneg_left hs (by positivity)
  refine ⟨s'0, k1, ?_, ?_⟩
  · rw [abs_div, abs_of_pos s'0, div_le_iff₀ s'0]
    calc |d'| ≤ 2.60001 * R := hD'
      _ ≤ 10.41 * (R / S) * (0.24999 * S) := by
        have : 10.41 * (R / S) * (0.24999 * S) = 10.41 * 0.24999 * R := by field_simp
        rw [this]; linarith
      _ ≤ 10.41 * (R / S) * s' := mul_le_mul_of_nonneg_left s0 (by positivity)
  · have e : d' / s' - d / s = ((d' - d) - (d / s) * (s' - s)) / s' := by
      field_simp; ring
    rw [e, abs_div, abs_of_pos s'0, div_le_iff₀ s'0]
    have h1 : |(d / s) * (s' - s)| ≤ 10.4 * (R / S) * (13.1 * u * S) := by
      rw [abs_mul]; exact mul_le_mul k1 hs' (abs_nonneg _) (by positivity)
    have h2 : 10.4 * (R / S) * (13.1 * u * S) = 136.24 * (u * R) := by field_simp; norm_num
    have h3 := abs_sub (d' - d) ((d / s) * (s' - s))
    have h4 : 598.2 * u * (R / S) * (0.24999 * S) ≤ 598.2 * u * (R / S) * s' :=
      mul_le_mul_of_nonneg_left s0 (by positivity)
    have h5 : 598.2 * u * (R / S) * (0.24999 * S) = 598.2 * 0.24999 * (u * R) := by field_simp
    have := abs_sub_le (d' - d) 0 ((d / s) * (s' - s))
    simp only [sub_zero, zero_sub, abs_neg] at this
    linarith

section
variable {f : Fmt} [Libm f]

theorem q_row {MA MAi : Matrix33 (FP f)} {M I : Fin 3 → Fin 3 → ℚ} {α : ℚ} (hf : Std f)
    (hc : Cone MA MAi M I α) (k : Fin 3) : ∑ j, |MA.q k j| ≤ 2.61 ∧
      (∀ j, |MA.q k j| ≤ 1.76) ∧ ∑ j, |MA.q k j - M k j| ≤ 1.01 * f.u * (13 / 5) := by
  have u1 := hf.hu
  have u0 := f.u_pos
  have h3 : ∑ j, |MA.q k j - M k j| ≤ 1.01 * f.u * (13 / 5) := by
    calc _ ≤ ∑ j, 1.01 * f.u * |M k j| := Finset.sum_le_sum fun j _ => hc.err k j
      _ = 1.01 * f.u * ∑ j, |M k j| := by rw [Finset.mul_sum]
      _ ≤ _ := mul_le_mul_of_nonneg_left (hc.row k) (by positivity)
  have u2 : f.u ≤ 1 / 1000000 := le_trans u1 (by norm_num)
  refine ⟨?_, ?_, h3⟩
  · calc _ ≤ ∑ j, (|MA.q k j - M k j| + |M k j|) := Finset.sum_le_sum fun j _ => by
          have := abs_add_le (MA.q k j - M k j) (M k j)
          rwa [sub_add_cancel] at this
      _ ≤ 1.01 * f.u * (13 / 5) + 13 / 5 := by
          rw [Finset.sum_add_distrib]; exact add_le_add h3 (hc.row k)
      _ ≤ _ := by linarith
  · intro j
    have := abs_add_le (MA.q k j - M k j) (M k j)
    rw [sub_add_cancel] at this
    have h1 := hc.err k j
    have h2 := hc.top k j
    have h4 : 1.01 * f.u * |M k j| ≤ 1.01 * f.u * (7 / 4) := mul_le_mul_of_nonneg_left h2 (by positivity)
    linarith

/-- the cone responses of a colour -/
theorem cone_err {MA MAi : Matrix33 (FP f)} {M I : Fin 3 → Fin 3 → ℚ} {α : ℚ} (hf : Std f)
    (hc : Cone MA MAi M I α) {w : XYZ (FP f)} {S : ℚ} (hS : 1 / 2 ^ 20 ≤ S) (hS' : S ≤ 2 ^ 20)
    (hw : ∀ j, (xyzVec w j).isFinite = true) (hb : ∀ j, |(xyzVec w j).val| ≤ S) (k : Fin 3) :
    (xyzVec (MA * w) k).isFinite = true ∧
    |(xyzVec (MA * w) k).val - ∑ j, M k j * (xyzVec w j).val| ≤ 13.1 * f.u * S ∧
    |∑ j, M k j * (xyzVec w j).val| ≤ 13 / 5 * S := by
  obtain ⟨r1, r2, r3⟩ := q_row hf hc k
  have S0 : 0 < S := lt_of_lt_of_le (by norm_num) hS
  have u0 := f.u_pos
  have big := hf.wide.hmax
  have e : xyzVec (MA * w) k = MA.get k 0 * xyzVec w 0 + MA.get k 1 * xyzVec w 1
      + MA.get k 2 * xyzVec w 2 := by fin_cases k <;> rfl
  obtain ⟨h1, h2⟩ := row_err (a := fun j => MA.get k j) (b := fun j => xyzVec w j)
    (Matrix33.fin_get hc.fin k) hw (α := 2.61) (B := S) r1 hb
    (by norm_num at big hS' ⊢; linarith)
  refine ⟨by rw [e]; exact h1, ?_, abs_dot3_le (hc.row k) hb⟩
  rw [e]
  have h3 := abs_dot3_le (x := fun j => (xyzVec w j).val) r3 hb
  have h4 : ∑ j, (MA.get k j).val * (xyzVec w j).val - ∑ j, M k j * (xyzVec w j).val
      = ∑ j, (MA.q k j - M k j) * (xyzVec w j).val := by
    rw [← Finset.sum_sub_distrib]
    exact Finset.sum_congr rfl fun j _ => by unfold Matrix33.q; ring
  rw [← h4] at h3
  have h5 := abs_sub_le (MA.get k 0 * xyzVec w 0 + MA.get k 1 * xyzVec w 1
      + MA.get k 2 * xyzVec w 2).val (∑ j, (MA.get k j).val * (xyzVec w j).val)
      (∑ j, M k j * (xyzVec w j).val)
  have h6 : 5 * f.eta ≤ 0.01 * (f.u * S) := by
    have := hf.wide.heta
    have h7 := mul_le_mul_of_nonneg_left hS u0.le
    norm_num at this h7 ⊢
    linarith
  have h8 := mul_pos u0 S0
  linarith

/-- **The matrix.** Every entry is finite and within `1300 α u R / S` of the exact one. -/
theorem cat_near {MA MAi : Matrix33 (FP f)} {M I : Fin 3 → Fin 3 → ℚ} {α : ℚ} (hf : Std f)
    (hc : Cone MA MAi M I α) {src dst : XYZ (FP f)} {S R : ℚ} (hS : 1 / 2 ^ 20 ≤ S) (hS' : S ≤ 2 ^ 20)
    (hR : 1 / 2 ^ 20 ≤ R) (hR' : R ≤ 2 ^ 20)
    (hw : ∀ j, (xyzVec src j).isFinite = true) (hb : ∀ j, |(xyzVec src j).val| ≤ S)
    (hw' : ∀ j, (xyzVec dst j).isFinite = true) (hb' : ∀ j, |(xyzVec dst j).val| ≤ R)
    (hcone : ∀ k, S / 4 ≤ ∑ j, M k j * (xyzVec src j).val) (i j : Fin 3) :
    ((MAi * wpScale (MA * src) (MA * dst) * MA).get i j).isFinite = true ∧
    |((MAi * wpScale (MA * src) (MA * dst) * MA).get i j).val
      - ∑ k, I i k * ((∑ l, M k l * (xyzVec dst l).val) / ∑ l, M k l * (xyzVec src l).val) * M k j|
      ≤ 1300 * α * f.u * (R / S) := by
  have S0 : 0 < S := lt_of_lt_of_le (by norm_num) hS
  have R0 : 0 < R := lt_of_lt_of_le (by norm_num) hR
  have u0 := f.u_pos
  have u1 := hf.hu
  have u2 : f.u ≤ 1 / 1000000 := le_trans u1 (by norm_num)
  have big := hf.wide.hmax
  have eta0 := f.eta_pos
  have α1 := hc.one
  have α4 := hc.four
  set t := R / S with ht
  have t0 : 0 < t := by positivity
  have t1 : 1 / 2 ^ 40 ≤ t := by
    rw [ht, le_div_iff₀ S0]; norm_num at hR hS' ⊢; linarith
  have t2 : t ≤ 2 ^ 40 := by
    rw [ht, div_le_iff₀ S0]; norm_num at hR' hS ⊢; linarith
  have hη : f.eta ≤ f.u * t / 2 ^ 84 := by
    have h1 := hf.wide.heta
    have h2 := mul_le_mul_of_nonneg_left t1 u0.le
    norm_num at h1 h2 ⊢
    linarith
  have hη' : f.eta ≤ 0.001 * (f.u * t) := by
    have : 0 < f.u * t := by positivity
    norm_num at hη ⊢; linarith
  have ut : f.u * t ≤ 0.000001 * t := by
    have := mul_le_mul_of_nonneg_right u2 t0.le
    norm_num at this ⊢; linarith
  have ut0 : 0 < f.u * t := by positivity
  -- the gains
  set D := wpScale (MA * src) (MA * dst) with hD
  set s : Fin 3 → ℚ := fun k => ∑ l, M k l * (xyzVec src l).val with hs
  set d : Fin 3 → ℚ := fun k => ∑ l, M k l * (xyzVec dst l).val with hd
  have gain : ∀ k, (D.get k k).isFinite = true ∧ |(D.get k k).val| ≤ 10.42 * t ∧
      |(D.get k k).val - d k / s k| ≤ 609 * (f.u * t) ∧ |d k / s k| ≤ 10.4 * t := by
    intro k
    obtain ⟨a1, a2, _⟩ := cone_err hf hc hS hS' hw hb k
    obtain ⟨b1, b2, b3⟩ := cone_err hf hc hR hR' hw' hb' k
    obtain ⟨g0, g1, g2, g3⟩ := gain_err S0 R0 u0 u1 (hcone k) b3 a2 b2
    have e : D.get k k = xyzVec (MA * dst) k / xyzVec (MA * src) k := by fin_cases k <;> rfl
    obtain ⟨k1, k2⟩ := FP.div_err b1 a1 g0.ne' (by
      refine le_trans g2 ?_
      norm_num at big t2 ⊢
      linarith)
    rw [e]
    have k3 : |(xyzVec (MA * dst) k).val / (xyzVec (MA * src) k).val| * f.u ≤ 10.41 * (R / S) * f.u :=
      mul_le_mul_of_nonneg_right g2 u0.le
    rw [← ht] at *
    have k4 : |(xyzVec (MA * dst) k / xyzVec (MA * src) k).val
        - (xyzVec (MA * dst) k).val / (xyzVec (MA * src) k).val| ≤ 10.42 * (f.u * t) := by linarith
    refine ⟨k1, ?_, ?_, g1⟩
    · have := abs_add_le ((xyzVec (MA * dst) k / xyzVec (MA * src) k).val
        - (xyzVec (MA * dst) k).val / (xyzVec (MA * src) k).val)
        ((xyzVec (MA * dst) k).val / (xyzVec (MA * src) k).val)
      rw [sub_add_cancel] at this
      linarith
    · have := abs_sub_le (xyzVec (MA * dst) k / xyzVec (MA * src) k).val
        ((xyzVec (MA * dst) k).val / (xyzVec (MA * src) k).val) (d k / s k)
      have : |(xyzVec (MA * dst) k).val / (xyzVec (MA * src) k).val - d k / s k| ≤ 598.2 * f.u * t := g3
      linarith
  have off : ∀ l k, l ≠ k → (D.get l k).isFinite = true ∧ (D.get l k).val = 0 := by
    have hz : (Flt.zero : FP f).isFinite = true ∧ (Flt.zero : FP f).val = 0 := by
      have : (Flt.zero : FP f) = FP.lit ((0 : ℕ) : ℚ) := by show FP.lit _ = _; norm_num
      rw [this, FP.lit_nat 0 (by positivity) (by norm_num)]
      exact ⟨rfl, by norm_num [FP.val]⟩
    intro l k h
    fin_cases l <;> fin_cases k <;> first | exact absurd rfl h | exact hz
  have Dfin : ∀ l k, (D.get l k).isFinite = true := fun l k => by
    by_cases h : l = k
    · subst h; exact (gain l).1
    · exact (off l k h).1
  -- `B = A D`
  have rowA : ∀ i, ∑ k, |MAi.q i k| ≤ 1.001 * α := by
    intro i
    calc _ ≤ ∑ k, (|MAi.q i k - I i k| + |I i k|) := Finset.sum_le_sum fun k _ => by
          have := abs_add_le (MAi.q i k - I i k) (I i k)
          rwa [sub_add_cancel] at this
      _ ≤ 3 * f.u + α := by rw [Finset.sum_add_distrib]; exact add_le_add (hc.erri i) (hc.rowi i)
      _ ≤ _ := by linarith
  have oneA : ∀ i k, |MAi.q i k| ≤ 1.001 * α := fun i k =>
    le_trans (Finset.single_le_sum (f := fun k => |MAi.q i k|) (fun _ _ => abs_nonneg _)
      (Finset.mem_univ k)) (rowA i)
  have sumD : ∀ i k, ∑ l, (MAi.get i l).val * (D.get l k).val = MAi.q i k * (D.get k k).val ∧
      ∑ l, |(MAi.get i l).val * (D.get l k).val| = |MAi.q i k| * |(D.get k k).val| := by
    intro i k
    rw [← abs_mul]
    refine ⟨?_, ?_⟩
    · rw [Finset.sum_eq_single k]
      · rfl
      · intro l _ h; rw [(off l k h).2, mul_zero]
      · intro h; exact absurd (Finset.mem_univ k) h
    · rw [Finset.sum_eq_single k]
      · rfl
      · intro l _ h; rw [(off l k h).2, mul_zero, abs_zero]
      · intro h; exact absurd (Finset.mem_univ k) h
  have prod : ∀ i k, |MAi.q i k| * |(D.get k k).val| ≤ |MAi.q i k| * (10.42 * t) := fun i k =>
    mul_le_mul_of_nonneg_left (gain k).2.1 (abs_nonneg _)
  have Bent : ∀ i k, ((MAi * D).get i k).isFinite = true ∧
      |(MAi * D).q i k - MAi.q i k * (D.get k k).val| ≤ 4 * f.u * (|MAi.q i k| * (10.42 * t)) + 5 * f.eta := by
    intro i k
    have h1 := prod i k
    have h2 : |MAi.q i k| * (10.42 * t) ≤ 1.001 * α * (10.42 * t) :=
      mul_le_mul_of_nonneg_right (oneA i k) (by positivity)
    have h3 : α * t ≤ 4 * t := mul_le_mul_of_nonneg_right α4 t0.le
    obtain ⟨b1, b2⟩ := C76_matrix_matrix MAi D (Matrix33.fin_get hc.fini) Dfin i k (by
      rw [(sumD i k).2]
      refine le_trans h1 (le_trans h2 ?_)
      norm_num at big t2 h3 ⊢
      linarith)
    rw [(sumD i k).1, (sumD i k).2] at b2
    refine ⟨b1, le_trans b2 ?_⟩
    gcongr
  have ute : f.u * t * α ≥ f.u * t := by nlinarith
  have Bsum : ∀ i, ∑ k, |(MAi * D).q i k - MAi.q i k * (D.get k k).val| ≤ 41.8 * (f.u * t * α) := by
    intro i
    calc _ ≤ ∑ k, (4 * f.u * (|MAi.q i k| * (10.42 * t)) + 5 * f.eta) :=
          Finset.sum_le_sum fun k _ => (Bent i k).2
      _ = 41.68 * (f.u * t) * (∑ k, |MAi.q i k|) + 15 * f.eta := by
          simp only [Fin.sum_univ_three]; ring
      _ ≤ 41.68 * (f.u * t) * (1.001 * α) + 15 * f.eta := by
          have := mul_le_mul_of_nonneg_left (rowA i) (by positivity : (0:ℚ) ≤ 41.68 * (f.u * t))
          linarith
      _ ≤ _ := by linarith
  have Babs : ∀ i, ∑ k, |(MAi * D).q i k| ≤ 10.44 * (α * t) := by
    intro i
    have uta : f.u * t * α ≤ 0.000001 * t * α := mul_le_mul_of_nonneg_right ut (by linarith)
    calc _ ≤ ∑ k, (|(MAi * D).q i k - MAi.q i k * (D.get k k).val| + |MAi.q i k| * (10.42 * t)) :=
          Finset.sum_le_sum fun k _ => by
            have := abs_add_le ((MAi * D).q i k - MAi.q i k * (D.get k k).val)
              (MAi.q i k * (D.get k k).val)
            rw [sub_add_cancel, abs_mul] at this
            linarith [prod i k]
      _ ≤ 41.8 * (f.u * t * α) + 1.001 * α * (10.42 * t) := by
          rw [Finset.sum_add_distrib, ← Finset.sum_mul]
          exact add_le_add (Bsum i) (mul_le_mul_of_nonneg_right (rowA i) (by positivity))
      _ ≤ _ := by
          have : 0 < t * α := by positivity
          linarith
  -- the product with the cone matrix
  have hMq : ∀ k j, |MA.q k j| ≤ 1.76 := fun k => (q_row hf hc k).2.1
  have absum : ∑ k, |((MAi * D).get i k).val * (MA.get k j).val| ≤ 10.44 * (α * t) * 1.76 := by
    calc _ ≤ ∑ k, |(MAi * D).q i k| * 1.76 := Finset.sum_le_sum fun k _ => by
          rw [abs_mul]; exact mul_le_mul_of_nonneg_left (hMq k j) (abs_nonneg _)
      _ = (∑ k, |(MAi * D).q i k|) * 1.76 := by rw [Finset.sum_mul]
      _ ≤ _ := mul_le_mul_of_nonneg_right (Babs i) (by norm_num)
  have αt4 : α * t ≤ 4 * t := mul_le_mul_of_nonneg_right α4 t0.le
  obtain ⟨m1, m2⟩ := C76_matrix_matrix (MAi * D) MA (fun i k => (Bent i k).1)
    (Matrix33.fin_get hc.fin) i j (by
      refine le_trans absum ?_
      norm_num at big t2 αt4 ⊢
      linarith)
  refine ⟨m1, ?_⟩
  have m3 : |(MAi * D * MA).q i j - ∑ k, (MAi * D).q i k * MA.q k j| ≤ 74 * (f.u * t * α) := by
    have h1 : 4 * f.u * ∑ k, |((MAi * D).get i k).val * (MA.get k j).val|
        ≤ 4 * f.u * (10.44 * (α * t) * 1.76) := mul_le_mul_of_nonneg_left absum (by positivity)
    have h2 : |(MAi * D * MA).q i j - ∑ k, (MAi * D).q i k * MA.q k j| ≤
      4 * f.u * ∑ k, |((MAi * D).get i k).val * (MA.get k j).val| + 5 * f.eta := m2
    linarith
  have herr : ∀ k j, |MA.q k j - M k j| ≤ 1.77 * f.u := fun k j => by
    have h1 := hc.err k j
    have h2 : 1.01 * f.u * |M k j| ≤ 1.01 * f.u * (7 / 4) :=
      mul_le_mul_of_nonneg_left (hc.top k j) (by positivity)
    linarith
  have fin := cat_split (m := (MAi * D * MA).q) (B := (MAi * D).q) (M' := MA.q) (M := M) (A := MAi.q)
    (I := I) (g' := fun k => (D.get k k).val) (g := fun k => d k / s k) (i := i) (j := j) m3 (Bsum i)
    (hc.erri i) (fun k => (gain k).2.1) (hc.rowi i) (fun k => (gain k).2.2.1) (fun k => (gain k).2.2.2)
    hMq herr
  refine le_trans fin ?_
  have : 0 < f.u * t * α := by positivity
  linarith

end
end CS

import Verif.Lemmas.FPDot
import Verif.Model.Space
import Verif.Num.KRefl
import Mathlib.Algebra.BigOperators.Fin
import Mathlib.Tactic.Ring
import Mathlib.Tactic.FinCases
import Mathlib.Data.Fintype.BigOperators

/-!
# Rounding error of matrix round trips
-/

namespace CS

/-- rational entries of a matrix of floats -/
def Matrix33.q {f : Fmt} (m : Matrix33 (FP f)) (i j : Fin 3) : ℚ := (m.get i j).val

/-- all entries finite -/
def Matrix33.fin {f : Fmt} (m : Matrix33 (FP f)) : Bool := m.all FP.isFinite

theorem Matrix33.fin_get {f : Fmt} {m : Matrix33 (FP f)} (h : m.fin = true) (i j : Fin 3) :
    (m.get i j).isFinite = true := by
  unfold Matrix33.fin Matrix33.all at h
  simp only [Bool.and_eq_true] at h
  obtain ⟨⟨⟨⟨⟨⟨⟨⟨h0, h1⟩, h2⟩, h3⟩, h4⟩, h5⟩, h6⟩, h7⟩, h8⟩ := h
  fin_cases i <;> fin_cases j <;> assumption

theorem abs_dot3_le {b : Fin 3 → ℚ} {x : Fin 3 → ℚ} {β X : ℚ} (hb : ∑ j, |b j| ≤ β)
    (hx : ∀ j, |x j| ≤ X) : |∑ j, b j * x j| ≤ β * X := by
  have hX : 0 ≤ X := le_trans (abs_nonneg _) (hx 0)
  calc |∑ j, b j * x j| ≤ ∑ j, |b j * x j| := Finset.abs_sum_le_sum_abs _ _
    _ ≤ ∑ j, |b j| * X := by
        refine Finset.sum_le_sum fun j _ => ?_
        rw [abs_mul]
        exact mul_le_mul_of_nonneg_left (hx j) (abs_nonneg _)
    _ = (∑ j, |b j|) * X := by rw [Finset.sum_mul]
    _ ≤ β * X := mul_le_mul_of_nonneg_right hb hX

/-- one row times a bounded vector -/
theorem row_err {f : Fmt} {a b : Fin 3 → FP f} (ha : ∀ j, (a j).isFinite = true)
    (hb : ∀ j, (b j).isFinite = true) {α B : ℚ} (hα : ∑ j, |(a j).val| ≤ α)
    (hB : ∀ j, |(b j).val| ≤ B) (hS : α * B ≤ 2 ^ f.emax / 2) :
    (a 0 * b 0 + a 1 * b 1 + a 2 * b 2).isFinite = true ∧
    |(a 0 * b 0 + a 1 * b 1 + a 2 * b 2).val - ∑ j, (a j).val * (b j).val| ≤
      4 * f.u * (α * B) + 5 * f.eta := by
  have hB0 : 0 ≤ B := le_trans (abs_nonneg _) (hB 0)
  have hsum : |(a 0).val * (b 0).val| + |(a 1).val * (b 1).val| + |(a 2).val * (b 2).val| ≤ α * B := by
    rw [Fin.sum_univ_three] at hα
    rw [abs_mul, abs_mul, abs_mul]
    calc _ ≤ |(a 0).val| * B + |(a 1).val| * B + |(a 2).val| * B := by
          gcongr
          exacts [hB 0, hB 1, hB 2]
      _ = (|(a 0).val| + |(a 1).val| + |(a 2).val|) * B := by ring
      _ ≤ α * B := mul_le_mul_of_nonneg_right hα hB0
  obtain ⟨h1, h2⟩ := dot3_err (ha 0) (ha 1) (ha 2) (hb 0) (hb 1) (hb 2) (le_trans hsum hS)
  refine ⟨h1, ?_⟩
  rw [Fin.sum_univ_three]
  refine le_trans h2 ?_
  have := f.u_pos
  gcongr

/-- linear-algebra core of the round trip -/
theorem trip_core {A B : Fin 3 → Fin 3 → ℚ} {α β ε M ew ec ed : ℚ} {v w c d : Fin 3 → ℚ}
    (hα : ∀ i, ∑ j, |A i j| ≤ α) (hβ : ∀ i, ∑ j, |B i j| ≤ β) (hβ0 : 0 ≤ β)
    (hε : ∀ i, ∑ j, |(∑ k, B i k * A k j) - (if i = j then 1 else 0)| ≤ ε)
    (hv : ∀ i, |v i| ≤ M) (hw : ∀ i, |w i - v i| ≤ ew)
    (hc : ∀ i, |c i - ∑ j, A i j * w j| ≤ ec) (hd : ∀ i, |d i - ∑ j, B i j * c j| ≤ ed) (i : Fin 3) :
    |d i - v i| ≤ ed + β * ec + β * (α * ew) + ε * M := by
  have e1 : d i - v i = (d i - ∑ j, B i j * c j) + (∑ j, B i j * (c j - ∑ k, A j k * w k))
      + (∑ j, B i j * (∑ k, A j k * (w k - v k)))
      + ∑ j, ((∑ k, B i k * A k j) - (if i = j then 1 else 0)) * v j := by
    simp only [Fin.sum_univ_three]
    fin_cases i <;> simp <;> ring
  have t1 := abs_dot3_le (b := B i) (x := fun j => c j - ∑ k, A j k * w k) (hβ i) hc
  have t2 := abs_dot3_le (b := B i) (x := fun j => ∑ k, A j k * (w k - v k)) (hβ i)
    (fun j => abs_dot3_le (b := A j) (x := fun k => w k - v k) (hα j) hw)
  have t3 := abs_dot3_le (b := fun j => (∑ k, B i k * A k j) - (if i = j then 1 else 0)) (x := v)
    (hε i) hv
  have t4 := hd i
  rw [e1]
  have s1 := abs_add_le ((d i - ∑ j, B i j * c j) + (∑ j, B i j * (c j - ∑ k, A j k * w k))
      + (∑ j, B i j * (∑ k, A j k * (w k - v k))))
      (∑ j, ((∑ k, B i k * A k j) - (if i = j then 1 else 0)) * v j)
  have s2 := abs_add_le ((d i - ∑ j, B i j * c j) + (∑ j, B i j * (c j - ∑ k, A j k * w k)))
      (∑ j, B i j * (∑ k, A j k * (w k - v k)))
  have s3 := abs_add_le (d i - ∑ j, B i j * c j) (∑ j, B i j * (c j - ∑ k, A j k * w k))
  linarith

/-- formats wide enough for the bounds below: binary32 and binary64 are -/
structure Wide (f : Fmt) : Prop where
  hu : f.u ≤ 1 / 2 ^ 20
  heta : f.eta ≤ f.u / 2 ^ 124
  hmax : (2:ℚ) ^ 126 ≤ 2 ^ f.emax / 2

theorem wide_b32 : Wide Fmt.b32 := by
  refine ⟨?_, ?_, ?_⟩ <;> norm_num [Fmt.u, Fmt.eta, Fmt.b32, Fmt.emin]

theorem wide_b64 : Wide Fmt.b64 := by
  refine ⟨?_, ?_, ?_⟩
  · norm_num [Fmt.u, Fmt.b64]
  · have e : Fmt.b64.u / 2 ^ 124 = (2:ℚ) ^ (-177 : ℤ) := by norm_num [Fmt.u, Fmt.b64]
    have e' : Fmt.b64.eta = (2:ℚ) ^ (-1075 : ℤ) := by
      unfold Fmt.eta Fmt.emin Fmt.b64
      congr 1
    rw [e, e']
    exact zpow_le_zpow_right₀ (by norm_num) (by norm_num)
  · rw [le_div_iff₀ (by norm_num)]
    show (2:ℚ) ^ 126 * 2 ≤ 2 ^ 1023
    calc (2:ℚ) ^ 126 * 2 = 2 ^ 127 := by norm_num
      _ ≤ 2 ^ 1023 := pow_le_pow_right₀ (by norm_num) (by norm_num)

/-- row sum of absolute values -/
def rowAbs {f : Fmt} (m : Matrix33 (FP f)) (i : Fin 3) : ℚ := ∑ j, |m.q i j|

/-- row sum of `|B A - 1|` -/
def defect {f : Fmt} (B A : Matrix33 (FP f)) (i : Fin 3) : ℚ :=
  ∑ j, |(∑ k, B.q i k * A.q k j) - (if i = j then 1 else 0)|

/-- generic approximate two-step product in a wide format: from `w` with `|w - v| ≤ e u M`, and with
the intermediate result `c'` passed on as `c` with a further error `e' u α M` -/
theorem two_step {f : Fmt} (hf : Wide f) {A B : Matrix33 (FP f)} (hA : A.fin = true)
    (hB : B.fin = true) {α β ε M e e' : ℚ}
    (hα : ∀ i, rowAbs A i ≤ α) (hβ : ∀ i, rowAbs B i ≤ β) (hα1 : 1 / 2 ≤ α) (hβ1 : 1 / 2 ≤ β)
    (hα2 : α ≤ 64) (hβ2 : β ≤ 64) (hε : ∀ i, defect B A i ≤ ε) (he : e ≤ 4) (he' : e' ≤ 4)
    (hM1 : 1 / 2 ^ 101 ≤ M) (hM2 : M ≤ 2 ^ 105)
    {v : Fin 3 → ℚ} {w c c' d : Fin 3 → FP f} (hv : ∀ i, |v i| ≤ M)
    (hwf : ∀ i, (w i).isFinite = true) (hw : ∀ i, |(w i).val - v i| ≤ e * f.u * M)
    (hc' : ∀ i, c' i = A.get i 0 * w 0 + A.get i 1 * w 1 + A.get i 2 * w 2)
    (hcc : ∀ i, (c' i).isFinite = true → |(c' i).val| ≤ 1.01 * (α * M) →
      (c i).isFinite = true ∧ |(c i).val - (c' i).val| ≤ e' * f.u * (α * M))
    (hd : ∀ i, d i = B.get i 0 * c 0 + B.get i 1 * c 1 + B.get i 2 * c 2) (i : Fin 3) :
    (d i).isFinite = true ∧ |(d i).val - v i| ≤ ((8.2 + e + e') * f.u * (α * β) + ε) * M ∧
    |(d i).val| ≤ 1.02 * (α * β * M) := by
  have hu := hf.hu
  have hu0 := f.u_pos
  have hη0 := f.eta_pos
  have hα0 : 0 < α := by linarith
  have hβ0 : 0 < β := by linarith
  have hM0 : 0 < M := lt_of_lt_of_le (by positivity) hM1
  have hu' : f.u ≤ 1 / 1000000 := le_trans hu (by norm_num)
  have hη : f.eta ≤ f.u * M / 1000000 := by
    refine le_trans hf.heta ?_
    have : f.u * (1 / 2 ^ 101) / 1000000 ≤ f.u * M / 1000000 := by gcongr
    refine le_trans ?_ this
    have h1 : f.u / 2 ^ 124 = f.u * (1 / 2 ^ 124) := by ring
    have h2 : f.u * (1 / 2 ^ 101) / 1000000 = f.u * (1 / 2 ^ 101 / 1000000) := by ring
    rw [h1, h2]
    exact mul_le_mul_of_nonneg_left (by norm_num) hu0.le
  have hW : ∀ i, |(w i).val| ≤ 1.001 * M := by
    intro i
    have h1 := abs_add_le ((w i).val - v i) (v i)
    rw [sub_add_cancel] at h1
    have h2 : e * f.u * M ≤ 4 * (1 / 1000000) * M := by gcongr
    have := hw i
    have := hv i
    linarith
  have hcb' : ∀ i, (c' i).isFinite = true ∧ |(c' i).val - ∑ j, A.q i j * (w j).val| ≤
      4 * f.u * (α * (1.001 * M)) + 5 * f.eta := by
    intro i
    rw [hc' i]
    refine row_err (a := A.get i) (b := w) (fun j => Matrix33.fin_get hA i j) hwf (hα i) hW ?_
    refine le_trans ?_ hf.hmax
    calc α * (1.001 * M) ≤ 64 * (1.001 * 2 ^ 105) := by gcongr
      _ ≤ 2 ^ 126 := by norm_num
  have hC' : ∀ i, |(c' i).val| ≤ 1.01 * (α * M) := by
    intro i
    have h1 := abs_add_le ((c' i).val - ∑ j, A.q i j * (w j).val) (∑ j, A.q i j * (w j).val)
    rw [sub_add_cancel] at h1
    have h2 := abs_dot3_le (b := A.q i) (x := fun j => (w j).val) (hα i) hW
    have h3 := (hcb' i).2
    have h4 : 4 * f.u * (α * (1.001 * M)) ≤ 4 * (1 / 1000000) * (α * (1.001 * M)) := by gcongr
    have h5 : f.u * M ≤ 1 / 1000000 * M := by gcongr
    have h6 : 1 / 2 * M ≤ α * M := by gcongr
    nlinarith
  have hcb := fun i => hcc i (hcb' i).1 (hC' i)
  have hC : ∀ i, |(c i).val| ≤ 1.011 * (α * M) := by
    intro i
    have h1 := abs_add_le ((c i).val - (c' i).val) (c' i).val
    rw [sub_add_cancel] at h1
    have h2 := (hcb i).2
    have h3 : e' * f.u * (α * M) ≤ 4 * (1 / 1000000) * (α * M) := by gcongr
    have := hC' i
    have : 0 ≤ α * M := by positivity
    linarith
  have hct : ∀ i, |(c i).val - ∑ j, A.q i j * (w j).val| ≤
      4 * f.u * (α * (1.001 * M)) + 5 * f.eta + e' * f.u * (α * M) := by
    intro i
    have h1 := abs_add_le ((c i).val - (c' i).val) ((c' i).val - ∑ j, A.q i j * (w j).val)
    rw [sub_add_sub_cancel] at h1
    have h2 := (hcb i).2
    have h3 := (hcb' i).2
    linarith
  have hdb : ∀ i, (d i).isFinite = true ∧ |(d i).val - ∑ j, B.q i j * (c j).val| ≤
      4 * f.u * (β * (1.011 * (α * M))) + 5 * f.eta := by
    intro i
    rw [hd i]
    refine row_err (a := B.get i) (b := c) (fun j => Matrix33.fin_get hB i j) (fun i => (hcb i).1)
      (hβ i) hC ?_
    refine le_trans ?_ hf.hmax
    calc β * (1.011 * (α * M)) ≤ 64 * (1.011 * (64 * 2 ^ 105)) := by gcongr
      _ ≤ 2 ^ 126 := by norm_num
  have hD : |(d i).val| ≤ 1.02 * (α * β * M) := by
    have h1 := abs_add_le ((d i).val - ∑ j, B.q i j * (c j).val) (∑ j, B.q i j * (c j).val)
    rw [sub_add_cancel] at h1
    have h2 := abs_dot3_le (b := B.q i) (x := fun j => (c j).val) (hβ i) hC
    have h3 := (hdb i).2
    have h4 : 4 * f.u * (β * (1.011 * (α * M))) ≤ 4 * (1 / 1000000) * (β * (1.011 * (α * M))) := by
      gcongr
    have h5 : f.u * M ≤ 1 / 1000000 * M := by gcongr
    have h6 : 1 / 2 * (1 / 2) * M ≤ α * β * M := by gcongr
    have h7 : β * (1.011 * (α * M)) = 1.011 * (α * β * M) := by ring
    rw [h7] at h2 h4 h3
    linarith
  refine ⟨(hdb i).1, ?_, hD⟩
  have key := trip_core (A := A.q) (B := B.q) (w := fun i => (w i).val) (c := fun i => (c i).val)
    (d := fun i => (d i).val) hα hβ (by linarith) hε hv hw hct
    (fun i => (hdb i).2) i
  refine le_trans key ?_
  have h6 : f.u * M ≤ 4 * (f.u * (α * β) * M) := by
    have : f.u * (1 / 2 * (1 / 2)) * M ≤ f.u * (α * β) * M := by gcongr
    linarith
  have h7 : β * (f.u * M) ≤ 2 * (f.u * (α * β) * M) := by
    have : f.u * (1 / 2 * β) * M ≤ f.u * (α * β) * M := by gcongr
    linarith
  have h8 : β * f.eta ≤ β * (f.u * M / 1000000) := by gcongr
  nlinarith

/-- components of a colour as a vector -/
def xyzVec {T : Type} (v : XYZ T) : Fin 3 → T
  | 0 => v.x | 1 => v.y | 2 => v.z

/-- components of a colour as a vector -/
def rgbVec {T : Type} (v : RGBf T) : Fin 3 → T
  | 0 => v.r | 1 => v.g | 2 => v.b

/-- the data the bounds need about a pair of matrices -/
structure TripOk {f : Fmt} (A B : Matrix33 (FP f)) (α β ε : ℚ) : Prop where
  hA : A.fin = true
  hB : B.fin = true
  hα : ∀ i, rowAbs A i ≤ α
  hβ : ∀ i, rowAbs B i ≤ β
  hα1 : 1 / 2 ≤ α
  hβ1 : 1 / 2 ≤ β
  hα2 : α ≤ 64
  hβ2 : β ≤ 64
  hε : ∀ i, defect B A i ≤ ε

theorem eta_small {f : Fmt} (hf : Wide f) {M : ℚ} (hM : 1 / 2 ^ 101 ≤ M) :
    f.eta ≤ f.u * M / 1000000 := by
  refine le_trans hf.heta ?_
  have hu0 := f.u_pos
  have : f.u * (1 / 2 ^ 101) / 1000000 ≤ f.u * M / 1000000 := by gcongr
  refine le_trans ?_ this
  have h1 : f.u / 2 ^ 124 = f.u * (1 / 2 ^ 124) := by ring
  have h2 : f.u * (1 / 2 ^ 101) / 1000000 = f.u * (1 / 2 ^ 101 / 1000000) := by ring
  rw [h1, h2]
  exact mul_le_mul_of_nonneg_left (by norm_num) hu0.le

/-- applying `A` then `B` to a colour -/
theorem trip_plain {f : Fmt} (hf : Wide f) {A B : Matrix33 (FP f)} {α β ε : ℚ} (h : TripOk A B α β ε)
    (v : RGBf (FP f)) {M : ℚ} (hM1 : 1 / 2 ^ 100 ≤ M) (hM2 : M ≤ 2 ^ 100)
    (hv : ∀ i, (rgbVec v i).isFinite = true ∧ |(rgbVec v i).val| ≤ M) (i : Fin 3) :
    (rgbVec (B * (A * v)) i).isFinite = true ∧
    |(rgbVec (B * (A * v)) i).val - (rgbVec v i).val| ≤ (11 * f.u * (α * β) + ε) * M := by
  have hM0 : 0 < M := lt_of_lt_of_le (by positivity) hM1
  have hα1 := h.hα1
  have hβ1 := h.hβ1
  have hu0 := f.u_pos
  obtain ⟨h1, h2, -⟩ := two_step hf h.hA h.hB h.hα h.hβ h.hα1 h.hβ1 h.hα2 h.hβ2 h.hε
    (e := 0) (e' := 0) (by norm_num) (by norm_num) (le_trans (by norm_num) hM1)
    (le_trans hM2 (by norm_num)) (v := fun i => (rgbVec v i).val) (w := rgbVec v)
    (c := rgbVec (A * v)) (c' := rgbVec (A * v)) (d := rgbVec (B * (A * v)))
    (fun i => (hv i).2) (fun i => (hv i).1) (fun i => by simp)
    (fun i => by fin_cases i <;> rfl) (fun i hi _ => ⟨hi, by simp⟩)
    (fun i => by fin_cases i <;> rfl) i
  refine ⟨h1, le_trans h2 ?_⟩
  have : 0 < f.u * (α * β) := by positivity
  gcongr
  nlinarith

/-- XYZ to RGB and back, with the divisions and multiplications by 100 -/
theorem trip_xyz {f : Fmt} [Libm f] (hf : Wide f) {A B : Matrix33 (FP f)}
    {α β ε : ℚ}
    (h : TripOk A B α β ε) (v : XYZ (FP f)) {M : ℚ} (hM1 : 1 / 2 ^ 90 ≤ M) (hM2 : M ≤ 2 ^ 100)
    (hl : (Flt.lit 100.0 : FP f).isFinite = true ∧ (Flt.lit 100.0 : FP f).val = 100)
    (hv : ∀ i, (xyzVec v i).isFinite = true ∧ |(xyzVec v i).val| ≤ M) (i : Fin 3) :
    (xyzVec (rgbToXyz B (xyzToRgb A v)) i).isFinite = true ∧
    |(xyzVec (rgbToXyz B (xyzToRgb A v)) i).val - (xyzVec v i).val| ≤
      (11 * f.u * (α * β) + ε) * M := by
  have hM0 : 0 < M := lt_of_lt_of_le (by positivity) hM1
  have hα1 := h.hα1
  have hβ1 := h.hβ1
  have hu0 := f.u_pos
  have hu : f.u ≤ 1 / 1000000 := le_trans hf.hu (by norm_num)
  have hN1 : 1 / 2 ^ 101 ≤ M / 100 := by
    rw [le_div_iff₀ (by norm_num)]
    exact le_trans (by norm_num) hM1
  have hη := eta_small hf hN1
  set N := M / 100 with hN
  have hMN : M = 100 * N := by rw [hN]; ring
  have hN0 : 0 < N := by rw [hN]; positivity
  let w : Fin 3 → FP f := fun i => xyzVec v i / Flt.lit 100.0
  have hw : ∀ i, (w i).isFinite = true ∧ |(w i).val - (xyzVec v i).val / 100| ≤ 1.01 * f.u * N := by
    intro i
    have hb : |(xyzVec v i).val / 100| ≤ N := by
      rw [abs_div, hN]
      have := (hv i).2
      norm_num
      linarith
    obtain ⟨g1, g2⟩ := FP.div_err (hv i).1 hl.1 (by rw [hl.2]; norm_num) (by
      rw [hl.2]
      refine le_trans hb ?_
      have := hf.hmax
      have e1 : (2:ℚ) ^ 100 ≤ 2 ^ 126 := by norm_num
      have e2 : (0:ℚ) < 2 ^ f.emax := by positivity
      linarith)
    refine ⟨g1, ?_⟩
    rw [hl.2] at g2
    refine le_trans g2 ?_
    have : |(xyzVec v i).val / 100| * f.u ≤ N * f.u := by gcongr
    have := mul_pos hu0 hN0
    nlinarith
  let c : Fin 3 → FP f := fun i => A.get i 0 * w 0 + A.get i 1 * w 1 + A.get i 2 * w 2
  let d : Fin 3 → FP f := fun i => B.get i 0 * c 0 + B.get i 1 * c 1 + B.get i 2 * c 2
  have hvN : ∀ i, |(xyzVec v i).val / 100| ≤ N := by
    intro i
    rw [abs_div, hN]
    have := (hv i).2
    norm_num
    linarith
  obtain ⟨h1, h2, h3⟩ := two_step hf h.hA h.hB h.hα h.hβ h.hα1 h.hβ1 h.hα2 h.hβ2 h.hε
    (e := 1.01) (e' := 0) (by norm_num) (by norm_num) hN1
    (by rw [hN]; linarith [show (2:ℚ) ^ 100 ≤ 2 ^ 105 by norm_num])
    (v := fun i => (xyzVec v i).val / 100) (w := w)
    (c := c) (c' := c) (d := d) hvN (fun i => (hw i).1) (fun i => (hw i).2)
    (fun i => rfl) (fun i hi _ => ⟨hi, by simp⟩) (fun i => rfl) i
  have hαβ : 0 < α * β := by nlinarith
  have hres : xyzVec (rgbToXyz B (xyzToRgb A v)) i = d i * Flt.lit 100.0 := by
    fin_cases i <;> rfl
  rw [hres]
  have hD : |(d i).val * 100| ≤ 1.02 * (α * β * M) := by
    rw [abs_mul, hMN]
    norm_num at h3 ⊢
    linarith
  have hbig : 1.02 * (α * β * M) ≤ 2 ^ f.emax := by
    have := hf.hmax
    have e2 : (0:ℚ) < 2 ^ f.emax := by positivity
    have hα2 := h.hα2
    have hβ2 := h.hβ2
    have : 1.02 * (α * β * M) ≤ 1.02 * (64 * 64 * 2 ^ 100) := by gcongr
    have : (1.02 * (64 * 64 * 2 ^ 100) : ℚ) ≤ 2 ^ 126 := by norm_num
    linarith
  obtain ⟨g1, g2⟩ := FP.mul_err h1 hl.1 (by rw [hl.2]; exact le_trans hD hbig)
  refine ⟨g1, ?_⟩
  rw [hl.2] at g2
  have t := abs_add_le ((d i * Flt.lit 100.0).val - (d i).val * 100) ((d i).val * 100 - (xyzVec v i).val)
  rw [sub_add_sub_cancel] at t
  have e3 : |(d i).val * 100 - (xyzVec v i).val| ≤ 100 * (((8.2 + 1.01 + 0) * f.u * (α * β) + ε) * N) := by
    have : (d i).val * 100 - (xyzVec v i).val = 100 * ((d i).val - (xyzVec v i).val / 100) := by ring
    rw [this, abs_mul]
    norm_num at h2 ⊢
    linarith
  have e4 : |(d i).val * 100| * f.u ≤ 1.02 * (α * β * M) * f.u := by gcongr
  have e5 : f.u * N ≤ 4 * (f.u * (α * β) * N) := by
    have : f.u * (1 / 2 * (1 / 2)) * N ≤ f.u * (α * β) * N := by gcongr
    linarith
  have e6 : 0 < f.u * (α * β) * N := by positivity
  rw [hMN] at e4 ⊢
  nlinarith

/-- RGB to XYZ and back -/
theorem trip_rgb {f : Fmt} [Libm f] (hf : Wide f) {A B : Matrix33 (FP f)} {α β ε : ℚ}
    (h : TripOk B A β α ε) (v : RGBf (FP f)) {M : ℚ} (hM1 : 1 / 2 ^ 90 ≤ M) (hM2 : M ≤ 2 ^ 100)
    (hl : (Flt.lit 100.0 : FP f).isFinite = true ∧ (Flt.lit 100.0 : FP f).val = 100)
    (hv : ∀ i, (rgbVec v i).isFinite = true ∧ |(rgbVec v i).val| ≤ M) (i : Fin 3) :
    (rgbVec (xyzToRgb A (rgbToXyz B v)) i).isFinite = true ∧
    |(rgbVec (xyzToRgb A (rgbToXyz B v)) i).val - (rgbVec v i).val| ≤
      (11 * f.u * (α * β) + ε) * M := by
  have hM0 : 0 < M := lt_of_lt_of_le (by positivity) hM1
  have hα1 := h.hβ1
  have hβ1 := h.hα1
  have hβ2 := h.hα2
  have hu0 := f.u_pos
  have hu : f.u ≤ 1 / 1000000 := le_trans hf.hu (by norm_num)
  have hη := eta_small hf (M := M) (le_trans (by norm_num) hM1)
  have hη0 := f.eta_pos
  let c' : Fin 3 → FP f := fun i => B.get i 0 * rgbVec v 0 + B.get i 1 * rgbVec v 1 + B.get i 2 * rgbVec v 2
  let c : Fin 3 → FP f := fun i => c' i * Flt.lit 100.0 / Flt.lit 100.0
  let d : Fin 3 → FP f := fun i => A.get i 0 * c 0 + A.get i 1 * c 1 + A.get i 2 * c 2
  have hβM : 0 < β * M := by nlinarith
  have hbig : 200 * (β * M) ≤ 2 ^ f.emax := by
    have := hf.hmax
    have e2 : (0:ℚ) < 2 ^ f.emax := by positivity
    have : 200 * (β * M) ≤ 200 * (64 * 2 ^ 100) := by gcongr
    have : (200 * (64 * 2 ^ 100) : ℚ) ≤ 2 ^ 126 := by norm_num
    linarith
  have hcc : ∀ i, (c' i).isFinite = true → |(c' i).val| ≤ 1.01 * (β * M) →
      (c i).isFinite = true ∧ |(c i).val - (c' i).val| ≤ 2.1 * f.u * (β * M) := by
    intro i hfi hbi
    have hb1 : |(c' i).val * 100| ≤ 101 * (β * M) := by
      rw [abs_mul]; norm_num at hbi ⊢; linarith
    obtain ⟨g1, g2⟩ := FP.mul_err hfi hl.1 (by rw [hl.2]; linarith)
    rw [hl.2] at g2
    have hb3 : |(c' i).val * 100| * f.u ≤ 101 * (β * M) * f.u := by gcongr
    have hb4 : f.u * M ≤ 2 * (f.u * (β * M)) := by
      have : f.u * (1 / 2 * M) ≤ f.u * (β * M) := by gcongr
      linarith
    have hb5 : f.u * (β * M) ≤ 1 / 1000000 * (β * M) := by gcongr
    have hb6 : |(c' i * Flt.lit 100.0).val| ≤ 102 * (β * M) := by
      have t := abs_add_le ((c' i * Flt.lit 100.0).val - (c' i).val * 100) ((c' i).val * 100)
      rw [sub_add_cancel] at t
      linarith
    have hb7 : |(c' i * Flt.lit 100.0).val / 100| ≤ 1.02 * (β * M) := by
      rw [abs_div]; norm_num at hb6 ⊢; linarith
    obtain ⟨k1, k2⟩ := FP.div_err g1 hl.1 (by rw [hl.2]; norm_num) (by rw [hl.2]; linarith)
    rw [hl.2] at k2
    refine ⟨k1, ?_⟩
    have t := abs_add_le ((c i).val - (c' i * Flt.lit 100.0).val / 100)
      ((c' i * Flt.lit 100.0).val / 100 - (c' i).val)
    rw [sub_add_sub_cancel] at t
    have e3 : |(c' i * Flt.lit 100.0).val / 100 - (c' i).val| =
        |(c' i * Flt.lit 100.0).val - (c' i).val * 100| / 100 := by
      rw [show (c' i * Flt.lit 100.0).val / 100 - (c' i).val
        = ((c' i * Flt.lit 100.0).val - (c' i).val * 100) / 100 by ring, abs_div]
      norm_num
    have e4 : |(c' i * Flt.lit 100.0).val / 100| * f.u ≤ 1.02 * (β * M) * f.u := by gcongr
    have e5 : |(c i).val - (c' i * Flt.lit 100.0).val / 100| ≤
      |(c' i * Flt.lit 100.0).val / 100| * f.u + f.eta := k2
    rw [e3] at t
    have e6 : 0 < f.u * (β * M) := by positivity
    linarith
  obtain ⟨h1, h2, h3⟩ := two_step hf h.hA h.hB h.hα h.hβ h.hα1 h.hβ1 h.hα2 h.hβ2 h.hε
    (e := 0) (e' := 2.1) (by norm_num) (by norm_num) (le_trans (by norm_num) hM1)
    (le_trans hM2 (by norm_num))
    (v := fun i => (rgbVec v i).val) (w := rgbVec v)
    (c := c) (c' := c') (d := d) (fun i => (hv i).2) (fun i => (hv i).1) (fun i => by simp)
    (fun i => rfl) hcc (fun i => rfl) i
  have hres : rgbVec (xyzToRgb A (rgbToXyz B v)) i = d i := by fin_cases i <;> rfl
  rw [hres]
  rw [mul_comm β α] at h2
  refine ⟨h1, le_trans h2 ?_⟩
  have : 0 < f.u * (α * β) := by positivity
  gcongr
  norm_num

end CS

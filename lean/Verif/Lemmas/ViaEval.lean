import Verif.Lemmas.TripEval

/-!
# Statement of C109 (greys and detours in floating point) and reduction to integer checks
-/

namespace CS

/-- `m` takes every grey of size 2^-90 to 2^100 to the same grey, each component to within the fraction `δ` -/
def Spec.KeepsGrey {f : Fmt} (m : Matrix33 (FP f)) (δ : ℚ) : Prop :=
  ∀ g : FP f, g.isFinite = true → 1 / 2 ^ 90 ≤ |g.val| → |g.val| ≤ 2 ^ 100 → ∀ i,
    (rgbVec (m * (⟨g, g, g⟩ : RGBf (FP f))) i).isFinite = true ∧
    |(rgbVec (m * (⟨g, g, g⟩ : RGBf (FP f))) i).val - g.val| ≤ δ * |g.val|

/-- `m`, then `n`, takes every colour with components up to `M` to what `direct` takes it to, up to `δ M` -/
def Spec.Detour {f : Fmt} (m n direct : Matrix33 (FP f)) (δ : ℚ) : Prop :=
  ∀ (c : RGBf (FP f)) (M : ℚ), 1 / 2 ^ 90 ≤ M → M ≤ 2 ^ 100 →
    (∀ i, (rgbVec c i).isFinite = true ∧ |(rgbVec c i).val| ≤ M) → ∀ i,
    (rgbVec (n * (m * c)) i).isFinite = true ∧ (rgbVec (direct * c) i).isFinite = true ∧
    |(rgbVec (n * (m * c)) i).val - (rgbVec (direct * c) i).val| ≤ δ * M

/-- the conversion matrix between the two spaces exists and keeps greys -/
def Spec.PairGrey {f : Fmt} [Libm f] (r s : Res (ColorSpaceRGB (FP f))) (δ : ℚ) : Prop :=
  ∃ a b m, r = .ok a ∧ s = .ok b ∧ rgbToRgbMatrix a b = .ok m ∧ Spec.KeepsGrey m δ

/-- the three conversion matrices exist, and `a` to `b` to `c` is nearly `a` to `c` -/
def Spec.Via {f : Fmt} [Libm f] (r s t : Res (ColorSpaceRGB (FP f))) (δ : ℚ) : Prop :=
  ∃ a b c ab bc ac, r = .ok a ∧ s = .ok b ∧ t = .ok c ∧ rgbToRgbMatrix a b = .ok ab ∧
    rgbToRgbMatrix b c = .ok bc ∧ rgbToRgbMatrix a c = .ok ac ∧ Spec.Detour ab bc ac δ

/-! ## Rounding -/

section
variable {f : Fmt}

theorem mul_row (m : Matrix33 (FP f)) (c : RGBf (FP f)) (i : Fin 3) :
    rgbVec (m * c) i = m.get i 0 * rgbVec c 0 + m.get i 1 * rgbVec c 1 + m.get i 2 * rgbVec c 2 := by
  fin_cases i <;> rfl

theorem mulc_err (hf : Wide f) {m : Matrix33 (FP f)} (hm : m.fin = true) {α X : ℚ} (hα : ∀ i, rowAbs m i ≤ α)
    (hX : α * X ≤ 2 ^ 115) {c : RGBf (FP f)} (hc : ∀ i, (rgbVec c i).isFinite = true ∧ |(rgbVec c i).val| ≤ X)
    (i : Fin 3) : (rgbVec (m * c) i).isFinite = true ∧
      |(rgbVec (m * c) i).val - ∑ j, m.q i j * (rgbVec c j).val| ≤ 4 * f.u * (α * X) + 5 * f.eta ∧
      |∑ j, m.q i j * (rgbVec c j).val| ≤ α * X := by
  have hS : |m.q i 0 * (rgbVec c 0).val| + |m.q i 1 * (rgbVec c 1).val| + |m.q i 2 * (rgbVec c 2).val| ≤ α * X := by
    have X0 : 0 ≤ X := (abs_nonneg _).trans (hc 0).2
    have h : ∀ j, |m.q i j * (rgbVec c j).val| ≤ |m.q i j| * X := fun j => by
      rw [abs_mul]; exact mul_le_mul_of_nonneg_left (hc j).2 (abs_nonneg _)
    have h' := mul_le_mul_of_nonneg_right (hα i) X0
    unfold rowAbs at h'
    rw [Fin.sum_univ_three] at h'
    have h0 := h 0
    have h1 := h 1
    have h2 := h 2
    linarith
  have hmax := hf.hmax
  have hu0 := f.u_pos
  obtain ⟨f0, r0⟩ := dot3_err (Matrix33.fin_get hm i 0) (Matrix33.fin_get hm i 1) (Matrix33.fin_get hm i 2)
    (hc 0).1 (hc 1).1 (hc 2).1 (le_trans hS (le_trans hX (by norm_num at hmax ⊢; linarith)))
  rw [mul_row, Fin.sum_univ_three]
  refine ⟨f0, r0.trans ?_, ?_⟩
  · have := mul_le_mul_of_nonneg_left hS hu0.le
    unfold Matrix33.q at this
    linarith
  · exact (abs_add_le _ _).trans ((add_le_add_left (abs_add_le _ _) _).trans hS)

/-- what the checks establish about one matrix -/
structure GreyOk (m : Matrix33 (FP f)) (δ : ℚ) : Prop where
  fin : m.fin = true
  ok : ∃ α, (∀ i, rowAbs m i ≤ α) ∧ α ≤ 64 ∧ 1 / 2 ≤ α ∧ ∀ i, |(∑ j, m.q i j) - 1| + 4.1 * f.u * α ≤ δ

theorem GreyOk.keeps (hf : Wide f) {m : Matrix33 (FP f)} {δ : ℚ} (h : GreyOk m δ) : Spec.KeepsGrey m δ := by
  intro g hg h1 h2 i
  obtain ⟨α, hα, hα2, hα1, hok⟩ := h.ok
  have g0 := abs_nonneg g.val
  have hvec : ∀ j, rgbVec (⟨g, g, g⟩ : RGBf (FP f)) j = g := fun j => by fin_cases j <;> rfl
  obtain ⟨r1, r2, -⟩ := mulc_err hf h.fin hα (X := |g.val|) (by
      calc α * |g.val| ≤ 64 * 2 ^ 100 := mul_le_mul hα2 h2 g0 (by norm_num)
        _ ≤ 2 ^ 115 := by norm_num) (c := ⟨g, g, g⟩) (fun j => by rw [hvec]; exact ⟨hg, le_rfl⟩) i
  refine ⟨r1, ?_⟩
  have he := eta_small hf (M := |g.val|) (le_trans (by norm_num) h1)
  simp only [hvec] at r2
  rw [← Finset.sum_mul] at r2
  have h3 := abs_sub_le (rgbVec (m * (⟨g, g, g⟩ : RGBf (FP f))) i).val ((∑ j, m.q i j) * g.val) g.val
  have h4 : |(∑ j, m.q i j) * g.val - g.val| = |(∑ j, m.q i j) - 1| * |g.val| := by
    rw [← abs_mul]; congr 1; ring
  have h5 := mul_le_mul_of_nonneg_right (hok i) g0
  have hu0 := f.u_pos
  have h6 := mul_le_mul_of_nonneg_left hα1 (mul_nonneg hu0.le g0)
  nlinarith

/-- what the checks establish about three matrices -/
structure ViaOk (A B C : Matrix33 (FP f)) (δ : ℚ) : Prop where
  fA : A.fin = true
  fB : B.fin = true
  fC : C.fin = true
  ok : ∃ α β γ, (∀ i, rowAbs A i ≤ α) ∧ (∀ i, rowAbs B i ≤ β) ∧ (∀ i, rowAbs C i ≤ γ) ∧ α ≤ 64 ∧ β ≤ 64 ∧ γ ≤ 64 ∧
    1 / 2 ≤ α ∧ 1 / 2 ≤ β ∧ 1 / 2 ≤ γ ∧
    ∀ i, ∑ j, |(∑ k, B.q i k * A.q k j) - C.q i j| + 8.2 * f.u * (α * β) + 4.1 * f.u * γ ≤ δ

theorem ViaOk.detour (hf : Wide f) {A B C : Matrix33 (FP f)} {δ : ℚ} (h : ViaOk A B C δ) : Spec.Detour A B C δ := by
  intro c M h1 h2 hc i
  obtain ⟨α, β, γ, hα, hβ, hγ, hα2, hβ2, hγ2, hα1, hβ1, hγ1, hok⟩ := h.ok
  have M0 : 0 < M := lt_of_lt_of_le (by positivity) h1
  have hu0 := f.u_pos
  have hu : f.u ≤ 1 / 1000000 := le_trans hf.hu (by norm_num)
  have he := eta_small hf (M := M) (le_trans (by norm_num) h1)
  have e0 := f.eta_pos
  have bnd : ∀ a : ℚ, a ≤ 64 → a * M ≤ 2 ^ 115 := fun a ha => by
    calc a * M ≤ 64 * 2 ^ 100 := mul_le_mul ha h2 M0.le (by norm_num)
      _ ≤ 2 ^ 115 := by norm_num
  have uαM : 0 ≤ f.u * (α * M) := by positivity
  have hαM : 0 ≤ α * M := by positivity
  have half := mul_le_mul_of_nonneg_right hα1 (mul_nonneg hu0.le M0.le)
  have uu := mul_le_mul_of_nonneg_right hu hαM
  have ra := mulc_err hf h.fA hα (bnd α hα2) hc
  have hcm : ∀ j, (rgbVec (A * c) j).isFinite = true ∧ |(rgbVec (A * c) j).val| ≤ 1.01 * (α * M) := fun j => by
    obtain ⟨a1, a2, a3⟩ := ra j
    refine ⟨a1, ?_⟩
    have := abs_add_le ((rgbVec (A * c) j).val - ∑ k, A.q j k * (rgbVec c k).val) (∑ k, A.q j k * (rgbVec c k).val)
    rw [sub_add_cancel] at this
    linarith
  have b1 : β * (1.01 * (α * M)) ≤ 2 ^ 115 := by
    have := mul_le_mul hβ2 hα2 (by linarith) (by norm_num : (0:ℚ) ≤ 64)
    have := mul_le_mul this h2 M0.le (by norm_num)
    norm_num at this ⊢
    linarith
  obtain ⟨rb1, rb2, -⟩ := mulc_err hf h.fB hβ b1 hcm i
  obtain ⟨rc1, rc2, -⟩ := mulc_err hf h.fC hγ (bnd γ hγ2) hc i
  refine ⟨rb1, rc1, ?_⟩
  -- B applied to the error of A c
  have s1 : |∑ j, B.q i j * (rgbVec (A * c) j).val - ∑ j, B.q i j * ∑ k, A.q j k * (rgbVec c k).val| ≤
      β * (4 * f.u * (α * M) + 5 * f.eta) := by
    rw [← Finset.sum_sub_distrib]
    have : ∀ j, B.q i j * (rgbVec (A * c) j).val - B.q i j * ∑ k, A.q j k * (rgbVec c k).val =
        B.q i j * ((rgbVec (A * c) j).val - ∑ k, A.q j k * (rgbVec c k).val) := fun j => by ring
    simp only [this]
    exact abs_dot3_le (hβ i) fun j => (ra j).2.1
  -- the exact difference
  have s2 : |∑ j, B.q i j * ∑ k, A.q j k * (rgbVec c k).val - ∑ k, C.q i k * (rgbVec c k).val| ≤
      (∑ j, |(∑ k, B.q i k * A.q k j) - C.q i j|) * M := by
    have : ∑ j, B.q i j * ∑ k, A.q j k * (rgbVec c k).val - ∑ k, C.q i k * (rgbVec c k).val =
        ∑ j, ((∑ k, B.q i k * A.q k j) - C.q i j) * (rgbVec c j).val := by
      simp only [Fin.sum_univ_three]; ring
    rw [this]
    exact abs_dot3_le le_rfl fun j => (hc j).2
  have h5 := mul_le_mul_of_nonneg_right (hok i) M0.le
  set d := (rgbVec (B * (A * c)) i).val
  set e := (rgbVec (C * c) i).val
  set p := ∑ j, B.q i j * (rgbVec (A * c) j).val
  set q := ∑ j, B.q i j * ∑ k, A.q j k * (rgbVec c k).val
  set r := ∑ k, C.q i k * (rgbVec c k).val
  set D := ∑ j, |(∑ k, B.q i k * A.q k j) - C.q i j|
  have t : |d - e| ≤ |d - p| + |p - q| + |q - r| + |e - r| := by
    rw [abs_sub_comm e r]
    have k1 := abs_sub_le d p e
    have k2 := abs_sub_le p q e
    have k3 := abs_sub_le q r e
    linarith
  have β0 : 0 ≤ β := by linarith
  have w1 : 0 ≤ f.u * (α * β * M) := by positivity
  have w2 := mul_le_mul_of_nonneg_right (mul_le_mul hα1 hβ1 (by norm_num) (by linarith)) (mul_nonneg hu0.le M0.le)
  have w3 := mul_le_mul_of_nonneg_left he β0
  have w4 := mul_le_mul_of_nonneg_right hγ1 (mul_nonneg hu0.le M0.le)
  have w5 := mul_le_mul_of_nonneg_left half β0
  nlinarith

end

/-! ## Integer checks

The entries of a matrix are whole multiples of `2^-K`. -/

/-- the matrix has the given entries -/
def Matrix33.isInt {f : Fmt} (m : Matrix33 (FP f)) (K : ℕ) (n : Matrix33 ℤ) : Bool :=
  m.fin && (decide (m.x0.val * 2 ^ K = n.x0) && decide (m.x1.val * 2 ^ K = n.x1) && decide (m.x2.val * 2 ^ K = n.x2) &&
    decide (m.x3.val * 2 ^ K = n.x3) && decide (m.x4.val * 2 ^ K = n.x4) && decide (m.x5.val * 2 ^ K = n.x5) &&
    decide (m.x6.val * 2 ^ K = n.x6) && decide (m.x7.val * 2 ^ K = n.x7) && decide (m.x8.val * 2 ^ K = n.x8))

theorem Matrix33.isInt_sound {f : Fmt} {K : ℕ} {n : Matrix33 ℤ} {m : Matrix33 (FP f)} (h : m.isInt K n = true) :
    m.fin = true ∧ ∀ i j, m.q i j = (n.get i j : ℚ) / 2 ^ K := by
  unfold Matrix33.isInt at h
  simp only [Bool.and_eq_true, decide_eq_true_eq] at h
  obtain ⟨hf, ⟨⟨⟨⟨⟨⟨⟨⟨h0, h1⟩, h2⟩, h3⟩, h4⟩, h5⟩, h6⟩, h7⟩, h8⟩⟩ := h
  refine ⟨hf, fun i j => ?_⟩
  rw [eq_div_iff (by positivity)]
  fin_cases i <;> fin_cases j <;> assumption

/-- row sum of absolute values -/
def rowInt (n : Matrix33 ℤ) (i : Fin 3) : ℕ := (n.get i 0).natAbs + (n.get i 1).natAbs + (n.get i 2).natAbs

/-- largest row sum of absolute values -/
def normInt (n : Matrix33 ℤ) : ℕ := max (rowInt n 0) (max (rowInt n 1) (rowInt n 2))

theorem rowInt_le (n : Matrix33 ℤ) (i : Fin 3) : rowInt n i ≤ normInt n := by
  unfold normInt
  fin_cases i <;> simp

theorem rowAbs_int {f : Fmt} {K : ℕ} {n : Matrix33 ℤ} {m : Matrix33 (FP f)}
    (h : ∀ i j, m.q i j = (n.get i j : ℚ) / 2 ^ K) (i : Fin 3) : rowAbs m i ≤ (normInt n : ℚ) / 2 ^ K := by
  have h1 : rowAbs m i = (rowInt n i : ℚ) / 2 ^ K := by
    unfold rowAbs rowInt
    rw [Fin.sum_univ_three]
    simp only [h, abs_div, Nat.cast_add, Nat.cast_natAbs, Int.cast_abs]
    rw [abs_of_pos (show (0:ℚ) < 2 ^ K by positivity)]
    ring
  rw [h1]
  have : (rowInt n i : ℚ) ≤ normInt n := by exact_mod_cast rowInt_le n i
  gcongr

/-- is the norm between a half and 64? -/
def sizeInt (K : ℕ) (n : Matrix33 ℤ) : Bool :=
  decide (2 ^ K ≤ 2 * normInt n) && decide (normInt n ≤ 64 * 2 ^ K)

theorem sizeInt_sound {K : ℕ} {n : Matrix33 ℤ} (h : sizeInt K n = true) :
    (1:ℚ) / 2 ≤ (normInt n : ℚ) / 2 ^ K ∧ (normInt n : ℚ) / 2 ^ K ≤ 64 := by
  unfold sizeInt at h
  simp only [Bool.and_eq_true, decide_eq_true_eq] at h
  have a : (2:ℚ) ^ K ≤ 2 * normInt n := by exact_mod_cast h.1
  have b : (normInt n : ℚ) ≤ 64 * 2 ^ K := by exact_mod_cast h.2
  constructor
  · rw [div_le_div_iff₀ (by norm_num) (by positivity)]; linarith
  · rw [div_le_iff₀ (by positivity)]; exact b

/-- how far the row sums are from one -/
def greyInt (K : ℕ) (n : Matrix33 ℤ) (i : Fin 3) : ℕ := (n.get i 0 + n.get i 1 + n.get i 2 - 2 ^ K).natAbs

/-- integer form of `GreyOk`: the error is `x / (10 · 2^(p + K))` -/
def greyCheck (p K : ℕ) (n : Matrix33 ℤ) (δ : ℚ) : Bool :=
  sizeInt K n && decide ((10 * 2 ^ p * (max (greyInt K n 0) (max (greyInt K n 1) (greyInt K n 2))) + 41 * normInt n
    : ℕ) * (δ.den : ℤ) ≤ δ.num * (10 * 2 ^ (p + K) : ℕ))

/-- row sums of `|B A - C|`, scaled by `2^(2K)` -/
def viaInt (K : ℕ) (A B C : Matrix33 ℤ) (i : Fin 3) : ℕ :=
  let e (j : Fin 3) : ℕ := (B.get i 0 * A.get 0 j + B.get i 1 * A.get 1 j + B.get i 2 * A.get 2 j - 2 ^ K * C.get i j).natAbs
  e 0 + e 1 + e 2

/-- integer form of `ViaOk`: the error is `x / (10 · 2^(p + 2K))` -/
def viaCheck (p K : ℕ) (A B C : Matrix33 ℤ) (δ : ℚ) : Bool :=
  sizeInt K A && sizeInt K B && sizeInt K C &&
  decide ((10 * 2 ^ p * (max (viaInt K A B C 0) (max (viaInt K A B C 1) (viaInt K A B C 2))) +
    82 * (normInt A * normInt B) + 41 * (2 ^ K * normInt C) : ℕ) * (δ.den : ℤ) ≤ δ.num * (10 * 2 ^ (p + 2 * K) : ℕ))

theorem le_of_check {x y : ℕ} {δ : ℚ} (hy : 0 < y) (h : (x : ℤ) * (δ.den : ℤ) ≤ δ.num * (y : ℕ)) :
    (x : ℚ) / y ≤ δ := by
  have hd : (0:ℚ) < δ.den := by exact_mod_cast δ.den_pos
  have h' : (x : ℚ) * δ.den ≤ δ.num * y := by exact_mod_cast h
  rw [div_le_iff₀ (by exact_mod_cast hy)]
  have e : δ * δ.den = δ.num := Rat.mul_den_eq_num δ
  rw [← e] at h'
  nlinarith

theorem greyCheck_sound {f : Fmt} {p K : ℕ} (hp : f.u = 1 / 2 ^ p) {n : Matrix33 ℤ} {m : Matrix33 (FP f)} {δ : ℚ}
    (hm : m.isInt K n = true) (h : greyCheck p K n δ = true) : GreyOk m δ := by
  obtain ⟨hf, hq⟩ := Matrix33.isInt_sound hm
  unfold greyCheck at h
  rw [Bool.and_eq_true, decide_eq_true_eq] at h
  obtain ⟨s1, s2⟩ := sizeInt_sound h.1
  refine ⟨hf, _, rowAbs_int hq, s2, s1, fun i => ?_⟩
  have h2 := le_of_check (by positivity) h.2
  refine le_trans (b :=  (10 * 2 ^ p * (greyInt K n i : ℚ) + 41 * normInt n) / (10 * 2 ^ (p + K))) (le_of_eq ?_) (le_trans ?_ h2)
  · have e : ((∑ j, m.q i j) - 1) = ((n.get i 0 + n.get i 1 + n.get i 2 - 2 ^ K : ℤ) : ℚ) / 2 ^ K := by
      rw [Fin.sum_univ_three, hq, hq, hq, eq_div_iff (by positivity)]
      push_cast
      field_simp
    rw [e, abs_div, abs_of_pos (show (0:ℚ) < 2 ^ K by positivity), hp]
    have : ((greyInt K n i : ℕ) : ℚ) = |((n.get i 0 + n.get i 1 + n.get i 2 - 2 ^ K : ℤ) : ℚ)| := by
      unfold greyInt; rw [Nat.cast_natAbs, Int.cast_abs]
    rw [← this, pow_add]
    field_simp
    ring
  · push_cast
    gcongr
    have : greyInt K n i ≤ max (greyInt K n 0) (max (greyInt K n 1) (greyInt K n 2)) := by fin_cases i <;> simp
    exact_mod_cast this

theorem viaCheck_sound {f : Fmt} {p K : ℕ} (hp : f.u = 1 / 2 ^ p) {a b c : Matrix33 ℤ} {A B C : Matrix33 (FP f)} {δ : ℚ}
    (hA : A.isInt K a = true) (hB : B.isInt K b = true) (hC : C.isInt K c = true) (h : viaCheck p K a b c δ = true) :
    ViaOk A B C δ := by
  obtain ⟨fA, qA⟩ := Matrix33.isInt_sound hA
  obtain ⟨fB, qB⟩ := Matrix33.isInt_sound hB
  obtain ⟨fC, qC⟩ := Matrix33.isInt_sound hC
  unfold viaCheck at h
  simp only [Bool.and_eq_true, decide_eq_true_eq] at h
  obtain ⟨⟨⟨ha, hb⟩, hc⟩, h⟩ := h
  obtain ⟨a1, a2⟩ := sizeInt_sound ha
  obtain ⟨b1, b2⟩ := sizeInt_sound hb
  obtain ⟨c1, c2⟩ := sizeInt_sound hc
  refine ⟨fA, fB, fC, _, _, _, rowAbs_int qA, rowAbs_int qB, rowAbs_int qC, a2, b2, c2, a1, b1, c1, fun i => ?_⟩
  have h2 := le_of_check (by positivity) h
  refine le_trans (b :=  (10 * 2 ^ p * (viaInt K a b c i : ℚ) + 82 * (normInt a * normInt b) +
    41 * (2 ^ K * normInt c)) / (10 * 2 ^ (p + 2 * K))) (le_of_eq ?_) (le_trans ?_ h2)
  · have e : ∀ j, |(∑ k, B.q i k * A.q k j) - C.q i j| = (((b.get i 0 * a.get 0 j + b.get i 1 * a.get 1 j +
        b.get i 2 * a.get 2 j - 2 ^ K * c.get i j).natAbs : ℕ) : ℚ) / 2 ^ (2 * K) := fun j => by
      rw [Nat.cast_natAbs, Int.cast_abs, ← abs_of_pos (show (0:ℚ) < 2 ^ (2 * K) by positivity), ← abs_div]
      congr 1
      rw [Fin.sum_univ_three]
      simp only [qA, qB, qC]
      rw [eq_div_iff (by positivity), two_mul, pow_add]
      push_cast
      field_simp
    rw [Fin.sum_univ_three, e, e, e, hp]
    unfold viaInt
    push_cast
    rw [pow_add, two_mul, pow_add]
    field_simp
    ring
  · push_cast
    gcongr
    have : viaInt K a b c i ≤ max (viaInt K a b c 0) (max (viaInt K a b c 1) (viaInt K a b c 2)) := by
      fin_cases i <;> simp
    exact_mod_cast this

/-! ## Tables -/

/-- does the list hold the matrices from `a` to the spaces of the table, in order? -/
def convCheck {f : Fmt} [Libm f] (K : ℕ) (a : ColorSpaceRGB (FP f)) (l : List (ColorSpaceRGB (FP f))) (t : List (Matrix33 ℤ)) :
    Bool :=
  withCat02 fun MAi MA => a.force fun a => (XYZ.fromChromaticity a.white).force fun wa =>
    decide (l.length = t.length) && (l.zip t).all fun p => p.1.force fun b => (XYZ.fromChromaticity b.white).force fun wb =>
      fastCat MAi MA wa wb fun c => (mmE b.xf_xyz_to_rgb c).force fun A => (mmE A a.xf_rgb_to_xyz).force fun A =>
        A.isInt K p.2

theorem fastCat_libm {f : Fmt} (L : Libm f) : @fastCat f L = @fastCat f (noLibm f) := by
  funext a b w cs k; rfl

theorem convCheck_libm {f : Fmt} (L : Libm f) : @convCheck f L = @convCheck f (noLibm f) := by
  funext K a l t; rfl

theorem convCheck_sound {f : Fmt} [Libm f] {K : ℕ} {a : ColorSpaceRGB (FP f)} {l : List (ColorSpaceRGB (FP f))}
    {t : List (Matrix33 ℤ)} (h : convCheck K a l t = true) :
    l.length = t.length ∧ ∀ (j : ℕ) (b : ColorSpaceRGB (FP f)) (n : Matrix33 ℤ), l[j]? = some b → t[j]? = some n →
      ∃ A, rgbToRgbMatrix a b = .ok A ∧ A.isInt K n = true := by
  unfold convCheck at h
  obtain ⟨MAi, hi, h⟩ := withCat02_sound h
  simp only [ColorSpaceRGB.force_eq, XYZ.force_eq, Matrix33.force_eq, mmE_eq] at h
  rw [Bool.and_eq_true, decide_eq_true_eq, List.all_eq_true] at h
  refine ⟨h.1, fun j b n hb hn => ?_⟩
  have hm : (b, n) ∈ l.zip t := by
    rw [List.mem_iff_getElem?]
    exact ⟨j, by rw [List.getElem?_zip_eq_some]; exact ⟨hb, hn⟩⟩
  obtain ⟨c, hc, hk⟩ := fastCat_sound hi (h.2 _ hm)
  refine ⟨_, ?_, hk⟩
  unfold rgbToRgbMatrix cat02
  rw [hc]
  rfl

/-- the detours from one space, whose row of matrices is `ra`, through all spaces to all spaces -/
def viaRow (p K : ℕ) (ra : List (Matrix33 ℤ)) (t : List (List (Matrix33 ℤ))) (tol : List ℚ) : Bool :=
  ((ra.zip t).zip tol).all fun x => (x.1.2.zip ra).all fun y => viaCheck p K x.1.1 y.1 y.2 x.2

/-- the greys from one space with tolerance `ta` to all spaces -/
def greyRow (p K : ℕ) (ra : List (Matrix33 ℤ)) (ta : ℚ) (tol : List ℚ) : Bool :=
  (ra.zip tol).all fun x => greyCheck p K x.1 (ta + x.2)

/-- a table of the conversion matrices between the given spaces -/
structure ConvTable {f : Fmt} (p K : ℕ) (l : List (ColorSpaceRGB (FP f))) (t : List (List (Matrix33 ℤ))) : Prop where
  hp : f.u = 1 / 2 ^ p
  len : l.length = t.length
  row : ∀ (i : ℕ) (a : ColorSpaceRGB (FP f)) (r : List (Matrix33 ℤ)), l[i]? = some a → t[i]? = some r →
    @convCheck f (noLibm f) K a l r = true

theorem table_lookup {f : Fmt} (L : Libm f) {p K : ℕ} {tab : List (ColorSpaceRGB (FP f) × ℚ)}
    {t : List (List (Matrix33 ℤ))} (h : ConvTable p K (tab.map Prod.fst) t)
    {i j : ℕ} {a b : ColorSpaceRGB (FP f) × ℚ} (hi : tab[i]? = some a) (hj : tab[j]? = some b) :
    ∃ r n, t[i]? = some r ∧ r[j]? = some n ∧
      ∀ a' b' : ColorSpaceRGB (FP f), a'.xf_rgb_to_xyz = a.1.xf_rgb_to_xyz → a'.white = a.1.white →
        b'.xf_xyz_to_rgb = b.1.xf_xyz_to_rgb → b'.white = b.1.white →
        ∃ A, rgbToRgbMatrix a' b' = .ok A ∧ A.isInt K n = true := by
  have hlen := h.len
  rw [List.length_map] at hlen
  have hi' : i < t.length := by rw [← hlen]; exact (List.getElem?_eq_some_iff.1 hi).1
  have ei : t[i]? = some t[i] := List.getElem?_eq_getElem hi'
  have hr := h.row i a.1 t[i] (by rw [List.getElem?_map, hi]; rfl) ei
  rw [← convCheck_libm L] at hr
  obtain ⟨hl, hc⟩ := convCheck_sound hr
  rw [List.length_map] at hl
  have hj' : j < t[i].length := by rw [← hl]; exact (List.getElem?_eq_some_iff.1 hj).1
  have ej : t[i][j]? = some t[i][j] := List.getElem?_eq_getElem hj'
  obtain ⟨A, hA, hk⟩ := hc j b.1 _ (by rw [List.getElem?_map, hj]; rfl) ej
  refine ⟨_, _, ei, ej, fun a' b' e1 e2 e3 e4 => ⟨A, ?_, hk⟩⟩
  rw [← hA]
  unfold rgbToRgbMatrix
  rw [e1, e2, e3, e4]

theorem mem_zip_of_getElem? {α β : Type} {l : List α} {m : List β} {i : ℕ} {a : α} {b : β} (ha : l[i]? = some a)
    (hb : m[i]? = some b) : (a, b) ∈ l.zip m := by
  rw [List.mem_iff_getElem?]
  exact ⟨i, by rw [List.getElem?_zip_eq_some]; exact ⟨ha, hb⟩⟩

theorem grey_of_check {f : Fmt} (L : Libm f) (hf : Wide f) {p K : ℕ} {tab : List (ColorSpaceRGB (FP f) × ℚ)}
    {t : List (List (Matrix33 ℤ))} (h : ConvTable p K (tab.map Prod.fst) t)
    (hg : (t.zip (tab.map Prod.snd)).all (fun x => greyRow p K x.1 x.2 (tab.map Prod.snd)) = true)
    {l : List (Res (ColorSpaceRGB (FP f)) × ℚ)} (hl : List.Forall₂ Linked l tab) :
    ∀ r ∈ l, ∀ s ∈ l, Spec.PairGrey r.1 s.1 (r.2 + s.2) := by
  intro r hr s hs
  obtain ⟨a, ha, a', ea, -, a2, a3, a4⟩ := forall₂_mem hl r hr
  obtain ⟨b, hb, b', eb, b1, -, b3, b4⟩ := forall₂_mem hl s hs
  obtain ⟨i, hi⟩ := List.mem_iff_getElem?.1 ha
  obtain ⟨j, hj⟩ := List.mem_iff_getElem?.1 hb
  obtain ⟨row, n, e1, e2, e3⟩ := table_lookup L h hi hj
  obtain ⟨A, hA, hk⟩ := e3 a' b' a2 a3 b1 b3
  refine ⟨a', b', A, ea, eb, hA, ?_⟩
  rw [List.all_eq_true] at hg
  have h1 := hg _ (mem_zip_of_getElem? e1 (show (tab.map Prod.snd)[i]? = some a.2 by rw [List.getElem?_map, hi]; rfl))
  unfold greyRow at h1
  rw [List.all_eq_true] at h1
  have h2 := h1 _ (mem_zip_of_getElem? e2 (show (tab.map Prod.snd)[j]? = some b.2 by rw [List.getElem?_map, hj]; rfl))
  rw [a4, b4]
  exact (greyCheck_sound h.hp hk h2).keeps hf

/-- integer form of `tripCheck` -/
def tripInt (p K : ℕ) (A B : Matrix33 ℤ) (δ : ℚ) : Bool :=
  let one : Matrix33 ℤ := ⟨2 ^ K, 0, 0, 0, 2 ^ K, 0, 0, 0, 2 ^ K⟩
  sizeInt K A && sizeInt K B &&
  decide ((2 ^ p * (max (viaInt K A B one 0) (max (viaInt K A B one 1) (viaInt K A B one 2))) +
    11 * (normInt A * normInt B) : ℕ) * (δ.den : ℤ) ≤ δ.num * (2 ^ (p + 2 * K) : ℕ))

theorem tripInt_sound {f : Fmt} {p K : ℕ} (hp : f.u = 1 / 2 ^ p) {a b : Matrix33 ℤ} {A B : Matrix33 (FP f)} {δ : ℚ}
    (hA : A.isInt K a = true) (hB : B.isInt K b = true) (h : tripInt p K a b δ = true) :
    ∃ α β ε, TripOk A B α β ε ∧ 11 * f.u * (α * β) + ε ≤ δ := by
  obtain ⟨fA, qA⟩ := Matrix33.isInt_sound hA
  obtain ⟨fB, qB⟩ := Matrix33.isInt_sound hB
  unfold tripInt at h
  simp only [Bool.and_eq_true, decide_eq_true_eq] at h
  obtain ⟨⟨ha, hb⟩, h⟩ := h
  obtain ⟨a1, a2⟩ := sizeInt_sound ha
  obtain ⟨b1, b2⟩ := sizeInt_sound hb
  have h2 := le_of_check (by positivity) h
  set one : Matrix33 ℤ := ⟨2 ^ K, 0, 0, 0, 2 ^ K, 0, 0, 0, 2 ^ K⟩ with hone
  set D := max (viaInt K a b one 0) (max (viaInt K a b one 1) (viaInt K a b one 2)) with hD
  refine ⟨_, _, (D : ℚ) / 2 ^ (2 * K), ⟨fA, fB, rowAbs_int qA, rowAbs_int qB, a1, b1, a2, b2, fun i => ?_⟩,
    le_trans (le_of_eq ?_) h2⟩
  · have e : ∀ j, |(∑ k, B.q i k * A.q k j) - (if i = j then 1 else 0)| = (((b.get i 0 * a.get 0 j + b.get i 1 * a.get 1 j +
        b.get i 2 * a.get 2 j - 2 ^ K * one.get i j).natAbs : ℕ) : ℚ) / 2 ^ (2 * K) := fun j => by
      rw [Nat.cast_natAbs, Int.cast_abs, ← abs_of_pos (show (0:ℚ) < 2 ^ (2 * K) by positivity), ← abs_div]
      congr 1
      have ho : ((one.get i j : ℤ) : ℚ) = (if i = j then 1 else 0) * 2 ^ K := by
        rw [hone]
        fin_cases i <;> fin_cases j <;> simp [Matrix33.get]
      rw [Fin.sum_univ_three]
      simp only [qA, qB]
      rw [eq_div_iff (by positivity), two_mul, pow_add]
      push_cast
      rw [ho]
      field_simp
    unfold defect
    rw [Fin.sum_univ_three, e, e, e, ← add_div, ← add_div]
    gcongr
    have : viaInt K a b one i ≤ D := by rw [hD]; fin_cases i <;> simp
    unfold viaInt at this
    exact_mod_cast this
  · rw [hp]
    push_cast
    rw [pow_add, two_mul, pow_add]
    field_simp
    ring

/-- there and back between the spaces of one row and all spaces: `t` are the rows of all spaces, `i` is the
number of the row `ra`, with tolerance `ta` -/
def backRow (p K : ℕ) (i : ℕ) (ra : List (Matrix33 ℤ)) (ta : ℚ) (t : List (List (Matrix33 ℤ))) (tol : List ℚ) : Bool :=
  ((ra.zip t).zip tol).all fun x => match x.1.2[i]? with
    | some n => tripInt p K x.1.1 n (ta + x.2)
    | none => false

theorem pairs_of_check {f : Fmt} (L : Libm f) (hf : Wide f) {p K : ℕ} {tab : List (ColorSpaceRGB (FP f) × ℚ)}
    {t : List (List (Matrix33 ℤ))} (h : ConvTable p K (tab.map Prod.fst) t)
    (hb : ((List.range t.length).zip (t.zip (tab.map Prod.snd))).all
      (fun x => backRow p K x.1 x.2.1 x.2.2 t (tab.map Prod.snd)) = true)
    {l : List (Res (ColorSpaceRGB (FP f)) × ℚ)} (hl : List.Forall₂ Linked l tab) :
    ∀ r ∈ l, ∀ s ∈ l, Spec.PairReturns r.1 s.1 (r.2 + s.2) := by
  intro r hr s hs
  obtain ⟨a, ha, a', ea, a1, a2, a3, a4⟩ := forall₂_mem hl r hr
  obtain ⟨b, hb', b', eb, b1, b2, b3, b4⟩ := forall₂_mem hl s hs
  obtain ⟨i, hi⟩ := List.mem_iff_getElem?.1 ha
  obtain ⟨j, hj⟩ := List.mem_iff_getElem?.1 hb'
  obtain ⟨ra, n, x1, x2, x3⟩ := table_lookup L h hi hj
  obtain ⟨rb, n', y1, y2, y3⟩ := table_lookup L h hj hi
  obtain ⟨A, hA, kA⟩ := x3 a' b' a2 a3 b1 b3
  obtain ⟨B, hB, kB⟩ := y3 b' a' b2 b3 a1 a3
  refine ⟨a', b', A, B, ea, eb, hA, hB, ?_⟩
  rw [List.all_eq_true] at hb
  have hi' : i < t.length := (List.getElem?_eq_some_iff.1 x1).1
  have h1 := hb _ (mem_zip_of_getElem? (List.getElem?_range hi') (by
    rw [List.getElem?_zip_eq_some]
    exact ⟨x1, (show (tab.map Prod.snd)[i]? = some a.2 by rw [List.getElem?_map, hi]; rfl)⟩ :
      (t.zip (tab.map Prod.snd))[i]? = some (ra, a.2)))
  unfold backRow at h1
  rw [List.all_eq_true] at h1
  have h2 := h1 _ (mem_zip_of_getElem? (by rw [List.getElem?_zip_eq_some]; exact ⟨x2, y1⟩ : (ra.zip t)[j]? = some (n, rb))
    (show (tab.map Prod.snd)[j]? = some b.2 by rw [List.getElem?_map, hj]; rfl))
  dsimp only at h2
  rw [y2] at h2
  obtain ⟨α, β, ε, hok, ht⟩ := tripInt_sound h.hp kA kB h2
  rw [a4, b4]
  intro v M hM1 hM2 hv k
  obtain ⟨g1, g2⟩ := trip_plain hf hok v (le_trans (by norm_num) hM1) hM2 hv k
  have hM0 : 0 ≤ M := le_trans (by positivity) hM1
  exact ⟨g1, le_trans g2 (mul_le_mul_of_nonneg_right ht hM0)⟩

theorem via_of_check {f : Fmt} (L : Libm f) (hf : Wide f) {p K : ℕ} {tab : List (ColorSpaceRGB (FP f) × ℚ)}
    {t : List (List (Matrix33 ℤ))} (h : ConvTable p K (tab.map Prod.fst) t)
    (hv : t.all (fun r => viaRow p K r t (tab.map Prod.snd)) = true)
    {l : List (Res (ColorSpaceRGB (FP f)) × ℚ)} (hl : List.Forall₂ Linked l tab) :
    ∀ r ∈ l, ∀ s ∈ l, ∀ u ∈ l, Spec.Via r.1 s.1 u.1 s.2 := by
  intro r hr s hs u hu
  obtain ⟨a, ha, a', ea, -, a2, a3, -⟩ := forall₂_mem hl r hr
  obtain ⟨b, hb, b', eb, b1, b2, b3, b4⟩ := forall₂_mem hl s hs
  obtain ⟨c, hc, c', ec, c1, -, c3, -⟩ := forall₂_mem hl u hu
  obtain ⟨i, hi⟩ := List.mem_iff_getElem?.1 ha
  obtain ⟨j, hj⟩ := List.mem_iff_getElem?.1 hb
  obtain ⟨k, hk⟩ := List.mem_iff_getElem?.1 hc
  obtain ⟨ra, n, x1, x2, x3⟩ := table_lookup L h hi hj
  obtain ⟨rb, n', y1, y2, y3⟩ := table_lookup L h hj hk
  obtain ⟨ra', n'', z1, z2, z3⟩ := table_lookup L h hi hk
  rw [x1] at z1
  cases z1
  obtain ⟨A, hA, kA⟩ := x3 a' b' a2 a3 b1 b3
  obtain ⟨B, hB, kB⟩ := y3 b' c' b2 b3 c1 c3
  obtain ⟨C, hC, kC⟩ := z3 a' c' a2 a3 c1 c3
  refine ⟨a', b', c', A, B, C, ea, eb, ec, hA, hB, hC, ?_⟩
  rw [List.all_eq_true] at hv
  have h1 := hv _ (List.mem_iff_getElem?.2 ⟨i, x1⟩)
  unfold viaRow at h1
  rw [List.all_eq_true] at h1
  have h2 := h1 _ (mem_zip_of_getElem? (by rw [List.getElem?_zip_eq_some]; exact ⟨x2, y1⟩ : (ra.zip t)[j]? = some (n, rb))
    (show (tab.map Prod.snd)[j]? = some b.2 by rw [List.getElem?_map, hj]; rfl))
  rw [List.all_eq_true] at h2
  have h3 := h2 _ (mem_zip_of_getElem? y2 z2)
  rw [b4]
  exact (viaCheck_sound h.hp kA kB kC h3).detour hf

end CS

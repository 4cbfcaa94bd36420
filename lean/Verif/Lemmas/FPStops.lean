import Verif.Lemmas.FPIn
import Verif.Lemmas.FPSym
import Verif.Lemmas.FPErr

/-!
# Powers of two pass through rounded arithmetic
-/

namespace CS
variable {f : Fmt}

/-- `b` is `2^k` times `a`, exactly; both are finite. -/
def Spec.Stops (k : ℕ) (a b : FP f) : Prop := a.isFinite = true ∧ b.isFinite = true ∧ b.val = 2 ^ k * a.val

/-- the exact result `q` is not in the range where the format loses precision -/
def Spec.NoUnderflow (f : Fmt) (q : ℚ) : Prop := q = 0 ∨ 2 ^ f.emin ≤ |q|

/-- rounding commutes with a power of two away from the subnormal numbers, and on numbers of the format -/
theorem roundQ_scale (k : ℕ) {q : ℚ} (h : 2 ^ f.emin ≤ |q| ∨ roundQ f q = q) :
    roundQ f (2 ^ k * q) = 2 ^ k * roundQ f q := by
  rcases h with h | h
  · have hq : |q| ≠ 0 := (lt_of_lt_of_le (two_zpow_pos _) h).ne'
    have hp : (0:ℚ) < |q| := lt_of_le_of_ne (abs_nonneg _) hq.symm
    have hk : (2:ℚ) ^ k * |q| = |q| * (2:ℚ) ^ (k : ℤ) := by rw [zpow_natCast, mul_comm]
    have hl : Int.log 2 (2 ^ k * |q|) = Int.log 2 |q| + k := by
      have h1 := Int.zpow_log_le_self (b := 2) (r := |q|) (by norm_num) hp
      have h2 := Int.lt_zpow_succ_log_self (b := 2) (by norm_num) |q|
      have hpk : (0:ℚ) < 2 ^ (k : ℤ) := two_zpow_pos _
      rw [hk]
      apply le_antisymm
      · rw [← Int.lt_add_one_iff, ← Int.lt_zpow_iff_log_lt (by norm_num) (by positivity)]
        push_cast at h2 ⊢
        calc |q| * 2 ^ (k : ℤ) < 2 ^ (Int.log 2 |q| + 1) * 2 ^ (k : ℤ) := mul_lt_mul_of_pos_right h2 hpk
          _ = _ := by rw [← zpow_add₀ (by norm_num)]; congr 1; ring
      · rw [← Int.zpow_le_iff_le_log (by norm_num) (by positivity)]
        push_cast at h1 ⊢
        rw [zpow_add₀ (by norm_num)]
        exact mul_le_mul_of_nonneg_right h1 hpk.le
    have hge : f.emin ≤ Int.log 2 |q| := by
      rw [← Int.zpow_le_iff_le_log (by norm_num) hp]
      exact_mod_cast h
    have he : qexp f (2 ^ k * q) = qexp f q + k := by
      unfold qexp
      rw [abs_mul, abs_of_pos (show (0:ℚ) < 2 ^ k by positivity), hl, max_eq_left (by omega), max_eq_left hge]
      ring
    unfold roundQ
    rw [he, zpow_add₀ (by norm_num), zpow_natCast]
    have : (2:ℚ) ^ k * q / (2 ^ qexp f q * 2 ^ k) = q / 2 ^ qexp f q := by
      have := (two_zpow_pos (qexp f q)).ne'
      field_simp
    rw [this]; ring
  · rw [h]
    obtain ⟨m, e, h1, h2, h3⟩ := roundQ_form f q
    rw [h] at h1
    have := roundQ_eq_self f m (e + k) h2 (by omega)
    rw [zpow_add₀ (by norm_num), zpow_natCast] at this
    rw [h1]
    rw [show (2:ℚ) ^ k * (m * 2 ^ e) = m * (2 ^ e * 2 ^ k) by ring]
    exact this

/-- sums either do not underflow or are exact -/
theorem sum_exact {a b : ℚ} (ha : roundQ f a = a) (hb : roundQ f b = b) :
    2 ^ f.emin ≤ |a + b| ∨ roundQ f (a + b) = a + b := by
  by_cases h : 2 ^ f.emin ≤ |a + b|
  · exact Or.inl h
  · right
    push Not at h
    obtain ⟨m, hm⟩ := isRep_multiple ha
    obtain ⟨n, hn⟩ := isRep_multiple hb
    have hs : a + b = ((m + n : ℤ) : ℚ) * 2 ^ (f.emin - (f.p - 1)) := by
      rw [hm, hn]; push_cast; ring
    have hmn : |m + n| ≤ 2 ^ f.p := by
      have h1 : |((m + n : ℤ) : ℚ)| * 2 ^ (f.emin - (f.p - 1)) < 2 ^ f.emin := by
        rw [hs, abs_mul, abs_of_pos (two_zpow_pos _)] at h; exact h
      have h2 : (2:ℚ) ^ f.emin = 2 ^ ((f.p:ℤ) - 1) * 2 ^ (f.emin - (f.p - 1)) := by
        rw [← zpow_add₀ (by norm_num)]; congr 1; ring
      rw [h2] at h1
      have h3 := lt_of_mul_lt_mul_right h1 (two_zpow_pos _).le
      have h4 : |((m + n : ℤ) : ℚ)| < 2 ^ f.p := by
        refine lt_of_lt_of_le h3 ?_
        rw [← zpow_natCast (2:ℚ) f.p]
        exact zpow_le_zpow_right₀ (by norm_num) (by omega)
      have h5 : (|m + n| : ℤ) < 2 ^ f.p := by exact_mod_cast h4
      exact h5.le
    rw [hs]
    exact roundQ_eq_self f (m + n) (f.emin - (f.p - 1)) hmn le_rfl

theorem ofQ_round_of_finite {s : Bool} {q : ℚ} (h : (FP.ofQ f s q).isFinite = true) :
    |roundQ f q| < 2 ^ (f.emax + 1) := by
  by_contra hc
  unfold FP.ofQ at h
  rw [dif_neg hc] at h
  cases hd : decide (q < 0) <;> rw [hd] at h <;> cases h

/-- two rounded results whose exact values are in the ratio -/
theorem Spec.Stops.ofQ (k : ℕ) {s t : Bool} {p q : ℚ} (hq : p = 2 ^ k * q) (h : 2 ^ f.emin ≤ |q| ∨ roundQ f q = q)
    (hb : (FP.ofQ f t p).isFinite = true) : Spec.Stops k (FP.ofQ f s q) (FP.ofQ f t p) := by
  have h1 := ofQ_round_of_finite hb
  have h2 := roundQ_scale k h
  have h3 : |roundQ f q| < 2 ^ (f.emax + 1) := by
    refine lt_of_le_of_lt ?_ h1
    rw [hq, h2, abs_mul, abs_of_pos (show (0:ℚ) < 2 ^ k by positivity)]
    exact le_mul_of_one_le_left (abs_nonneg _) (one_le_pow₀ (by norm_num))
  obtain ⟨a1, a2⟩ := FP.ofQ_finite s h3
  refine ⟨a1, hb, ?_⟩
  rw [(FP.ofQ_finite t h1).2, a2, hq, h2]

theorem Spec.NoUnderflow.or {q : ℚ} (h : Spec.NoUnderflow f q) : 2 ^ f.emin ≤ |q| ∨ roundQ f q = q := by
  rcases h with h | h
  · right; rw [h, roundQ_zero]
  · exact Or.inl h

theorem finite_of_add' {a b : FP f} (h : (a + b).isFinite = true) : a.isFinite = true ∧ b.isFinite = true := by
  change (FP.add a b).isFinite = true at h
  cases a <;> cases b <;> simp [FP.add, FP.isFinite, FP.isNaN, FP.sgn] at h ⊢

theorem finite_of_sub' {a b : FP f} (h : (a - b).isFinite = true) : a.isFinite = true ∧ b.isFinite = true := by
  obtain ⟨h1, h2⟩ := finite_of_add' (a := a) (b := -b) h
  refine ⟨h1, ?_⟩
  change (FP.neg b).isFinite = true at h2
  cases b <;> simp [FP.neg, FP.isFinite] at h2 ⊢

variable {k : ℕ} {a b c d : FP f}

theorem Spec.Stops.of_zero (h : a.isFinite = true) (h0 : a.val = 0) : Spec.Stops k a a :=
  ⟨h, h, by rw [h0, mul_zero]⟩

theorem Spec.Stops.add (h1 : Spec.Stops k a b) (h2 : Spec.Stops k c d) (h : (b + d).isFinite = true) :
    Spec.Stops k (a + c) (b + d) := by
  obtain ⟨s, e1⟩ := add_finite_eq h1.1 h2.1
  obtain ⟨t, e2⟩ := add_finite_eq h1.2.1 h2.2.1
  rw [e2] at h ⊢
  rw [e1]
  obtain ⟨r1, r2⟩ := FP.val_rep a
  obtain ⟨r3, r4⟩ := FP.val_rep c
  exact Spec.Stops.ofQ k (by rw [h1.2.2, h2.2.2]; ring) (sum_exact r1 r3) h

theorem Spec.Stops.sub (h1 : Spec.Stops k a b) (h2 : Spec.Stops k c d) (h : (b - d).isFinite = true) :
    Spec.Stops k (a - c) (b - d) := by
  obtain ⟨s, e1⟩ := sub_finite_eq h1.1 h2.1
  obtain ⟨t, e2⟩ := sub_finite_eq h1.2.1 h2.2.1
  rw [e2] at h ⊢
  rw [e1]
  obtain ⟨r1, r2⟩ := FP.val_rep a
  obtain ⟨r3, r4⟩ := FP.val_rep c
  refine Spec.Stops.ofQ k (by rw [h1.2.2, h2.2.2]; ring) ?_ h
  rw [sub_eq_add_neg]
  exact sum_exact r1 (by rw [roundQ_neg, r3])

theorem Spec.Stops.mul_left (w : FP f) (hw : w.isFinite = true) (h1 : Spec.Stops k a b)
    (hu : Spec.NoUnderflow f (w.val * a.val)) (h : (w * b).isFinite = true) : Spec.Stops k (w * a) (w * b) := by
  rw [FP.mul_finite_eq hw h1.2.1] at h ⊢
  rw [FP.mul_finite_eq hw h1.1]
  exact Spec.Stops.ofQ k (by rw [h1.2.2]; ring) hu.or h

theorem Spec.Stops.mul_right (w : FP f) (hw : w.isFinite = true) (h1 : Spec.Stops k a b)
    (hu : Spec.NoUnderflow f (a.val * w.val)) (h : (b * w).isFinite = true) : Spec.Stops k (a * w) (b * w) := by
  rw [FP.mul_finite_eq h1.2.1 hw] at h ⊢
  rw [FP.mul_finite_eq h1.1 hw]
  exact Spec.Stops.ofQ k (by rw [h1.2.2]; ring) hu.or h

theorem Spec.Stops.div_right [Libm f] (w : FP f) (hw : w.isFinite = true) (h0 : w.val ≠ 0) (h1 : Spec.Stops k a b)
    (hu : Spec.NoUnderflow f (a.val / w.val)) (h : (b / w).isFinite = true) : Spec.Stops k (a / w) (b / w) := by
  rw [FP.div_finite_eq h1.2.1 hw h0] at h ⊢
  rw [FP.div_finite_eq h1.1 hw h0]
  exact Spec.Stops.ofQ k (by rw [h1.2.2]; ring) hu.or h

theorem eqb_ofQ (s t : Bool) (q : ℚ) : FP.eqb (FP.ofQ f s q) (FP.ofQ f t q) = true := by
  have hz : ∀ u v : Bool, FP.eqb (FP.zeroOf u : FP f) (FP.zeroOf v) = true := by
    intro u v; cases u <;> cases v <;> simp [FP.eqb, FP.zeroOf, FP.ext]
  unfold FP.ofQ
  split
  · split
    · exact hz _ _
    · simp [FP.eqb, FP.ext]
  · cases decide (q < 0) <;> simp [FP.eqb, FP.infOf, FP.ext]

/-- a quotient of two numbers scaled alike is the same number -/
theorem Spec.Stops.quot [Libm f] (h1 : Spec.Stops k a b) (h2 : Spec.Stops k c d) (h0 : c.val ≠ 0) :
    FP.eqb (a / c) (b / d) = true := by
  have hk : (2:ℚ) ^ k ≠ 0 := by positivity
  have hd : d.val ≠ 0 := by rw [h2.2.2]; exact mul_ne_zero hk h0
  rw [FP.div_finite_eq h1.1 h2.1 h0, FP.div_finite_eq h1.2.1 h2.2.1 hd, h1.2.2, h2.2.2, mul_div_mul_left _ _ hk]
  exact eqb_ofQ _ _ _

theorem Spec.Stops.lt (h1 : Spec.Stops k a b) (h2 : Spec.Stops k c d) : FP.lt a c = FP.lt b d := by
  obtain ⟨a1, b1, e1⟩ := h1
  obtain ⟨c1, d1, e2⟩ := h2
  have hk : (0:ℚ) < 2 ^ k := by positivity
  have : a.val < c.val ↔ b.val < d.val := by rw [e1, e2]; exact (mul_lt_mul_iff_right₀ hk).symm
  rw [FP.lt_finite a1 c1, FP.lt_finite b1 d1, decide_eq_decide, this]

theorem Spec.Stops.max (h1 : Spec.Stops k a b) (h2 : Spec.Stops k c d) : Spec.Stops k (FP.max a c) (FP.max b d) := by
  unfold FP.max
  simp only [FP.isNaN_of_finite h1.1, FP.isNaN_of_finite h2.1, FP.isNaN_of_finite h1.2.1, FP.isNaN_of_finite h2.2.1,
    h1.lt h2, Bool.false_eq_true, if_false]
  split
  · exact h2
  · exact h1

end CS

namespace CS
variable {f : Fmt} {k : ℕ} {a b c d : FP f}

/-- zero, or at least `2^-j` in size -/
def Spec.NotTiny (j : ℕ) (x : FP f) : Prop := x.val = 0 ∨ 1 / 2 ^ j ≤ |x.val|

theorem Spec.NotTiny.mul {i j : ℕ} (h1 : Spec.NotTiny i a) (h2 : Spec.NotTiny j b) (hf : f.emin ≤ -((i : ℤ) + j)) :
    Spec.NoUnderflow f (a.val * b.val) := by
  rcases h1 with h1 | h1
  · left; rw [h1, zero_mul]
  rcases h2 with h2 | h2
  · left; rw [h2, mul_zero]
  right
  rw [abs_mul]
  calc (2:ℚ) ^ f.emin ≤ 2 ^ (-((i : ℤ) + j)) := zpow_le_zpow_right₀ (by norm_num) hf
    _ = 1 / 2 ^ i * (1 / 2 ^ j) := by
        rw [zpow_neg, zpow_add₀ (by norm_num), zpow_natCast, zpow_natCast]; field_simp
    _ ≤ _ := mul_le_mul h1 h2 (by positivity) (abs_nonneg _)

/-- a number of the format that is not tiny is a multiple of a power of two that is not tiny -/
theorem grid_float {q : ℚ} (hr : roundQ f q = q) {j : ℤ} (h : 2 ^ j ≤ |q|) : ∃ m : ℤ, q = m * 2 ^ (j - (f.p - 1)) := by
  have hp : (0:ℚ) < |q| := lt_of_lt_of_le (two_zpow_pos _) h
  have hl : j ≤ Int.log 2 |q| := by
    rw [← Int.zpow_le_iff_le_log (by norm_num) hp]; exact_mod_cast h
  have he : j - (f.p - 1) ≤ qexp f q := by
    unfold qexp; have := le_max_left (Int.log 2 |q|) f.emin; omega
  obtain ⟨n, hn⟩ := Int.le.dest he
  refine ⟨rne (q / 2 ^ qexp f q) * 2 ^ n, ?_⟩
  conv_lhs => rw [← hr]
  unfold roundQ
  rw [← hn, zpow_add₀ (by norm_num)]
  push_cast
  rw [zpow_natCast]; ring

/-- rounding keeps multiples of a power of two -/
theorem grid_round {q : ℚ} {m e : ℤ} (h : q = m * 2 ^ e) : ∃ n : ℤ, roundQ f q = n * 2 ^ e := by
  rcases le_total (qexp f q) e with he | he
  · obtain ⟨n, hn⟩ := Int.le.dest he
    refine ⟨m, ?_⟩
    have : q / 2 ^ qexp f q = ((m * 2 ^ n : ℤ) : ℚ) := by
      rw [div_eq_iff (two_zpow_pos _).ne', h]
      conv_lhs => rw [← hn]
      rw [zpow_add₀ (by norm_num)]
      push_cast; rw [zpow_natCast]; rw [h]; ring
    unfold roundQ
    rw [this, rne_int, ← this, div_mul_cancel₀ _ (two_zpow_pos _).ne', h]
  · obtain ⟨n, hn⟩ := Int.le.dest he
    refine ⟨rne (q / 2 ^ qexp f q) * 2 ^ n, ?_⟩
    have e2 : (2:ℚ) ^ qexp f q = 2 ^ n * 2 ^ e := by
      rw [← hn, zpow_add₀ (by norm_num), zpow_natCast, mul_comm]
    unfold roundQ
    push_cast
    rw [mul_assoc, ← e2]

theorem grid_big {q : ℚ} {m e : ℤ} (h : q = m * 2 ^ e) : q = 0 ∨ 2 ^ e ≤ |q| := by
  by_cases hm : m = 0
  · left; rw [h, hm]; simp
  · right
    rw [h, abs_mul, abs_of_pos (two_zpow_pos e)]
    have : (1:ℚ) ≤ |(m : ℚ)| := by
      have := Int.one_le_abs hm
      exact_mod_cast this
    exact le_mul_of_one_le_left (two_zpow_pos _).le this

theorem finite_of_mul' (h : (a * b).isFinite = true) : a.isFinite = true ∧ b.isFinite = true := by
  change (FP.mul a b).isFinite = true at h
  have hi : ∀ s, (FP.infOf s : FP f).isFinite = false := by intro s; cases s <;> rfl
  have hc : ∀ (p : Bool) s, (if p then FP.nan else FP.infOf s : FP f).isFinite = false := by
    intro p s; cases p
    · exact hi s
    · rfl
  by_contra hn
  have : (FP.mul a b).isFinite = false := by
    cases a <;> cases b <;> first | rfl | exact hc _ _ | (exfalso; exact hn ⟨rfl, rfl⟩)
  rw [this] at h; cases h

theorem finite_of_div' (h : (a / b).isFinite = true) : a.isFinite = true := by
  change (FP.div a b).isFinite = true at h
  have hi : ∀ s, (FP.infOf s : FP f).isFinite = false := by intro s; cases s <;> rfl
  by_contra hn
  have : (FP.div a b).isFinite = false := by
    cases a <;> cases b <;> first | rfl | exact hi _ | (exfalso; exact hn rfl)
  rw [this] at h; cases h

end CS

import Verif.Lemmas.FPScale

/-!
# Interval bounds for floats
Bounds with a short significand survive rounding, so an interval computed with them needs no widening.
-/

namespace CS
variable {f : Fmt}

/-- a number `m * 2^e` with a significand of at most 24 bits and a moderate exponent -/
def Short (q : ℚ) : Prop := ∃ m e : ℤ, q = m * 2 ^ e ∧ |m| ≤ 2 ^ 24 ∧ -60 ≤ e ∧ e ≤ 80

theorem Short.neg {q : ℚ} (h : Short q) : Short (-q) := by
  obtain ⟨m, e, a, b, c, d⟩ := h
  exact ⟨-m, e, by rw [a]; push_cast; ring, by rwa [abs_neg], c, d⟩

theorem Short.abs_le {q : ℚ} (h : Short q) : |q| ≤ 2 ^ 104 := by
  obtain ⟨m, e, a, b, c, d⟩ := h
  rw [a, abs_mul, abs_of_pos (by positivity : (0:ℚ) < 2 ^ e)]
  have h1 : |(m:ℚ)| ≤ 2 ^ 24 := by exact_mod_cast b
  have h2 : (2:ℚ) ^ e ≤ 2 ^ (80:ℤ) := zpow_le_zpow_right₀ (by norm_num) d
  calc |(m:ℚ)| * 2 ^ e ≤ 2 ^ 24 * 2 ^ (80:ℤ) := mul_le_mul h1 h2 (by positivity) (by positivity)
    _ = 2 ^ 104 := by norm_num

theorem short_of (q : ℚ) (h : (q.den ∣ 2 ^ 60 ∧ q.num.natAbs ≤ 2 ^ 24)) : Short q := by
  obtain ⟨h1, h2⟩ := h
  obtain ⟨k, hk, e⟩ := (Nat.dvd_prime_pow Nat.prime_two).1 h1
  refine ⟨q.num, -k, ?_, ?_, by omega, by omega⟩
  · have := Rat.num_div_den q
    rw [e] at this
    rw [zpow_neg, zpow_natCast, ← div_eq_mul_inv]
    push_cast at this
    exact this.symm
  · rw [Int.abs_eq_natAbs]; exact_mod_cast h2

/-- closes `Short q` for a literal -/
macro "short" : tactic => `(tactic| exact short_of _ (by decide +kernel))

theorem short_pow (k : ℕ) (h : k ≤ 80) : Short (2 ^ k) := ⟨1, k, by simp, by norm_num, by omega, by omega⟩

example : Short 1860 := by short
example : Short (1 + 1 / 2 ^ 8) := by short
example : Short (-(115/128)) := by short

theorem Std.p24' (hf : Std f) : 24 ≤ f.p := by
  have h := hf.hu
  unfold Fmt.u at h
  rw [one_div_le_one_div (by positivity) (by positivity)] at h
  exact (pow_le_pow_iff_right₀ (by norm_num)).1 h

theorem Std.emin_le (hf : Std f) : f.emin - (f.p - 1) ≤ -60 := by
  have h := hf.wide.heta
  unfold Fmt.eta Fmt.u at h
  have h2 : (1 / 2 ^ f.p / 2 ^ 124 : ℚ) = 2 ^ (-(f.p : ℤ) - 124) := by
    rw [zpow_sub₀ (by norm_num), zpow_neg, zpow_natCast]; norm_num
  rw [h2, zpow_le_zpow_iff_right₀ (by norm_num)] at h
  have := hf.p24'
  omega

theorem Short.rep (hf : Std f) {q : ℚ} (h : Short q) : IsRep f q := by
  have hb := h.abs_le
  obtain ⟨m, e, a, b, c, d⟩ := h
  refine ⟨?_, ?_⟩
  · rw [a]
    refine roundQ_eq_self f m e (b.trans ?_) (by have := hf.emin_le; omega)
    have := hf.p24'
    exact pow_le_pow_right₀ (by norm_num) (by omega)
  · have h1 := hf.wide.hmax
    have h2 : (2:ℚ) ^ 104 ≤ 2 ^ 126 := pow_le_pow_right₀ (by norm_num) (by norm_num)
    have h3 : (0:ℚ) < 2 ^ f.emax := by positivity
    rw [pow_succ]
    generalize (2:ℚ) ^ f.emax = z at *
    generalize (2:ℚ) ^ 126 = z' at *
    generalize (2:ℚ) ^ 104 = z'' at *
    linarith

/-- a finite float between two numbers -/
def In (a : FP f) (lo hi : ℚ) : Prop := a.isFinite = true ∧ lo ≤ a.val ∧ a.val ≤ hi

theorem In.mono {a : FP f} {l h l' h' : ℚ} (H : In a l h) (hl : l' ≤ l) (hh : h ≤ h') : In a l' h' :=
  ⟨H.1, hl.trans H.2.1, H.2.2.trans hh⟩

theorem In.abs_val {a : FP f} {h : ℚ} (H : In a (-h) h) : |a.val| ≤ h := abs_le.2 H.2

theorem in_round (hf : Std f) {q L H : ℚ} (s : Bool) (hL : Short L) (hH : Short H) (h1 : L ≤ q) (h2 : q ≤ H) :
    (FP.ofQ f s q).isFinite = true ∧ (FP.ofQ f s q).val = roundQ f q ∧ In (FP.ofQ f s q) L H := by
  have rL := hL.rep hf
  have rH := hH.rep hf
  have key : IsRep f (max |L| |H|) := by
    rcases max_choice |L| |H| with e | e <;> rw [e]
    · rcases abs_choice L with e | e <;> rw [e]
      · exact rL
      · exact FP.isRep_neg rL
    · rcases abs_choice H with e | e <;> rw [e]
      · exact rH
      · exact FP.isRep_neg rH
  obtain ⟨a, b⟩ := FP.ofQ_finite_of_le (f := f) s key (abs_le_max_abs_abs h1 h2)
  refine ⟨a, b, a, ?_, ?_⟩
  · rw [b, ← rL.1]; exact roundQ_mono f h1
  · rw [b, ← rH.1]; exact roundQ_mono f h2

theorem add_finite_eq {a b : FP f} (ha : a.isFinite = true) (hb : b.isFinite = true) :
    ∃ s, a + b = FP.ofQ f s (a.val + b.val) := by
  show ∃ s, FP.add a b = _
  unfold FP.add
  simp only [FP.isNaN_of_finite ha, FP.isNaN_of_finite hb, ha, hb, Bool.or_self, Bool.false_eq_true, if_false,
    if_true]
  exact ⟨_, rfl⟩

theorem sub_finite_eq {a b : FP f} (ha : a.isFinite = true) (hb : b.isFinite = true) :
    ∃ s, a - b = FP.ofQ f s (a.val - b.val) := by
  obtain ⟨h1, h2⟩ := FP.neg_finite hb
  obtain ⟨s, h⟩ := add_finite_eq ha h1
  refine ⟨s, ?_⟩
  rw [h2, ← sub_eq_add_neg] at h
  exact h

theorem In.add' (hf : Std f) {a b : FP f} {l h l' h' L H : ℚ} (ha : In a l h) (hb : In b l' h')
    (hL : Short L) (hH : Short H) (h1 : L ≤ l + l') (h2 : h + h' ≤ H) :
    (a + b).val = roundQ f (a.val + b.val) ∧ In (a + b) L H := by
  obtain ⟨s, e⟩ := add_finite_eq ha.1 hb.1
  rw [e]
  exact (in_round hf s hL hH (by linarith [ha.2.1, hb.2.1]) (by linarith [ha.2.2, hb.2.2])).2

theorem In.add (hf : Std f) {a b : FP f} {l h l' h' L H : ℚ} (ha : In a l h) (hb : In b l' h')
    (hL : Short L) (hH : Short H) (h1 : L ≤ l + l') (h2 : h + h' ≤ H) : In (a + b) L H :=
  (ha.add' hf hb hL hH h1 h2).2

theorem In.sub' (hf : Std f) {a b : FP f} {l h l' h' L H : ℚ} (ha : In a l h) (hb : In b l' h')
    (hL : Short L) (hH : Short H) (h1 : L ≤ l - h') (h2 : h - l' ≤ H) :
    (a - b).val = roundQ f (a.val - b.val) ∧ In (a - b) L H := by
  obtain ⟨s, e⟩ := sub_finite_eq ha.1 hb.1
  rw [e]
  exact (in_round hf s hL hH (by linarith [ha.2.1, hb.2.2]) (by linarith [ha.2.2, hb.2.1])).2

theorem In.sub (hf : Std f) {a b : FP f} {l h l' h' L H : ℚ} (ha : In a l h) (hb : In b l' h')
    (hL : Short L) (hH : Short H) (h1 : L ≤ l - h') (h2 : h - l' ≤ H) : In (a - b) L H :=
  (ha.sub' hf hb hL hH h1 h2).2

theorem In.mul_gen (hf : Std f) {a b : FP f} {L H : ℚ} (ha : a.isFinite = true) (hb : b.isFinite = true)
    (hL : Short L) (hH : Short H) (h1 : L ≤ a.val * b.val) (h2 : a.val * b.val ≤ H) :
    (a * b).val = roundQ f (a.val * b.val) ∧ In (a * b) L H := by
  rw [FP.mul_finite ha hb]
  exact (in_round hf _ hL hH h1 h2).2

/-- two factors that are not negative -/
theorem In.mul (hf : Std f) {a b : FP f} {l h l' h' L H : ℚ} (ha : In a l h) (hb : In b l' h') (l0 : 0 ≤ l)
    (l0' : 0 ≤ l') (hL : Short L) (hH : Short H) (h1 : L ≤ l * l') (h2 : h * h' ≤ H) : In (a * b) L H := by
  have a0 := l0.trans ha.2.1
  have b0 := l0'.trans hb.2.1
  refine (In.mul_gen hf ha.1 hb.1 hL hH (h1.trans ?_) (le_trans ?_ h2)).2
  · exact mul_le_mul ha.2.1 hb.2.1 l0' a0
  · exact mul_le_mul ha.2.2 hb.2.2 b0 (a0.trans ha.2.2)

/-- factors in symmetric intervals -/
theorem In.mul_sym (hf : Std f) {a b : FP f} {h h' H : ℚ} (ha : In a (-h) h) (hb : In b (-h') h')
    (hH : Short H) (h2 : h * h' ≤ H) : In (a * b) (-H) H := by
  have : |a.val * b.val| ≤ H := by
    rw [abs_mul]
    exact (mul_le_mul ha.abs_val hb.abs_val (abs_nonneg _) ((abs_nonneg _).trans ha.abs_val)).trans h2
  exact (In.mul_gen hf ha.1 hb.1 hH.neg hH (abs_le.1 this).1 (abs_le.1 this).2).2

/-- a positive factor and one of any sign -/
theorem In.mul_pos (hf : Std f) {a b : FP f} {l h l' h' L H : ℚ} (ha : In a l h) (hb : In b l' h') (l0 : 0 ≤ l)
    (hl' : l' ≤ 0) (hh' : 0 ≤ h') (hL : Short L) (hH : Short H) (h1 : L ≤ h * l') (h2 : h * h' ≤ H) :
    In (a * b) L H := by
  have a0 := l0.trans ha.2.1
  refine (In.mul_gen hf ha.1 hb.1 hL hH (h1.trans ?_) (le_trans ?_ h2)).2
  · calc h * l' ≤ a.val * l' := mul_le_mul_of_nonpos_right ha.2.2 hl'
      _ ≤ a.val * b.val := mul_le_mul_of_nonneg_left hb.2.1 a0
  · calc a.val * b.val ≤ a.val * h' := mul_le_mul_of_nonneg_left hb.2.2 a0
      _ ≤ h * h' := mul_le_mul_of_nonneg_right ha.2.2 hh'

theorem In.div_gen [Libm f] (hf : Std f) {a b : FP f} {L H : ℚ} (ha : a.isFinite = true) (hb : b.isFinite = true)
    (h0 : b.val ≠ 0) (hL : Short L) (hH : Short H) (h1 : L ≤ a.val / b.val) (h2 : a.val / b.val ≤ H) :
    (a / b).val = roundQ f (a.val / b.val) ∧ In (a / b) L H := by
  rw [FP.div_finite ha hb h0]
  exact (in_round hf _ hL hH h1 h2).2

/-- a positive divisor bounded below -/
theorem In.div [Libm f] (hf : Std f) {a b : FP f} {l h l' h' L H : ℚ} (ha : In a l h) (hb : In b l' h')
    (b0 : 0 < l') (hL : Short L) (hH : Short H) (hL0 : L ≤ 0) (hH0 : 0 ≤ H)
    (h1 : L * l' ≤ l) (h2 : h ≤ H * l') : In (a / b) L H := by
  have bp : 0 < b.val := lt_of_lt_of_le b0 hb.2.1
  refine (In.div_gen hf ha.1 hb.1 bp.ne' hL hH ?_ ?_).2
  · rw [le_div_iff₀ bp]
    exact (mul_le_mul_of_nonpos_left hb.2.1 hL0).trans (h1.trans ha.2.1)
  · rw [div_le_iff₀ bp]
    exact (ha.2.2.trans h2).trans (mul_le_mul_of_nonneg_left hb.2.1 hH0)

theorem in_neg {a : FP f} {l h : ℚ} (H : In a l h) : In (-a) (-h) (-l) := by
  obtain ⟨h1, h2⟩ := FP.neg_finite H.1
  exact ⟨h1, by rw [h2]; linarith [H.2.2], by rw [h2]; linarith [H.2.1]⟩

/-- a literal lies between short numbers that bracket it -/
theorem in_lit (hf : Std f) {q L H : ℚ} (hL : Short L) (hH : Short H) (h1 : L ≤ q) (h2 : q ≤ H) :
    In (FP.lit q : FP f) L H := by
  obtain ⟨a, -, b⟩ := in_round std_b64 false hL hH h1 h2
  show In (FP.cast _) L H
  generalize hx : FP.ofQ Fmt.b64 false q = x at *
  cases x with
  | nan => simp [FP.isFinite] at a
  | pinf => simp [FP.isFinite] at a
  | ninf => simp [FP.isFinite] at a
  | nzero =>
    exact ⟨rfl, b.2.1, b.2.2⟩
  | fin r hr => exact (in_round hf _ hL hH b.2.1 b.2.2).2.2

/-- two different floats of size at least `2^k` differ by at least `2^k u` -/
theorem rep_gap {x y : ℚ} {k : ℤ} (hx : roundQ f x = x) (hy : roundQ f y = y) (h1 : 2 ^ k ≤ x) (h2 : 2 ^ k ≤ y)
    (hne : x ≠ y) : 2 ^ k * f.u ≤ |x - y| := by
  have hexp : ∀ z : ℚ, roundQ f z = z → 2 ^ k ≤ z → ∃ m : ℤ, z = m * (2 ^ (k - f.p) : ℚ) := by
    intro z hz hk
    obtain ⟨m, e, h, hm, -⟩ := roundQ_form f z
    rw [hz] at h
    have hle : k - f.p ≤ e := by
      have h3 : (2:ℚ) ^ k ≤ 2 ^ f.p * 2 ^ e := by
        refine hk.trans ?_
        rw [h]
        refine mul_le_mul_of_nonneg_right ?_ (by positivity)
        exact_mod_cast (le_abs_self m).trans hm
      rw [← zpow_natCast, ← zpow_add₀ (by norm_num), zpow_le_zpow_iff_right₀ (by norm_num)] at h3
      omega
    obtain ⟨n, hn⟩ := Int.eq_ofNat_of_zero_le (sub_nonneg.2 hle)
    refine ⟨m * 2 ^ n, ?_⟩
    rw [h]
    have : e = (k - f.p) + n := by omega
    rw [this, zpow_add₀ (by norm_num)]
    push_cast
    rw [zpow_natCast]; ring
  obtain ⟨m, hm⟩ := hexp x hx h1
  obtain ⟨n, hn⟩ := hexp y hy h2
  have hmn : m ≠ n := by rintro rfl; exact hne (hm.trans hn.symm)
  have e : (2:ℚ) ^ k * f.u = 2 ^ (k - f.p) := by
    unfold Fmt.u
    rw [zpow_sub₀ (by norm_num), zpow_natCast]; ring
  rw [e, hm, hn, ← sub_mul, abs_mul, abs_of_pos (by positivity : (0:ℚ) < 2 ^ (k - f.p))]
  have : (1:ℚ) ≤ |(m:ℚ) - n| := by
    have := Int.one_le_abs (sub_ne_zero.2 hmn)
    exact_mod_cast this
  calc (2:ℚ) ^ (k - (f.p:ℤ)) = 1 * 2 ^ (k - (f.p:ℤ)) := (one_mul _).symm
    _ ≤ _ := mul_le_mul_of_nonneg_right this (by positivity)

/-- below half the smallest subnormal there is only zero -/
theorem rep_zero {x : ℚ} (hx : roundQ f x = x) (h : |x| ≤ f.eta) : x = 0 := by
  obtain ⟨m, e, h1, -, he⟩ := roundQ_form f x
  rw [hx] at h1
  by_contra h0
  have hm : m ≠ 0 := by rintro rfl; exact h0 (by rw [h1]; simp)
  have : (1:ℚ) ≤ |(m:ℚ)| := by exact_mod_cast Int.one_le_abs hm
  rw [h1, abs_mul, abs_of_pos (by positivity : (0:ℚ) < 2 ^ e)] at h
  have h2 : (2:ℚ) ^ (f.emin - f.p) < 2 ^ e := zpow_lt_zpow_right₀ (by norm_num) (by omega)
  have h3 : (2:ℚ) ^ e ≤ |(m:ℚ)| * 2 ^ e := le_mul_of_one_le_left (by positivity) this
  unfold Fmt.eta at h
  linarith

end CS

import Verif.Lemmas.FPErr

/-!
# Nearest representable numbers, overflow threshold, commutativity
-/

namespace CS

theorem rne_nearest (q : ℚ) (n : ℤ) : |(rne q : ℚ) - q| ≤ |(n : ℚ) - q| := by
  by_cases h : n = rne q
  · rw [h]
  · have h1 : (1:ℚ) ≤ |(n:ℚ) - rne q| := by
      have : (1:ℤ) ≤ |n - rne q| := Int.one_le_abs (sub_ne_zero.2 h)
      exact_mod_cast this
    have h2 := rne_err q
    have h3 : |(n:ℚ) - rne q| ≤ |(n:ℚ) - q| + |(rne q : ℚ) - q| := by
      have := abs_sub_le (n:ℚ) q (rne q)
      rwa [abs_sub_comm q (rne q : ℚ)] at this
    linarith

theorem roundQ_nearest_multiple (f : Fmt) (q : ℚ) (n : ℤ) :
    |roundQ f q - q| ≤ |n * 2 ^ qexp f q - q| := by
  have h := rne_nearest (q / 2 ^ qexp f q) n
  have hp := two_zpow_pos (qexp f q)
  have e1 : roundQ f q - q = (rne (q / 2 ^ qexp f q) - q / 2 ^ qexp f q) * 2 ^ qexp f q := by
    unfold roundQ; field_simp
  have e2 : (n:ℚ) * 2 ^ qexp f q - q = (n - q / 2 ^ qexp f q) * 2 ^ qexp f q := by
    field_simp
  rw [e1, e2, abs_mul, abs_mul]
  exact mul_le_mul_of_nonneg_right h (abs_nonneg _)

/-- `roundQ` gives a nearest number of the grid (exponent range unbounded above). -/
theorem roundQ_nearest (f : Fmt) (q y : ℚ) (hy : roundQ f y = y) : |roundQ f q - q| ≤ |y - q| := by
  obtain ⟨m, e', hq, hm, he⟩ := roundQ_form f y
  rw [hy] at hq
  rcases le_or_gt (qexp f q) e' with h | h
  · obtain ⟨k, hk⟩ := Int.le.dest h
    have : y = ((m * 2 ^ k : ℤ) : ℚ) * 2 ^ qexp f q := by
      rw [hq, ← hk, zpow_add₀ (by norm_num), zpow_natCast]; push_cast; ring
    rw [this]
    exact roundQ_nearest_multiple f q _
  · by_cases hq0 : q = 0
    · rw [hq0, roundQ_zero]; simp
    -- `y` is below the binade of `q`
    have hE : qexp f q = Int.log 2 |q| - (f.p - 1) := by
      unfold qexp at h ⊢
      rcases le_total (Int.log 2 |q|) f.emin with hl | hl
      · rw [max_eq_right hl] at h; omega
      · rw [max_eq_left hl]
    have hL : (2:ℚ) ^ Int.log 2 |q| ≤ |q| := by
      have := Int.zpow_log_le_self (b := 2) (by norm_num) (abs_pos.2 hq0)
      exact_mod_cast this
    have hyL : |y| ≤ 2 ^ Int.log 2 |q| := by
      rw [hq, abs_mul, abs_of_pos (two_zpow_pos _)]
      have hm' : |(m:ℚ)| ≤ 2 ^ f.p := by exact_mod_cast hm
      calc |(m:ℚ)| * 2 ^ e' ≤ 2 ^ f.p * 2 ^ e' := mul_le_mul_of_nonneg_right hm' (two_zpow_pos _).le
        _ = 2 ^ ((f.p:ℤ) + e') := by rw [zpow_add₀ (by norm_num), zpow_natCast]
        _ ≤ 2 ^ Int.log 2 |q| := zpow_le_zpow_right₀ (by norm_num) (by omega)
    have hpow : (2:ℚ) ^ Int.log 2 |q| = ((2 ^ (f.p - 1) : ℤ) : ℚ) * 2 ^ qexp f q := by
      rw [hE]; push_cast
      rw [← zpow_natCast, ← zpow_add₀ (by norm_num)]
      congr 1
      have := f.hp
      push_cast [Nat.cast_sub (by omega : 1 ≤ f.p)]; ring
    have hd : |q| - 2 ^ Int.log 2 |q| ≤ |y - q| := by
      have := abs_sub_abs_le_abs_sub q y
      rw [abs_sub_comm] at this
      linarith
    refine le_trans ?_ hd
    rcases le_total 0 q with hs | hs
    · have := roundQ_nearest_multiple f q (2 ^ (f.p - 1))
      rw [← hpow, abs_sub_comm (2 ^ Int.log 2 |q| : ℚ), abs_of_nonneg (a := q - _)
        (by rw [abs_of_nonneg hs] at hL ⊢; linarith)] at this
      rwa [abs_of_nonneg hs] at this ⊢
    · have := roundQ_nearest_multiple f q (-2 ^ (f.p - 1))
      have e : ((-2 ^ (f.p - 1) : ℤ) : ℚ) * 2 ^ qexp f q = -2 ^ Int.log 2 |q| := by
        rw [hpow]; push_cast; ring
      rw [e] at this
      rw [abs_of_nonneg (a := -2 ^ Int.log 2 |q| - q)
        (by rw [abs_of_nonpos hs] at hL ⊢; linarith)] at this
      rw [abs_of_nonpos hs] at this ⊢
      linarith

/-- the largest finite number -/
def Fmt.maxFin (f : Fmt) : ℚ := (2 ^ f.p - 1) * 2 ^ ((f.emax : ℤ) - (f.p - 1))

/-- from here on results round to infinity: half a unit above the largest finite number -/
def Fmt.overflow (f : Fmt) : ℚ := (2 ^ (f.p + 1) - 1) * 2 ^ ((f.emax : ℤ) - f.p)

theorem Fmt.half_ulp (f : Fmt) : (2:ℚ) ^ ((f.emax : ℤ) - (f.p - 1)) = 2 * 2 ^ ((f.emax : ℤ) - f.p) := by
  rw [← zpow_one_add₀ (by norm_num)]; congr 1; ring

theorem Fmt.two_pow_emax (f : Fmt) : (2:ℚ) ^ (f.emax + 1) = 2 ^ (f.p + 1) * 2 ^ ((f.emax : ℤ) - f.p) := by
  rw [← zpow_natCast, ← zpow_natCast, ← zpow_add₀ (by norm_num)]; congr 1; push_cast; ring

theorem Fmt.maxFin_lt (f : Fmt) : f.maxFin < f.overflow ∧ f.overflow < 2 ^ (f.emax + 1) := by
  have h := two_zpow_pos ((f.emax : ℤ) - f.p)
  unfold Fmt.maxFin Fmt.overflow
  rw [f.half_ulp, f.two_pow_emax, pow_succ]
  constructor <;> nlinarith

theorem Fmt.maxFin_pos (f : Fmt) : 0 < f.maxFin := by
  unfold Fmt.maxFin
  have : (2:ℚ) ^ 2 ≤ 2 ^ f.p := pow_le_pow_right₀ (by norm_num) f.hp
  exact mul_pos (by linarith) (two_zpow_pos _)

theorem Fmt.isRep_maxFin (f : Fmt) : IsRep f f.maxFin := by
  refine ⟨?_, ?_⟩
  · have := roundQ_eq_self f (2 ^ f.p - 1) ((f.emax : ℤ) - (f.p - 1)) (by
      have : (1:ℤ) ≤ 2 ^ f.p := one_le_pow₀ (by norm_num)
      rw [abs_of_nonneg (by omega)]; omega) (by
      unfold Fmt.emin; have := f.hp; have := f.hpe; omega)
    unfold Fmt.maxFin
    push_cast at this
    exact this
  · rw [abs_of_pos f.maxFin_pos]
    exact lt_trans f.maxFin_lt.1 f.maxFin_lt.2

theorem roundQ_overflow (f : Fmt) : roundQ f f.overflow = 2 ^ (f.emax + 1) := by
  have hp := f.hp
  have hP : (2:ℚ) ^ 2 ≤ 2 ^ f.p := pow_le_pow_right₀ (by norm_num) f.hp
  have hb := two_zpow_pos ((f.emax : ℤ) - f.p)
  have hpos : 0 < f.overflow := lt_trans f.maxFin_pos f.maxFin_lt.1
  have hlog : Int.log 2 |f.overflow| = f.emax := by
    rw [abs_of_pos hpos]
    apply le_antisymm
    · have := (Int.lt_zpow_iff_log_lt (b := 2) (by norm_num) hpos (x := (f.emax : ℤ) + 1)).1 (by
        have := f.maxFin_lt.2
        rw [← zpow_natCast] at this
        exact_mod_cast this)
      omega
    · refine (Int.zpow_le_iff_le_log (b := 2) (by norm_num) hpos (x := (f.emax : ℤ))).1 ?_
      have e : (2:ℚ) ^ (f.emax : ℤ) = 2 ^ f.p * 2 ^ ((f.emax : ℤ) - f.p) := by
        rw [← zpow_natCast (2:ℚ) f.p, ← zpow_add₀ (by norm_num)]; congr 1; ring
      have : (2:ℚ) ^ (f.emax : ℤ) ≤ f.overflow := by
        rw [e]
        unfold Fmt.overflow
        rw [pow_succ]
        nlinarith
      exact_mod_cast this
  have he : qexp f f.overflow = (f.emax : ℤ) - (f.p - 1) := by
    unfold qexp
    rw [hlog, max_eq_left (by unfold Fmt.emin; have := f.hpe; omega)]
  have hdiv : f.overflow / 2 ^ ((f.emax : ℤ) - (f.p - 1)) = 2 ^ f.p - 1 / 2 := by
    rw [f.half_ulp]
    unfold Fmt.overflow
    rw [pow_succ]
    field_simp
  have hfl : ⌊(2:ℚ) ^ f.p - 1 / 2⌋ = 2 ^ f.p - 1 := by
    rw [Int.floor_eq_iff]
    push_cast
    constructor <;> linarith
  have hr : rne ((2:ℚ) ^ f.p - 1 / 2) = 2 ^ f.p := by
    have hd : (2:ℚ) ^ f.p - 1 / 2 - ((2 ^ f.p - 1 : ℤ) : ℚ) = 1 / 2 := by push_cast; ring
    unfold rne
    rw [hfl, hd, if_neg (lt_irrefl _), if_neg (lt_irrefl _), if_neg]
    · ring
    · obtain ⟨k, hk⟩ := Nat.exists_eq_add_of_le hp
      rw [hk, pow_add]
      omega
  unfold roundQ
  rw [he, hdiv, hr, f.half_ulp, f.two_pow_emax, pow_succ]
  push_cast
  ring

/-- exactly the numbers below the threshold round to a finite number -/
theorem roundQ_finite_iff (f : Fmt) (q : ℚ) : |roundQ f q| < 2 ^ (f.emax + 1) ↔ |q| < f.overflow := by
  wlog hq : 0 ≤ q generalizing q
  · have := this (-q) (by linarith)
    rwa [roundQ_neg, abs_neg, abs_neg] at this
  rw [abs_of_nonneg hq, abs_of_nonneg (roundQ_nonneg f hq)]
  constructor
  · intro h
    by_contra hc
    have := roundQ_mono f (not_lt.1 hc)
    rw [roundQ_overflow] at this
    linarith
  · intro h
    by_contra hc
    push Not at hc
    rcases le_total q f.maxFin with hle | hle
    · have := roundQ_mono f hle
      rw [f.isRep_maxFin.1] at this
      have := lt_trans f.maxFin_lt.1 f.maxFin_lt.2
      linarith
    · have h1 := roundQ_nearest f q f.maxFin f.isRep_maxFin.1
      have h2 := f.maxFin_lt.2
      rw [abs_of_nonneg (by linarith), abs_of_nonpos (by linarith)] at h1
      have hb := two_zpow_pos ((f.emax : ℤ) - f.p)
      have e1 : f.overflow = f.maxFin + 2 ^ ((f.emax : ℤ) - f.p) := by
        unfold Fmt.overflow Fmt.maxFin; rw [f.half_ulp, pow_succ]; ring
      have e2 : (2:ℚ) ^ (f.emax + 1) = f.maxFin + 2 * 2 ^ ((f.emax : ℤ) - f.p) := by
        rw [f.two_pow_emax]; unfold Fmt.maxFin; rw [f.half_ulp, pow_succ]; ring
      linarith

/-- every finite number lies within the largest finite ones -/
theorem abs_le_maxFin {f : Fmt} {q : ℚ} (h : IsRep f q) : |q| ≤ f.maxFin := by
  by_contra hc
  push Not at hc
  have h1 := (roundQ_finite_iff f q).1 (by rw [h.1]; exact h.2)
  -- between the largest finite number and the threshold nothing is representable
  wlog hq : 0 ≤ q generalizing q
  · exact this (q := -q) (FP.isRep_neg h) (by rwa [abs_neg]) (by rwa [abs_neg]) (by linarith)
  rw [abs_of_nonneg hq] at hc h1
  have h2 := roundQ_nearest f q f.maxFin f.isRep_maxFin.1
  obtain ⟨m, e, hm, hmb, -⟩ := roundQ_form f q
  rw [h.1] at hm
  have hb := two_zpow_pos ((f.emax : ℤ) - f.p)
  have h3 := lt_trans h1 f.maxFin_lt.2
  -- exponent of `q` is at least the top one
  have hm0 : 0 ≤ (m:ℚ) := by
    by_contra hcc
    push Not at hcc
    have := mul_neg_of_neg_of_pos hcc (two_zpow_pos e)
    rw [← hm] at this; linarith
  have hm0' : (0:ℤ) ≤ m := by exact_mod_cast hm0
  rw [abs_of_nonneg hm0'] at hmb
  have hmb' : (m:ℚ) ≤ 2 ^ f.p := by exact_mod_cast hmb
  rcases le_or_gt ((f.emax : ℤ) - (f.p - 1)) e with he | he
  · obtain ⟨k, hk⟩ := Int.le.dest he
    have hq' : q = ((m * 2 ^ k : ℤ) : ℚ) * 2 ^ ((f.emax : ℤ) - (f.p - 1)) := by
      rw [hm, ← hk, zpow_add₀ (by norm_num), zpow_natCast]; push_cast; ring
    have hp2 := two_zpow_pos ((f.emax : ℤ) - (f.p - 1))
    have l1 : (2:ℚ) ^ f.p - 1 < ((m * 2 ^ k : ℤ) : ℚ) := by
      rw [hq'] at hc; unfold Fmt.maxFin at hc
      exact lt_of_mul_lt_mul_right hc hp2.le
    have l2 : ((m * 2 ^ k : ℤ) : ℚ) < 2 ^ f.p := by
      have e2 : (2:ℚ) ^ (f.emax + 1) = 2 ^ f.p * 2 ^ ((f.emax : ℤ) - (f.p - 1)) := by
        rw [f.two_pow_emax, f.half_ulp, pow_succ]; ring
      rw [hq', e2] at h3
      exact lt_of_mul_lt_mul_right h3 hp2.le
    have l1' : (2:ℤ) ^ f.p - 1 < m * 2 ^ k := by exact_mod_cast l1
    have l2' : m * 2 ^ k < (2:ℤ) ^ f.p := by exact_mod_cast l2
    omega
  · -- a smaller exponent gives at most half the range
    have : q ≤ 2 ^ f.p * 2 ^ ((f.emax : ℤ) - f.p) := by
      rw [hm]
      refine mul_le_mul hmb' (zpow_le_zpow_right₀ (by norm_num) (by omega)) (two_zpow_pos _).le (by positivity)
    unfold Fmt.maxFin at hc
    rw [f.half_ulp] at hc
    have hP : (2:ℚ) ^ 2 ≤ 2 ^ f.p := pow_le_pow_right₀ (by norm_num) f.hp
    nlinarith

namespace FP
variable {f : Fmt}

theorem inf_of_not_finite {a : FP f} (h : a.isFinite = false) (hn : a.isNaN = false) :
    a = infOf a.sgn := by
  cases a <;> simp_all [isFinite, isNaN, infOf, sgn]

theorem add_comm' (a b : FP f) : a + b = b + a := by
  show add a b = add b a
  cases a <;> cases b <;> simp [add, isNaN, isFinite, sgn, val, add_comm, Bool.and_comm]

theorem mul_comm' (a b : FP f) : a * b = b * a := by
  show mul a b = mul b a
  cases a <;> cases b <;>
    simp [mul, isFinite, sgn, val, mul_comm, Bool.xor_comm, Bool.or_comm]

theorem neg_neg' (a : FP f) : -(-a) = a := by
  show neg (neg a) = a
  cases a with
  | fin q h =>
    by_cases h0 : q = 0
    · subst h0; simp [neg]
    · simp [neg, h0]
  | _ => simp [neg]

end FP
end CS

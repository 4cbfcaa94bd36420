import Mathlib.Data.Int.Log
import Mathlib.Algebra.Order.Floor.Ring
import Mathlib.Data.Rat.Floor
import Mathlib.Tactic.Linarith
import Mathlib.Tactic.Ring
import Mathlib.Tactic.FieldSimp
import Mathlib.Tactic.Positivity

/-!
# Round-to-nearest-even on the rationals

`roundQ f q` is the IEEE-754 rounding of the exact rational `q` to the binary format `f`
with unbounded exponent above (overflow is treated in `FP.lean`).
-/

namespace CS

/-- A binary interchange format: precision `p` (with the hidden bit) and maximal exponent. -/
structure Fmt where
  p : ℕ
  emax : ℕ
  hp : 2 ≤ p
  hpe : p ≤ emax

/-- IEEE binary32 -/
def Fmt.b32 : Fmt := ⟨24, 127, by norm_num, by norm_num⟩
/-- IEEE binary64 -/
def Fmt.b64 : Fmt := ⟨53, 1023, by norm_num, by norm_num⟩

/-- smallest normal exponent -/
def Fmt.emin (f : Fmt) : ℤ := 1 - f.emax

/-- round to nearest integer, ties to even -/
def rne (q : ℚ) : ℤ :=
  if q - ⌊q⌋ < 1/2 then ⌊q⌋
  else if 1/2 < q - ⌊q⌋ then ⌊q⌋ + 1
  else if ⌊q⌋ % 2 = 0 then ⌊q⌋ else ⌊q⌋ + 1

/-- exponent of the unit in the last place of the binade (or subnormal range) of `q` -/
def qexp (f : Fmt) (q : ℚ) : ℤ := max (Int.log 2 |q|) f.emin - (f.p - 1)

/-- round a rational to the format's grid, ties to even -/
def roundQ (f : Fmt) (q : ℚ) : ℚ := rne (q / 2 ^ qexp f q) * 2 ^ qexp f q

theorem rne_spec (q : ℚ) : rne q = ⌊q⌋ ∨ rne q = ⌊q⌋ + 1 := by
  unfold rne; split_ifs <;> simp

theorem rne_int (n : ℤ) : rne (n : ℚ) = n := by
  simp [rne]

theorem rne_err (q : ℚ) : |(rne q : ℚ) - q| ≤ 1/2 := by
  have h1 := Int.floor_le q
  have h2 := Int.lt_floor_add_one q
  unfold rne
  split_ifs <;> rw [abs_le] <;> push_cast <;> constructor <;> linarith

theorem rne_le_of_le_int {q : ℚ} {n : ℤ} (h : q ≤ n) : rne q ≤ n := by
  by_contra hc
  have hc : n + 1 ≤ rne q := by omega
  have h1 := Int.floor_le q
  have h2 := Int.lt_floor_add_one q
  have h3 : ⌊q⌋ ≤ n := by
    have : ((⌊q⌋ : ℤ) : ℚ) ≤ n := le_trans h1 h
    exact_mod_cast this
  rcases rne_spec q with h | h
  · omega
  · have h4 : ⌊q⌋ = n := by omega
    have h5 : q = n := le_antisymm (by assumption) (by rw [← h4]; exact h1)
    rw [h5, rne_int] at hc
    omega

theorem le_rne_of_int_le {q : ℚ} {n : ℤ} (h : (n : ℚ) ≤ q) : n ≤ rne q := by
  have : n ≤ ⌊q⌋ := Int.le_floor.mpr h
  rcases rne_spec q with h | h <;> omega

theorem rne_mono {a b : ℚ} (h : a ≤ b) : rne a ≤ rne b := by
  have hf : ⌊a⌋ ≤ ⌊b⌋ := Int.floor_mono h
  rcases lt_or_eq_of_le hf with hlt | heq
  · have h1 := rne_spec a
    have h2 := rne_spec b
    omega
  · unfold rne
    rw [heq]
    split_ifs <;> first | omega | (exfalso; linarith)

theorem rne_neg (q : ℚ) : rne (-q) = - rne q := by
  by_cases hz : q = ⌊q⌋
  · rw [hz, show (-((⌊q⌋:ℤ):ℚ)) = ((-⌊q⌋ : ℤ) : ℚ) by push_cast; ring, rne_int, rne_int]
  · have h1 : (⌊q⌋ : ℚ) < q := lt_of_le_of_ne (Int.floor_le q) (Ne.symm hz)
    have h2 := Int.lt_floor_add_one q
    have hfl : ⌊-q⌋ = -⌊q⌋ - 1 := by
      rw [Int.floor_eq_iff]
      push_cast
      constructor <;> linarith
    unfold rne
    rw [hfl]
    push_cast
    split_ifs <;> first | omega | (exfalso; linarith)

theorem two_zpow_pos (e : ℤ) : (0:ℚ) < 2 ^ e := zpow_pos (by norm_num) e

theorem qexp_neg (f : Fmt) (q : ℚ) : qexp f (-q) = qexp f q := by simp [qexp]

theorem roundQ_neg (f : Fmt) (q : ℚ) : roundQ f (-q) = - roundQ f q := by
  unfold roundQ
  rw [qexp_neg, neg_div, rne_neg]
  push_cast
  ring

theorem roundQ_zero (f : Fmt) : roundQ f 0 = 0 := by
  have := rne_int 0
  simp [roundQ] at *
  left; simpa using this

theorem qexp_ge (f : Fmt) (q : ℚ) : f.emin - (f.p - 1) ≤ qexp f q := by
  unfold qexp; have := le_max_right (Int.log 2 |q|) f.emin; omega

theorem abs_lt_qexp (f : Fmt) {q : ℚ} : |q| < 2 ^ (qexp f q + f.p) := by
  have h := Int.lt_zpow_succ_log_self (b := 2) (by norm_num) |q|
  refine lt_of_lt_of_le h ?_
  push_cast
  apply zpow_le_zpow_right₀ (by norm_num)
  unfold qexp
  have := le_max_left (Int.log 2 |q|) f.emin
  omega

/-- every `m * 2^e` with `|m| ≤ 2^p` and `e` at least the subnormal exponent is a fixed point -/
theorem roundQ_eq_self (f : Fmt) (m : ℤ) (e : ℤ) (hm : |m| ≤ 2 ^ f.p)
    (he : f.emin - (f.p - 1) ≤ e) : roundQ f (m * 2 ^ e) = m * 2 ^ e := by
  set q : ℚ := m * 2 ^ e with hq
  by_cases hqz : q = 0
  · rw [hqz, roundQ_zero]
  suffices h : ∃ n : ℤ, q = n * 2 ^ qexp f q by
    obtain ⟨n, hn⟩ := h
    have : q / 2 ^ qexp f q = n := by
      rw [div_eq_iff (two_zpow_pos _).ne']; exact hn
    unfold roundQ
    rw [this, rne_int, ← hn]
  by_cases hle : qexp f q ≤ e
  · refine ⟨m * 2 ^ (e - qexp f q).toNat, ?_⟩
    have h1 : ((2:ℚ) ^ (e - qexp f q).toNat) = 2 ^ (e - qexp f q) := by
      rw [← zpow_natCast, Int.toNat_of_nonneg (by omega)]
    push_cast
    rw [h1, mul_assoc, ← zpow_add₀ (by norm_num)]
    rw [hq]; congr 2; omega
  · push Not at hle
    have hlog : e + f.p ≤ Int.log 2 |q| := by
      unfold qexp at hle
      rcases le_total (Int.log 2 |q|) f.emin with h | h
      · rw [max_eq_right h] at hle; omega
      · rw [max_eq_left h] at hle; omega
    have hq0 : 0 < |q| := abs_pos.mpr hqz
    have hb : (2:ℚ) ^ (e + f.p) ≤ |q| := by
      refine le_trans ?_ (Int.zpow_log_le_self (b := 2) (by norm_num) hq0)
      push_cast
      exact zpow_le_zpow_right₀ (by norm_num) hlog
    have habs : |q| = |m| * 2 ^ e := by
      rw [hq, abs_mul, abs_of_pos (two_zpow_pos e)]
      push_cast; rfl
    have hm2 : |m| = 2 ^ f.p := by
      apply le_antisymm hm
      have : (2:ℚ) ^ (f.p : ℤ) * 2 ^ e ≤ |m| * 2 ^ e := by
        rw [← zpow_add₀ (by norm_num), ← habs, add_comm]; exact hb
      have := le_of_mul_le_mul_right this (two_zpow_pos e)
      rw [zpow_natCast] at this
      exact_mod_cast this
    have hqabs : |q| = 2 ^ (e + f.p) := by
      rw [habs, hm2, zpow_add₀ (by norm_num), mul_comm]; push_cast; rw [zpow_natCast]
    have hlog2 : Int.log 2 |q| = e + f.p := by
      rw [hqabs]; exact_mod_cast Int.log_zpow (R := ℚ) (b := 2) (by norm_num) (e + f.p)
    have hqe : qexp f q = e + 1 := by
      unfold qexp; rw [hlog2, max_eq_left]
      · omega
      · have := f.hp; omega
    have hp := f.hp
    have key : (2:ℚ) ^ (e + f.p) = 2 ^ (f.p - 1) * 2 ^ (e + 1) := by
      rw [← zpow_natCast, ← zpow_add₀ (by norm_num)]
      congr 1; omega
    rw [hqe]
    rcases abs_choice q with h | h
    · refine ⟨2 ^ (f.p - 1), ?_⟩
      push_cast
      rw [← key, ← hqabs, h]
    · refine ⟨-2 ^ (f.p - 1), ?_⟩
      push_cast
      rw [neg_mul, ← key, ← hqabs, h, neg_neg]

/-- the result of a rounding has a short significand -/
theorem roundQ_form (f : Fmt) (q : ℚ) :
    ∃ m e : ℤ, roundQ f q = m * 2 ^ e ∧ |m| ≤ 2 ^ f.p ∧ f.emin - (f.p - 1) ≤ e := by
  refine ⟨_, _, rfl, ?_, qexp_ge f q⟩
  have h := abs_lt_qexp f (q := q)
  have hb : |q / 2 ^ qexp f q| ≤ 2 ^ f.p := by
    rw [abs_div, abs_of_pos (two_zpow_pos _), div_le_iff₀ (two_zpow_pos _)]
    refine le_of_lt (lt_of_lt_of_eq h ?_)
    rw [add_comm, zpow_add₀ (by norm_num), zpow_natCast]
  rw [abs_le] at hb ⊢
  constructor
  · have := le_rne_of_int_le (q := q / 2 ^ qexp f q) (n := -2 ^ f.p) (by push_cast; exact hb.1)
    exact this
  · exact rne_le_of_le_int (by push_cast; exact hb.2)

theorem roundQ_idem (f : Fmt) (q : ℚ) : roundQ f (roundQ f q) = roundQ f q := by
  obtain ⟨m, e, h, hm, he⟩ := roundQ_form f q
  rw [h]; exact roundQ_eq_self f m e hm he

theorem roundQ_nonneg (f : Fmt) {q : ℚ} (h : 0 ≤ q) : 0 ≤ roundQ f q := by
  unfold roundQ
  apply mul_nonneg _ (two_zpow_pos _).le
  have : (0:ℤ) ≤ rne (q / 2 ^ qexp f q) :=
    le_rne_of_int_le (by push_cast; exact div_nonneg h (two_zpow_pos _).le)
  exact_mod_cast this

theorem roundQ_mono_pos (f : Fmt) {a b : ℚ} (ha : 0 < a) (hab : a ≤ b) :
    roundQ f a ≤ roundQ f b := by
  have hb : 0 < b := lt_of_lt_of_le ha hab
  have hlog : Int.log 2 a ≤ Int.log 2 b := Int.log_mono_right ha hab
  have hE : qexp f a ≤ qexp f b := by
    unfold qexp; rw [abs_of_pos ha, abs_of_pos hb]
    have := max_le_max_right f.emin hlog
    omega
  rcases lt_or_eq_of_le hE with hlt | heq
  · -- different binades: a power of two lies between
    have hlb : f.emin < Int.log 2 b ∧ Int.log 2 a < Int.log 2 b := by
      unfold qexp at hlt; rw [abs_of_pos ha, abs_of_pos hb] at hlt
      omega
    have hEb : qexp f b = Int.log 2 b - (f.p - 1) := by
      unfold qexp; rw [abs_of_pos hb, max_eq_left hlb.1.le]
    have hp := f.hp
    have h1 : roundQ f a ≤ 2 ^ Int.log 2 b := by
      unfold roundQ
      have hle : qexp f a ≤ Int.log 2 b := by omega
      have h2 : a / 2 ^ qexp f a ≤ ((2 ^ (Int.log 2 b - qexp f a).toNat : ℤ) : ℚ) := by
        push_cast
        rw [← zpow_natCast, Int.toNat_of_nonneg (by omega), div_le_iff₀ (two_zpow_pos _),
          ← zpow_add₀ (by norm_num)]
        refine le_trans (Int.lt_zpow_succ_log_self (b := 2) (by norm_num) a).le ?_
        push_cast
        apply zpow_le_zpow_right₀ (by norm_num); omega
      have h3 := rne_le_of_le_int h2
      have h4 : (rne (a / 2 ^ qexp f a) : ℚ) ≤ 2 ^ (Int.log 2 b - qexp f a) := by
        have : (rne (a / 2 ^ qexp f a) : ℚ) ≤ ((2 ^ (Int.log 2 b - qexp f a).toNat : ℤ) : ℚ) := by
          exact_mod_cast h3
        push_cast at this
        rwa [← zpow_natCast, Int.toNat_of_nonneg (by omega)] at this
      calc _ ≤ 2 ^ (Int.log 2 b - qexp f a) * 2 ^ qexp f a :=
            mul_le_mul_of_nonneg_right h4 (two_zpow_pos _).le
        _ = _ := by rw [← zpow_add₀ (by norm_num)]; congr 1; omega
    have h5 : (2:ℚ) ^ Int.log 2 b ≤ roundQ f b := by
      unfold roundQ
      have h2 : ((2 ^ (f.p - 1) : ℤ) : ℚ) ≤ b / 2 ^ qexp f b := by
        push_cast
        rw [le_div_iff₀ (two_zpow_pos _), ← zpow_natCast, ← zpow_add₀ (by norm_num)]
        refine le_trans ?_ (Int.zpow_log_le_self (b := 2) (by norm_num) hb)
        push_cast
        apply zpow_le_zpow_right₀ (by norm_num); omega
      have h3 := le_rne_of_int_le h2
      have h4 : (2:ℚ) ^ (f.p - 1) ≤ rne (b / 2 ^ qexp f b) := by exact_mod_cast h3
      calc (2:ℚ) ^ Int.log 2 b = 2 ^ (f.p - 1) * 2 ^ qexp f b := by
            rw [← zpow_natCast, ← zpow_add₀ (by norm_num)]; congr 1; omega
        _ ≤ _ := mul_le_mul_of_nonneg_right h4 (two_zpow_pos _).le
    exact le_trans h1 h5
  · unfold roundQ
    rw [heq]
    apply mul_le_mul_of_nonneg_right _ (two_zpow_pos _).le
    have : rne (a / 2 ^ qexp f b) ≤ rne (b / 2 ^ qexp f b) :=
      rne_mono (div_le_div_of_nonneg_right hab (two_zpow_pos _).le)
    exact_mod_cast this

/-- rounding is monotone -/
theorem roundQ_mono (f : Fmt) {a b : ℚ} (hab : a ≤ b) : roundQ f a ≤ roundQ f b := by
  rcases lt_trichotomy a 0 with ha | ha | ha
  · rcases lt_or_ge b 0 with hb | hb
    · have := roundQ_mono_pos f (a := -b) (b := -a) (by linarith) (by linarith)
      rw [roundQ_neg, roundQ_neg] at this; linarith
    · have h1 := roundQ_nonneg f (q := -a) (by linarith)
      rw [roundQ_neg] at h1
      have := roundQ_nonneg f hb; linarith
  · subst ha; rw [roundQ_zero]; exact roundQ_nonneg f hab
  · exact roundQ_mono_pos f ha hab

/-- half-ulp error bound -/
theorem roundQ_err (f : Fmt) (q : ℚ) : |roundQ f q - q| ≤ 2 ^ qexp f q / 2 := by
  have h := rne_err (q / 2 ^ qexp f q)
  have hp := two_zpow_pos (qexp f q)
  have : roundQ f q - q = (rne (q / 2 ^ qexp f q) - q / 2 ^ qexp f q) * 2 ^ qexp f q := by
    unfold roundQ; field_simp
  rw [this, abs_mul, abs_of_pos hp]
  nlinarith

/-- relative error `2^-p` in the normal range -/
theorem roundQ_relerr (f : Fmt) {q : ℚ} (hq : 2 ^ f.emin ≤ |q|) :
    |roundQ f q - q| ≤ |q| / 2 ^ f.p := by
  refine le_trans (roundQ_err f q) ?_
  have hq0 : 0 < |q| := lt_of_lt_of_le (two_zpow_pos _) hq
  have hlog : f.emin ≤ Int.log 2 |q| := by
    have := Int.log_mono_right (b := 2) (two_zpow_pos _) hq
    have h2 : Int.log 2 ((2:ℚ) ^ f.emin) = f.emin := by
      exact_mod_cast Int.log_zpow (R := ℚ) (b := 2) (by norm_num) f.emin
    omega
  have hE : qexp f q = Int.log 2 |q| - (f.p - 1) := by
    unfold qexp; rw [max_eq_left hlog]
  rw [hE, le_div_iff₀ (by positivity), div_mul_eq_mul_div, div_le_iff₀ (by norm_num)]
  have : (2:ℚ) ^ (Int.log 2 |q| - ((f.p:ℤ) - 1)) * 2 ^ f.p = 2 ^ Int.log 2 |q| * 2 := by
    rw [← zpow_natCast, ← zpow_add₀ (by norm_num)]
    rw [show Int.log 2 |q| - ((f.p:ℤ) - 1) + f.p = Int.log 2 |q| + 1 by ring,
      zpow_add₀ (by norm_num)]; norm_num
  rw [this]
  have := Int.zpow_log_le_self (b := 2) (R := ℚ) (by norm_num) hq0
  push_cast at this
  linarith

/-- integers up to `2^p` are exact -/
theorem roundQ_int (f : Fmt) (m : ℤ) (hm : |m| ≤ 2 ^ f.p) : roundQ f m = m := by
  have := roundQ_eq_self f m 0 hm (by have := f.hpe; have := f.hp; unfold Fmt.emin; omega)
  simpa using this

end CS

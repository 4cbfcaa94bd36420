import Verif.Lemmas.FPOrder
import Verif.Model.Color
import Mathlib.Tactic.Linarith
import Mathlib.Tactic.Positivity
import Mathlib.Tactic.NormNum
import Mathlib.Tactic.FieldSimp
import Mathlib.Tactic.Ring

/-! # Helper lemmas for clamping and quantisation in IEEE arithmetic -/

namespace CS
open Flt

namespace FP
variable {f : Fmt}

theorem two_pow_p_lt (f : Fmt) : (2 : ℚ) ^ f.p < 2 ^ (f.emax + 1) := by
  apply pow_lt_pow_right₀ (by norm_num)
  have := f.hpe
  omega

theorem isRep_nat (n : ℕ) (hn : n ≤ 2 ^ f.p) : IsRep f (n : ℚ) := by
  have h1 : roundQ f ((n : ℤ) : ℚ) = ((n : ℤ) : ℚ) := roundQ_int f n (by
    rw [abs_of_nonneg (by positivity)]; exact_mod_cast hn)
  refine ⟨by simpa using h1, ?_⟩
  rw [abs_of_nonneg (by positivity)]
  exact lt_of_le_of_lt (by exact_mod_cast hn) (two_pow_p_lt f)

theorem lit_of_isRep {q : ℚ} (h64 : IsRep Fmt.b64 q) (h : IsRep f q) (h0 : q ≠ 0) :
    (lit q : FP f) = fin q h := by
  unfold lit
  rw [ofQ_isRep h64 h0]
  show ofQ f false q = _
  exact ofQ_isRep h h0 _

theorem lit_zero : (lit 0 : FP f) = fin 0 (isRep_zero f) := by
  unfold lit
  rw [ofQ_zero]
  show cast (zeroOf false) = _
  simp [zeroOf, cast, ofQ_zero]

theorem lit_nat (n : ℕ) (hn : n ≤ 2 ^ f.p) (hn' : n ≤ 2 ^ 53) :
    (lit (n : ℚ) : FP f) = fin (n : ℚ) (isRep_nat n hn) := by
  by_cases h0 : n = 0
  · subst h0
    have := lit_zero (f := f)
    simpa using this
  · exact lit_of_isRep (isRep_nat (f := Fmt.b64) n (by simpa [Fmt.b64] using hn')) _
      (by exact_mod_cast h0)

theorem lit_one : (lit 1 : FP f) = fin 1 (by simpa using isRep_nat (f := f) 1 Nat.one_le_two_pow) := by
  have := lit_nat (f := f) 1 Nat.one_le_two_pow (by norm_num)
  simpa using this

theorem roundHalfAway_nonneg {q : ℚ} (h : 0 ≤ q) : roundHalfAway q = ⌊q + 1/2⌋ := by
  simp [roundHalfAway, h]

theorem roundHalfAway_err {q : ℚ} (h : 0 ≤ q) : |(roundHalfAway q : ℚ) - q| ≤ 1/2 := by
  rw [roundHalfAway_nonneg h, abs_le]
  have h1 := Int.floor_le (q + 1/2)
  have h2 := Int.lt_floor_add_one (q + 1/2)
  constructor <;> linarith

theorem mul_finite {a b : FP f} (ha : a.isFinite = true) (hb : b.isFinite = true) :
    a * b = ofQ f (a.sgn ^^ b.sgn) (a.val * b.val) := by
  show mul a b = _
  have h1 := isNaN_of_finite ha
  have h2 := isNaN_of_finite hb
  cases a <;> cases b <;> simp_all [mul, isFinite, isNaN]

theorem asUInt_finite {a : FP f} (ha : a.isFinite = true) (N : ℕ) :
    asUInt N a = Nat.min N ⌊a.val⌋.toNat := by
  cases a <;> simp_all [asUInt, isFinite, val]

theorem round_finite {a : FP f} (ha : a.isFinite = true) (N : ℕ) (hN : N ≤ 2 ^ f.p)
    (h0 : 0 ≤ a.val) (h1 : a.val ≤ N) :
    (round a).isFinite = true ∧ (round a).val = roundHalfAway a.val := by
  cases a with
  | nan => simp [isFinite] at ha
  | pinf => simp [isFinite] at ha
  | ninf => simp [isFinite] at ha
  | nzero => simp [round, isFinite, val, roundHalfAway]; norm_num
  | fin q h =>
    simp only [val] at h0 h1 ⊢
    simp only [round]
    have hk0 : 0 ≤ roundHalfAway q := by
      rw [roundHalfAway_nonneg h0]; exact Int.floor_nonneg.2 (by linarith)
    have hkN : roundHalfAway q ≤ N := by
      rw [roundHalfAway_nonneg h0]
      have : ⌊q + 1/2⌋ < (N : ℤ) + 1 := by
        rw [Int.floor_lt]; push_cast; linarith
      omega
    have hrep : IsRep f (roundHalfAway q : ℚ) := by
      obtain ⟨k, hk⟩ := Int.eq_ofNat_of_zero_le hk0
      rw [hk]
      have hk' : k ≤ N := by omega
      simpa using isRep_nat (f := f) k (le_trans hk' hN)
    have := ofQ_finite (f := f) (decide (q < 0)) (q := (roundHalfAway q : ℚ)) (by
      rw [hrep.1]; exact hrep.2)
    rw [hrep.1] at this
    exact this

/-- The exact code of the quantiser on a finite value in `[0,1]`. -/
theorem quant_core {y : FP f} (hy : y.isFinite = true) (h0 : 0 ≤ y.val) (h1 : y.val ≤ 1)
    (N : ℕ) (hN : N ≤ 2 ^ f.p) (hN' : N ≤ 2 ^ 53) :
    asUInt N (round (y * lit (N : ℚ))) = (roundHalfAway (roundQ f (y.val * N))).toNat ∧
      0 ≤ roundQ f (y.val * N) ∧ roundQ f (y.val * N) ≤ N ∧
      (roundHalfAway (roundQ f (y.val * N))).toNat ≤ N := by
  have hrep := isRep_nat (f := f) N hN
  have hle : y.val * N ≤ N := by
    have : (0:ℚ) ≤ N := by positivity
    nlinarith
  have hge : 0 ≤ y.val * N := by positivity
  have hr0 : 0 ≤ roundQ f (y.val * N) := roundQ_nonneg f hge
  have hr1 : roundQ f (y.val * N) ≤ N := by
    calc _ ≤ roundQ f (N : ℚ) := roundQ_mono f hle
      _ = N := hrep.1
  have hk : (roundHalfAway (roundQ f (y.val * N))) ≤ N := by
    rw [roundHalfAway_nonneg hr0]
    have : ⌊roundQ f (y.val * N) + 1/2⌋ < (N : ℤ) + 1 := by
      rw [Int.floor_lt]; push_cast; linarith
    omega
  refine ⟨?_, hr0, hr1, by omega⟩
  rw [lit_nat N hN hN', mul_finite hy rfl, val_fin]
  obtain ⟨hf, hv⟩ := ofQ_finite_of_le (f := f) (y.sgn ^^ sgn (fin (N:ℚ) hrep)) hrep
    (q := y.val * N) (by rw [abs_of_nonneg hge]; exact hle)
  obtain ⟨hf2, hv2⟩ := round_finite hf N hN (by rw [hv]; exact hr0) (by rw [hv]; exact hr1)
  rw [asUInt_finite hf2, hv2, hv, Int.floor_intCast]
  apply Nat.min_eq_right
  omega

end FP

section
variable {f : Fmt} [Libm f]

theorem FP.flt_lit (q : ℚ) : (Flt.lit q : FP f) = FP.lit q := rfl
theorem FP.flt_lt (a b : FP f) : Flt.lt a b = FP.lt a b := rfl
theorem FP.flt_le (a b : FP f) : Flt.le a b = FP.le a b := rfl

/-- clamping to `[0,1]` of a datum that is not a NaN -/
theorem FP.clamp01 (x : FP f) (h : x.isNaN = false) :
    (clamp x (Flt.lit 0) (Flt.lit 1)).isFinite = true ∧
    0 ≤ (clamp x (Flt.lit 0) (Flt.lit 1)).val ∧ (clamp x (Flt.lit 0) (Flt.lit 1)).val ≤ 1 := by
  unfold clamp
  have e0 : (Flt.lit 0 : FP f) = FP.fin 0 (FP.isRep_zero f) := FP.lit_zero
  have e1 : (Flt.lit 1 : FP f) = _ := FP.lit_one
  rw [e0, e1]
  simp only [FP.flt_lt, Flt.gt]
  cases x with
  | nan => simp [FP.isNaN] at h
  | pinf => simp
  | ninf => simp
  | nzero => norm_num
  | fin q hq =>
    simp only [FP.lt_fin]
    by_cases h1 : q < 0
    · simp [h1]
    · by_cases h2 : 1 < q
      · simp [h1, h2]
      · simp [h1, h2]; constructor <;> linarith

theorem FP.flt_lit0 : (Flt.lit 0 : FP f) = FP.fin 0 (FP.isRep_zero f) := FP.lit_zero
theorem FP.flt_lit1 : (Flt.lit 1 : FP f) = FP.fin 1
    (by simpa using FP.isRep_nat (f := f) 1 Nat.one_le_two_pow) := FP.lit_one

theorem FP.clamp01_le0 (x : FP f) (h : Flt.le x (Flt.lit 0) = true) :
    (clamp x (Flt.lit 0) (Flt.lit 1)).val = 0 := by
  rw [FP.flt_lit0, FP.flt_le] at h
  unfold clamp
  rw [FP.flt_lit0, FP.flt_lit1]
  simp only [FP.flt_lt, Flt.gt]
  cases x with
  | nan => simp at h
  | pinf => simp [FP.le, FP.ext] at h; cases h
  | ninf => simp
  | nzero => norm_num
  | fin q hq =>
    rw [FP.le_fin, decide_eq_true_eq] at h
    simp only [FP.lt_fin]
    by_cases h1 : q < 0
    · simp [h1]
    · have : q = 0 := le_antisymm h (not_lt.1 h1)
      have h2 : ¬ (1 < q) := by linarith
      simp only [h1, h2, decide_false, Bool.false_eq_true, if_false, FP.val_fin]
      exact this

theorem FP.clamp01_ge1 (x : FP f) (h : Flt.le (Flt.lit 1) x = true) :
    (clamp x (Flt.lit 0) (Flt.lit 1)).val = 1 := by
  rw [FP.flt_lit1, FP.flt_le] at h
  unfold clamp
  rw [FP.flt_lit0, FP.flt_lit1]
  simp only [FP.flt_lt, Flt.gt]
  cases x with
  | nan => simp at h
  | pinf => simp
  | ninf => simp [FP.le, FP.ext] at h
  | nzero =>
    rw [FP.le_finite rfl rfl] at h
    norm_num at h
  | fin q hq =>
    rw [FP.le_fin, decide_eq_true_eq] at h
    simp only [FP.lt_fin]
    have h1 : ¬ q < 0 := by linarith
    by_cases h2 : 1 < q
    · simp [h1, h2]
    · simp only [h1, h2, decide_false, Bool.false_eq_true, if_false, FP.val_fin]
      linarith

theorem FP.clamp01_mid (x : FP f) (hx : x.isFinite = true) (h0 : 0 ≤ x.val) (h1 : x.val ≤ 1) :
    clamp x (Flt.lit 0) (Flt.lit 1) = x := by
  unfold clamp
  rw [FP.flt_lit0, FP.flt_lit1]
  simp only [FP.flt_lt, Flt.gt]
  simp only [FP.lt_finite hx (FP.isFinite_fin _ _), FP.lt_finite (FP.isFinite_fin _ _) hx]
  simp [not_lt.2 h0, not_lt.2 h1]

theorem FP.div_finite {a b : FP f} (ha : a.isFinite = true) (hb : b.isFinite = true)
    (h0 : b.val ≠ 0) : a / b = FP.ofQ f (a.sgn ^^ b.sgn) (a.val / b.val) := by
  show FP.div a b = _
  cases a <;> cases b <;> simp_all [FP.div, FP.isFinite]

/-- closed form of `quant8` on everything but NaN -/
theorem quant8_eq (x : FP f) (hp : 8 ≤ f.p) (hx : x.isNaN = false) :
    (quant8 x).toNat =
      (FP.roundHalfAway (roundQ f ((clamp x (Flt.lit 0) (Flt.lit 1)).val * 255))).toNat ∧
    0 ≤ roundQ f ((clamp x (Flt.lit 0) (Flt.lit 1)).val * 255) := by
  obtain ⟨h1, h2, h3⟩ := FP.clamp01 x hx
  have hN : 255 ≤ 2 ^ f.p := le_trans (by norm_num) (Nat.pow_le_pow_right (by norm_num) hp)
  obtain ⟨h4, h5, h6, h7⟩ := FP.quant_core h1 h2 h3 255 hN (by norm_num)
  simp only [Nat.cast_ofNat] at h4 h5 h6 h7
  refine ⟨?_, h5⟩
  show (UInt8.ofNat _).toNat = _
  rw [UInt8.toNat_ofNat', Nat.mod_eq_of_lt]
  · exact h4
  · exact lt_of_eq_of_lt h4 (by omega)

/-- closed form of `quant16` on everything but NaN -/
theorem quant16_eq (x : FP f) (hp : 16 ≤ f.p) (hx : x.isNaN = false) :
    (quant16 x).toNat =
      (FP.roundHalfAway (roundQ f ((clamp x (Flt.lit 0) (Flt.lit 1)).val * 65535))).toNat ∧
    0 ≤ roundQ f ((clamp x (Flt.lit 0) (Flt.lit 1)).val * 65535) := by
  obtain ⟨h1, h2, h3⟩ := FP.clamp01 x hx
  have hN : 65535 ≤ 2 ^ f.p := le_trans (by norm_num) (Nat.pow_le_pow_right (by norm_num) hp)
  obtain ⟨h4, h5, h6, h7⟩ := FP.quant_core h1 h2 h3 65535 hN (by norm_num)
  simp only [Nat.cast_ofNat] at h4 h5 h6 h7
  refine ⟨?_, h5⟩
  show (UInt16.ofNat _).toNat = _
  rw [UInt16.toNat_ofNat', Nat.mod_eq_of_lt]
  · exact h4
  · exact lt_of_eq_of_lt h4 (by omega)

theorem FP.roundHalfAway_mono {p q : ℚ} (hp : 0 ≤ p) (h : p ≤ q) :
    FP.roundHalfAway p ≤ FP.roundHalfAway q := by
  rw [roundHalfAway_nonneg hp, roundHalfAway_nonneg (hp.trans h)]
  exact Int.floor_le_floor (by linarith)

theorem FP.roundHalfAway_near {q : ℚ} {n : ℕ} (hq : 0 ≤ q) (h : |q - n| < 1/2) :
    (FP.roundHalfAway q).toNat = n := by
  rw [roundHalfAway_nonneg hq]
  rw [abs_lt] at h
  have : ⌊q + 1/2⌋ = (n : ℤ) := by
    rw [Int.floor_eq_iff]
    push_cast
    constructor <;> linarith
  omega

/-- exponent of the last place for values below `2^k` -/
theorem qexp_le (f : Fmt) {q : ℚ} {k : ℕ} (h : |q| < 2 ^ (k + 1)) : qexp f q ≤ k - (f.p - 1) := by
  unfold qexp
  have hem : f.emin ≤ k := by
    unfold Fmt.emin
    have := f.hp
    have := f.hpe
    omega
  have : Int.log 2 |q| ≤ k := by
    by_cases h0 : q = 0
    · simp [h0]
    · have := (Int.lt_zpow_iff_log_lt (b := 2) (by norm_num) (abs_pos.2 h0) (x := (k : ℤ) + 1)).1 (by
        exact_mod_cast h)
      omega
  omega

theorem roundQ_err_lt (f : Fmt) {q : ℚ} {k : ℕ} (h : |q| < 2 ^ (k + 1)) :
    |roundQ f q - q| ≤ 2 ^ ((k : ℤ) - f.p) := by
  refine (roundQ_err f q).trans ?_
  have h1 : (2:ℚ) ^ qexp f q ≤ 2 ^ ((k : ℤ) - (f.p - 1)) :=
    zpow_le_zpow_right₀ (by norm_num) (qexp_le f h)
  have h2 : (2:ℚ) ^ ((k : ℤ) - (f.p - 1)) = 2 ^ ((k : ℤ) - f.p) * 2 := by
    rw [show (k : ℤ) - (f.p - 1) = (k - f.p) + 1 by ring, zpow_add_one₀ (by norm_num)]
  rw [h2] at h1
  linarith

/-- the common core of the round-trip theorems: `round (round (n/N) * N)` is within 1/2 of `n` -/
theorem roundtrip_core (f : Fmt) (n N k : ℕ) (hn : n ≤ N) (hN0 : 0 < N) (hN : N < 2 ^ (k + 1))
    (hp : k + 3 ≤ f.p) :
    |roundQ f (roundQ f (n / N) * N) - n| < 1/2 := by
  have hNq : (0:ℚ) < N := by exact_mod_cast hN0
  have hnN : (n : ℚ) ≤ N := by exact_mod_cast hn
  have h01 : (0:ℚ) ≤ n / N := by positivity
  have h02 : (n : ℚ) / N ≤ 1 := by rw [div_le_one hNq]; exact hnN
  have e1 := roundQ_err_lt f (q := (n:ℚ)/N) (k := 0) (by rw [abs_of_nonneg h01]; norm_num; linarith)
  have r0 : 0 ≤ roundQ f (n/N) := roundQ_nonneg f h01
  have r1 : roundQ f (n/N) ≤ 1 := by
    have h1 : roundQ f 1 = 1 := by simpa using roundQ_int f 1 (by simpa using one_le_pow₀ (by norm_num : (1:ℤ) ≤ 2))
    rw [← h1]; exact roundQ_mono f h02
  have hN' : (N : ℚ) < 2 ^ (k + 1) := by exact_mod_cast hN
  have e2 := roundQ_err_lt f (q := roundQ f (n/N) * N) (k := k) (by
    rw [abs_of_nonneg (by positivity)]; nlinarith)
  have e3 : |roundQ f (n/N) * N - n| ≤ 2 ^ (-(f.p : ℤ)) * N := by
    have : roundQ f (n/N) * N - n = (roundQ f (n/N) - n/N) * N := by field_simp
    rw [this, abs_mul, abs_of_pos hNq]
    apply mul_le_mul_of_nonneg_right _ hNq.le
    simpa using e1
  have hz : (2:ℚ) ^ ((k:ℤ) - f.p) = 2 ^ k * 2 ^ (-(f.p:ℤ)) := by
    rw [sub_eq_add_neg, zpow_add₀ (by norm_num), zpow_natCast]
  have hpp : (2:ℚ) ^ (-(f.p:ℤ)) ≤ 2 ^ (-((k:ℤ) + 3)) :=
    zpow_le_zpow_right₀ (by norm_num) (by omega)
  have hk3 : (2:ℚ) ^ (-((k:ℤ) + 3)) * 2 ^ k = 1/8 := by
    rw [neg_add, zpow_add₀ (by norm_num), zpow_neg, zpow_natCast]
    field_simp
    norm_num
  have hpos : (0:ℚ) < 2 ^ (-(f.p:ℤ)) := two_zpow_pos _
  have hkpos : (0:ℚ) < 2 ^ k := by positivity
  rw [pow_succ] at hN'
  have a1 : (2:ℚ) ^ (-(f.p : ℤ)) * 2 ^ k ≤ 1/8 := by rw [← hk3]; exact mul_le_mul_of_nonneg_right hpp hkpos.le
  have a2 : (2:ℚ) ^ (-(f.p : ℤ)) * N < 2 ^ (-(f.p : ℤ)) * (2 ^ k * 2) :=
    mul_lt_mul_of_pos_left hN' hpos
  calc |roundQ f (roundQ f (n / N) * N) - n|
      = |(roundQ f (roundQ f (n / N) * N) - roundQ f (n/N) * N) + (roundQ f (n/N) * N - n)| := by
        congr 1; ring
    _ ≤ _ := abs_add_le _ _
    _ < 1/2 := by rw [hz] at e2; linarith

/-- the float of a code: finite, its value the rounded quotient -/
theorem unquant_val (n N : ℕ) (hn : n ≤ N) (hN0 : 0 < N) (hN : N ≤ 2 ^ f.p) (hN' : N ≤ 2 ^ 53) :
    let x : FP f := FP.ofQ f false n / FP.lit (N : ℚ)
    x.isFinite = true ∧ x.val = roundQ f (n / N) ∧ 0 ≤ x.val ∧ x.val ≤ 1 := by
  intro x
  have hr := FP.isRep_nat (f := f) n (hn.trans hN)
  have hrN := FP.isRep_nat (f := f) N hN
  have hNq : (0:ℚ) < N := by exact_mod_cast hN0
  have hnN : (n : ℚ) ≤ N := by exact_mod_cast hn
  have h1 : (1:ℚ) = roundQ f 1 := by
    simpa using (FP.isRep_nat (f := f) 1 (Nat.one_le_two_pow)).1.symm
  obtain ⟨a1, a2⟩ := FP.ofQ_finite (f := f) false (q := (n:ℚ)) (by rw [hr.1]; exact hr.2)
  obtain ⟨b1, b2⟩ := FP.ofQ_finite_of_le (f := f)
    ((FP.ofQ f false (n:ℚ)).sgn ^^ FP.sgn (FP.fin (N:ℚ) hrN))
    (b := 1) (by simpa using FP.isRep_nat (f := f) 1 (Nat.one_le_two_pow))
    (q := (n:ℚ) / N) (by rw [abs_of_nonneg (by positivity), div_le_one hNq]; exact hnN)
  have hx' : x = FP.ofQ f ((FP.ofQ f false (n:ℚ)).sgn ^^ FP.sgn (FP.fin (N:ℚ) hrN)) ((n:ℚ)/N) := by
    show FP.ofQ f false (n:ℚ) / FP.lit (N : ℚ) = _
    rw [FP.lit_nat N hN hN', FP.div_finite a1 rfl (by simpa using hNq.ne'), FP.val_fin, a2, hr.1]
  rw [hx']
  refine ⟨b1, b2, ?_, ?_⟩
  · rw [b2]; exact roundQ_nonneg f (by positivity)
  · rw [b2, h1]; exact roundQ_mono f (by rw [div_le_one hNq]; exact hnN)

theorem u8_roundtrip (n : UInt8) (hp : 10 ≤ f.p) : quant8 (unquant8 n : FP f) = n := by
  have hN : 255 ≤ 2 ^ f.p := le_trans (by norm_num)
    (Nat.pow_le_pow_right (by norm_num) (by omega : 8 ≤ f.p))
  have hn : n.toNat ≤ 255 := by have := n.toNat_lt; omega
  obtain ⟨h1, h2, h3, h4⟩ := unquant_val (f := f) n.toNat 255 hn (by norm_num) hN (by norm_num)
  have e : (unquant8 n : FP f) = FP.ofQ f false n.toNat / FP.lit ((255 : ℕ) : ℚ) := by
    unfold unquant8; norm_num; rfl
  apply UInt8.toNat_inj.1
  rw [(quant8_eq _ (by omega) (FP.isNaN_of_finite (by rw [e]; exact h1))).1,
    FP.clamp01_mid _ (by rw [e]; exact h1) (by rw [e]; exact h3) (by rw [e]; exact h4), e, h2]
  apply FP.roundHalfAway_near (roundQ_nonneg f (by rw [← h2]; positivity))
  have := roundtrip_core f n.toNat 255 7 hn (by norm_num) (by norm_num) (by omega)
  simpa using this

theorem u16_roundtrip (n : UInt16) (hp : 18 ≤ f.p) : quant16 (unquant16 n : FP f) = n := by
  have hN : 65535 ≤ 2 ^ f.p := le_trans (by norm_num)
    (Nat.pow_le_pow_right (by norm_num) (by omega : 16 ≤ f.p))
  have hn : n.toNat ≤ 65535 := by have := n.toNat_lt; omega
  obtain ⟨h1, h2, h3, h4⟩ := unquant_val (f := f) n.toNat 65535 hn (by norm_num) hN (by norm_num)
  have e : (unquant16 n : FP f) = FP.ofQ f false n.toNat / FP.lit ((65535 : ℕ) : ℚ) := by
    unfold unquant16; norm_num; rfl
  apply UInt16.toNat_inj.1
  rw [(quant16_eq _ (by omega) (FP.isNaN_of_finite (by rw [e]; exact h1))).1,
    FP.clamp01_mid _ (by rw [e]; exact h1) (by rw [e]; exact h3) (by rw [e]; exact h4), e, h2]
  apply FP.roundHalfAway_near (roundQ_nonneg f (by rw [← h2]; positivity))
  have := roundtrip_core f n.toNat 65535 15 hn (by norm_num) (by norm_num) (by omega)
  simpa using this

end
end CS

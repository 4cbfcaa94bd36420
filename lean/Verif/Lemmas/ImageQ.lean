import Verif.Lemmas.FPRel
import Verif.Lemmas.Quant

/-!
# Quantising a value close to a code
-/

namespace CS
variable {f : Fmt} [Libm f]

theorem Std.p24 (hf : Std f) : 24 ≤ f.p := by
  by_contra h
  have h1 : f.p ≤ 23 := by omega
  have h2 : (2:ℚ) ^ (-(23:ℤ)) ≤ 2 ^ (-(f.p : ℤ)) := zpow_le_zpow_right₀ (by norm_num) (by omega)
  have h3 := hf.hu
  have e : f.u = 2 ^ (-(f.p : ℤ)) := by unfold Fmt.u; norm_num
  rw [e] at h3
  have : (2:ℚ) ^ (-(23:ℤ)) ≤ 1 / 2 ^ 24 := h2.trans h3
  norm_num at this

theorem clamp01_near {x : FP f} (hx : x.isFinite = true) {y δ : ℝ} (h0 : 0 ≤ y) (h1 : y ≤ 1)
    (h : |(x.val : ℝ) - y| ≤ δ) :
    |((clamp x (Flt.lit 0) (Flt.lit 1)).val : ℝ) - y| ≤ δ := by
  obtain ⟨a, b⟩ := abs_le.1 h
  rcases lt_or_ge x.val 0 with hx0 | hx0
  · rw [FP.clamp01_le0 x (by
      rw [FP.flt_lit0, FP.flt_le, FP.le_finite hx rfl]
      exact decide_eq_true (le_of_lt hx0))]
    have : (x.val : ℝ) ≤ 0 := by exact_mod_cast hx0.le
    rw [abs_le]; push_cast; constructor <;> linarith
  · rcases lt_or_ge 1 x.val with hx1 | hx1
    · rw [FP.clamp01_ge1 x (by
        rw [FP.flt_lit1, FP.flt_le, FP.le_finite rfl hx]
        exact decide_eq_true (le_of_lt hx1))]
      have : (1 : ℝ) ≤ x.val := by exact_mod_cast hx1.le
      rw [abs_le]; push_cast; constructor <;> linarith
    · rw [FP.clamp01_mid x hx hx0 hx1]; exact h

/-- the float of an 8-bit code -/
theorem unquant8_spec (hf : Std f) (n : UInt8) :
    (unquant8 n : FP f).isFinite = true ∧ 0 ≤ (unquant8 n : FP f).val ∧
    (unquant8 n : FP f).val ≤ 1 ∧ |(unquant8 n : FP f).val - n.toNat / 255| ≤ 1 / 2 ^ 24 ∧
    ((unquant8 n : FP f).val = 0 ∨ 1 / 2 ^ 17 ≤ (unquant8 n : FP f).val) := by
  have hp := hf.p24
  have hN : 255 ≤ 2 ^ f.p := le_trans (by norm_num)
    (Nat.pow_le_pow_right (by norm_num) (by omega : 8 ≤ f.p))
  have hn : n.toNat ≤ 255 := by have := n.toNat_lt; omega
  obtain ⟨h1, h2, h3, h4⟩ := unquant_val (f := f) n.toNat 255 hn (by norm_num) hN (by norm_num)
  have e : (unquant8 n : FP f) = FP.ofQ f false n.toNat / FP.lit ((255 : ℕ) : ℚ) := by
    unfold unquant8; norm_num; rfl
  have hnq : (n.toNat : ℚ) ≤ 255 := by exact_mod_cast hn
  have herr : |(unquant8 n : FP f).val - n.toNat / 255| ≤ 1 / 2 ^ 24 := by
    rw [e, h2]
    have := roundQ_err_lt f (q := (n.toNat : ℚ) / (255 : ℕ)) (k := 0) (by
      rw [abs_of_nonneg (by positivity)]; push_cast; linarith)
    refine le_trans this ?_
    calc (2:ℚ) ^ (((0:ℕ):ℤ) - f.p) ≤ 2 ^ (-(24:ℤ)) := zpow_le_zpow_right₀ (by norm_num) (by omega)
      _ = _ := by norm_num
  refine ⟨by rw [e]; exact h1, by rw [e]; exact h3, by rw [e]; exact h4, herr, ?_⟩
  rcases Nat.eq_zero_or_pos n.toNat with h | h
  · left; rw [e, h2, h]; simp [roundQ_zero]
  · right
    have h' : (1:ℚ) ≤ n.toNat := by exact_mod_cast h
    have := (abs_le.1 herr).1
    norm_num at this ⊢
    linarith

/-- the float of a 16-bit code -/
theorem unquant16_spec (hf : Std f) (n : UInt16) :
    (unquant16 n : FP f).isFinite = true ∧ 0 ≤ (unquant16 n : FP f).val ∧
    (unquant16 n : FP f).val ≤ 1 ∧ |(unquant16 n : FP f).val - n.toNat / 65535| ≤ 1 / 2 ^ 24 ∧
    ((unquant16 n : FP f).val = 0 ∨ 1 / 2 ^ 17 ≤ (unquant16 n : FP f).val) := by
  have hp := hf.p24
  have hN : 65535 ≤ 2 ^ f.p := le_trans (by norm_num)
    (Nat.pow_le_pow_right (by norm_num) (by omega : 16 ≤ f.p))
  have hn : n.toNat ≤ 65535 := by have := n.toNat_lt; omega
  obtain ⟨h1, h2, h3, h4⟩ := unquant_val (f := f) n.toNat 65535 hn (by norm_num) hN (by norm_num)
  have e : (unquant16 n : FP f) = FP.ofQ f false n.toNat / FP.lit ((65535 : ℕ) : ℚ) := by
    unfold unquant16; norm_num; rfl
  have hnq : (n.toNat : ℚ) ≤ 65535 := by exact_mod_cast hn
  have herr : |(unquant16 n : FP f).val - n.toNat / 65535| ≤ 1 / 2 ^ 24 := by
    rw [e, h2]
    have := roundQ_err_lt f (q := (n.toNat : ℚ) / (65535 : ℕ)) (k := 0) (by
      rw [abs_of_nonneg (by positivity)]; push_cast; linarith)
    refine le_trans this ?_
    calc (2:ℚ) ^ (((0:ℕ):ℤ) - f.p) ≤ 2 ^ (-(24:ℤ)) := zpow_le_zpow_right₀ (by norm_num) (by omega)
      _ = _ := by norm_num
  refine ⟨by rw [e]; exact h1, by rw [e]; exact h3, by rw [e]; exact h4, herr, ?_⟩
  rcases Nat.eq_zero_or_pos n.toNat with h | h
  · left; rw [e, h2, h]; simp [roundQ_zero]
  · right
    have h' : (1:ℚ) ≤ n.toNat := by exact_mod_cast h
    have := (abs_le.1 herr).1
    norm_num at this ⊢
    linarith

/-- what is close to an 8-bit code quantises to it -/
theorem quant8_of_near (hf : Std f) {x : FP f} (hx : x.isFinite = true) (n : UInt8)
    (h : |(x.val : ℝ) - (unquant8 n : FP f).val| ≤ 1 / 600) : quant8 x = n := by
  have hp := hf.p24
  obtain ⟨u1, u2, u3, u4, -⟩ := unquant8_spec hf n
  have hc := clamp01_near hx (y := ((unquant8 n : FP f).val : ℝ)) (by exact_mod_cast u2)
    (by exact_mod_cast u3) h
  obtain ⟨c1, c2, c3⟩ := FP.clamp01 x (FP.isNaN_of_finite hx)
  apply UInt8.toNat_inj.1
  obtain ⟨q1, q2⟩ := quant8_eq x (by omega) (FP.isNaN_of_finite hx)
  rw [q1]
  apply FP.roundHalfAway_near q2
  have hcq : |(clamp x (Flt.lit 0) (Flt.lit 1)).val - (unquant8 n : FP f).val| ≤ 1 / 600 := by
    qcast hc
  generalize (clamp x (Flt.lit 0) (Flt.lit 1)).val = z at *
  generalize (unquant8 n : FP f).val = w at *
  have e3 := roundQ_err_lt f (q := z * 255) (k := 7) (by
    rw [abs_of_nonneg (by positivity)]; norm_num; linarith)
  have e4 : (2:ℚ) ^ (((7:ℕ):ℤ) - f.p) ≤ 2 ^ (-(17:ℤ)) := zpow_le_zpow_right₀ (by norm_num) (by push_cast; omega)
  have e5 := abs_le.1 (e3.trans e4)
  have e6 := abs_le.1 hcq
  have e7 := abs_le.1 u4
  norm_num at e5 e6 e7
  rw [abs_lt]
  constructor <;> linarith [e5.1, e5.2, e6.1, e6.2, e7.1, e7.2]

/-- what is close to a 16-bit code quantises to it -/
theorem quant16_of_near (hf : Std f) {x : FP f} (hx : x.isFinite = true) (n : UInt16)
    (h : |(x.val : ℝ) - (unquant16 n : FP f).val| ≤ 1 / 150000) : quant16 x = n := by
  have hp := hf.p24
  obtain ⟨u1, u2, u3, u4, -⟩ := unquant16_spec hf n
  have hc := clamp01_near hx (y := ((unquant16 n : FP f).val : ℝ)) (by exact_mod_cast u2)
    (by exact_mod_cast u3) h
  obtain ⟨c1, c2, c3⟩ := FP.clamp01 x (FP.isNaN_of_finite hx)
  apply UInt16.toNat_inj.1
  obtain ⟨q1, q2⟩ := quant16_eq x (by omega) (FP.isNaN_of_finite hx)
  rw [q1]
  apply FP.roundHalfAway_near q2
  have hcq : |(clamp x (Flt.lit 0) (Flt.lit 1)).val - (unquant16 n : FP f).val| ≤ 1 / 150000 := by
    qcast hc
  generalize (clamp x (Flt.lit 0) (Flt.lit 1)).val = z at *
  generalize (unquant16 n : FP f).val = w at *
  have e3 := roundQ_err_lt f (q := z * 65535) (k := 15) (by
    rw [abs_of_nonneg (by positivity)]; norm_num; linarith)
  have e4 : (2:ℚ) ^ (((15:ℕ):ℤ) - f.p) ≤ 2 ^ (-(9:ℤ)) := zpow_le_zpow_right₀ (by norm_num) (by push_cast; omega)
  have e5 := abs_le.1 (e3.trans e4)
  have e6 := abs_le.1 hcq
  have e7 := abs_le.1 u4
  norm_num at e5 e6 e7
  rw [abs_lt]
  constructor <;> linarith [e5.1, e5.2, e6.1, e6.2, e7.1, e7.2]

end CS

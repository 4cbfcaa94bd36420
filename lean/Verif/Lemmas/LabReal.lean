import Verif.Props.Lab

/-! # How fast the L*a*b* companding and its inverse vary -/

namespace CS

theorem labG_alt (φ : ℝ) : labG φ = if φ ≤ 6 / 29 then 108 / 841 * (φ - 4 / 29) else φ ^ 3 := by
  unfold labG
  by_cases h : φ ≤ 6 / 29
  · rw [if_neg (not_lt.2 ((cube_le_iff φ).2 h)), if_pos h]; ring
  · rw [if_pos (lt_of_not_ge fun h' => h ((cube_le_iff φ).1 h')), if_neg h]

theorem cube_ge {φ ψ : ℝ} (h0 : 0 ≤ φ) (h : φ ≤ ψ) : 3 * φ ^ 2 * (ψ - φ) ≤ ψ ^ 3 - φ ^ 3 := by
  have : 0 ≤ (ψ - φ) ^ 2 * (ψ + 2 * φ) := by
    have : 0 ≤ ψ + 2 * φ := by linarith
    positivity
  nlinarith

theorem cube_le {φ ψ : ℝ} (h0 : 0 ≤ φ) (h : φ ≤ ψ) : ψ ^ 3 - φ ^ 3 ≤ 3 * ψ ^ 2 * (ψ - φ) := by
  have : 0 ≤ (ψ - φ) ^ 2 * (2 * ψ + φ) := by
    have : 0 ≤ 2 * ψ + φ := by linarith
    positivity
  nlinarith

theorem labG_expand {φ ψ : ℝ} (h : φ ≤ ψ) : 108 / 841 * (ψ - φ) ≤ labG ψ - labG φ := by
  rw [labG_alt, labG_alt]
  split_ifs with h1 h2 h2
  · linarith
  · linarith
  · have := cube_ge (φ := 6 / 29) (by norm_num) (not_le.1 h1).le
    norm_num at this ⊢; linarith
  · have h2 := not_le.1 h2
    have := cube_ge (by linarith) h
    have e : 108 / 841 ≤ 3 * φ ^ 2 := by nlinarith
    have := mul_le_mul_of_nonneg_right e (sub_nonneg.2 h)
    linarith

theorem labG_contract {φ ψ B : ℝ} (h : φ ≤ ψ) (hB : ψ ≤ B) (hB6 : 6 / 29 ≤ B) :
    labG ψ - labG φ ≤ 3 * B ^ 2 * (ψ - φ) := by
  have eB : 108 / 841 ≤ 3 * B ^ 2 := by nlinarith
  have m1 := mul_le_mul_of_nonneg_right eB (sub_nonneg.2 h)
  rw [labG_alt, labG_alt]
  split_ifs with h1 h2 h2
  · linarith
  · linarith
  · have h3 := not_le.1 h1
    have := cube_le (φ := 6 / 29) (by norm_num) h3.le
    have e2 : 3 * ψ ^ 2 ≤ 3 * B ^ 2 := by nlinarith
    have := mul_le_mul_of_nonneg_right e2 (sub_nonneg.2 h3.le)
    have m3 := mul_le_mul_of_nonneg_right eB (sub_nonneg.2 h2)
    norm_num at this ⊢; linarith
  · have h2 := not_le.1 h2
    have := cube_le (by linarith) h
    have e2 : 3 * ψ ^ 2 ≤ 3 * B ^ 2 := by nlinarith
    have := mul_le_mul_of_nonneg_right e2 (sub_nonneg.2 h)
    linarith

theorem labG_lip {φ ψ B : ℝ} (h1 : φ ≤ B) (h2 : ψ ≤ B) (hB6 : 6 / 29 ≤ B) :
    |labG ψ - labG φ| ≤ 3 * B ^ 2 * |ψ - φ| := by
  rcases le_total φ ψ with h | h
  · have a := labG_expand h
    have b := labG_contract h h2 hB6
    rw [abs_of_nonneg (by linarith), abs_of_nonneg (by linarith)]; exact b
  · have a := labG_expand h
    have b := labG_contract h h1 hB6
    rw [abs_of_nonpos (by linarith), abs_of_nonpos (by linarith)]; linarith

theorem labF_lip (x y : ℝ) : |labF x - labF y| ≤ 841 / 108 * |x - y| := by
  have ex := labG_labF x
  have ey := labG_labF y
  rcases le_total (labF x) (labF y) with h | h
  · have a := labG_expand h
    rw [ex, ey] at a
    rw [abs_of_nonpos (by linarith), abs_of_nonpos (by linarith)]; linarith
  · have a := labG_expand h
    rw [ex, ey] at a
    rw [abs_of_nonneg (by linarith), abs_of_nonneg (by linarith)]; linarith

theorem labF_cube {x : ℝ} (h : 216 / 24389 < x) : labF x ^ 3 = x ∧ 6 / 29 < labF x := by
  have e := labG_labF x
  rw [labG_alt] at e
  split_ifs at e with h1
  · linarith
  · exact ⟨e, not_le.1 h1⟩

theorem labF_line {x : ℝ} (h : x ≤ 216 / 24389) : labF x = 841 / 108 * x + 4 / 29 := by
  rw [labF_eq, if_neg (not_lt.2 h)]; ring

/-- a small relative change of the argument -/
theorem labF_rel {x y t : ℝ} (ht : t ≤ 1 / 1000) (h : |x - y| ≤ t * |y|) (h1 : -(9 / 100) ≤ y)
    (h2 : y ≤ 5) (ht0 : 0 ≤ t) : |labF x - labF y| ≤ 72 / 100 * t := by
  rcases le_total y (3 / 100) with h3 | h3
  · have hy : |y| ≤ 9 / 100 := abs_le.2 ⟨by linarith, by linarith⟩
    have := labF_lip x y
    have := mul_le_mul_of_nonneg_left hy ht0
    linarith
  · have hy0 : 0 < y := by linarith
    rw [abs_of_pos hy0] at h
    have hty : t * y ≤ 1 / 1000 * y := mul_le_mul_of_nonneg_right ht hy0.le
    obtain ⟨ha, hb⟩ := abs_le.1 h
    obtain ⟨eb, gb⟩ := labF_cube (x := y) (by norm_num; linarith)
    obtain ⟨ea, ga⟩ := labF_cube (x := x) (by norm_num; linarith)
    set a := labF x
    set b := labF y
    have b0 : 0 < b := by linarith
    have hb2 : b ≤ 171 / 100 := by
      by_contra hc
      have := pow_lt_pow_left₀ (not_le.1 hc) (by norm_num) (show (3:ℕ) ≠ 0 by norm_num)
      norm_num at this; linarith
    have hab : 99 / 100 * b ≤ a := by
      by_contra hc
      have := pow_lt_pow_left₀ (not_le.1 hc) (by linarith) (show (3:ℕ) ≠ 0 by norm_num)
      rw [mul_pow, ea, eb] at this
      norm_num at this; linarith
    have hq : 297 / 100 * b ^ 2 ≤ a ^ 2 + a * b + b ^ 2 := by nlinarith
    have hf : |a - b| * (a ^ 2 + a * b + b ^ 2) ≤ t * b ^ 3 := by
      have e : |a - b| * (a ^ 2 + a * b + b ^ 2) = |x - y| := by
        rw [← abs_of_pos (show 0 < a ^ 2 + a * b + b ^ 2 by positivity), ← abs_mul]
        congr 1
        rw [← ea, ← eb]; ring
      rw [e, eb]; exact h
    have h5 : |a - b| * (297 / 100 * b ^ 2) ≤ t * b ^ 3 :=
      (mul_le_mul_of_nonneg_left hq (abs_nonneg _)).trans hf
    have h6 : |a - b| * (297 / 100) ≤ t * b := by
      have : |a - b| * (297 / 100) * b ^ 2 ≤ t * b * b ^ 2 := by nlinarith
      exact le_of_mul_le_mul_right this (by positivity)
    have h7 : t * b ≤ t * (171 / 100) := mul_le_mul_of_nonneg_left hb2 ht0
    linarith

theorem labF_rel2 {x y t e : ℝ} (ht : t ≤ 1 / 1000) (h : |x - y| ≤ t * |y| + e) (h1 : -(9 / 100) ≤ y)
    (h2 : y ≤ 5) (ht0 : 0 ≤ t) (he : 0 ≤ e) : |labF x - labF y| ≤ 72 / 100 * t + 8 * e := by
  have hty : 0 ≤ t * |y| := mul_nonneg ht0 (abs_nonneg _)
  obtain ⟨ha, hb⟩ := abs_le.1 h
  have key : ∃ z, |z - y| ≤ t * |y| ∧ |x - z| ≤ e := by
    rcases le_total x (y + t * |y|) with c1 | c1
    · rcases le_total (y - t * |y|) x with c2 | c2
      · exact ⟨x, abs_le.2 ⟨by linarith, by linarith⟩, by simpa using he⟩
      · exact ⟨y - t * |y|, abs_le.2 ⟨by linarith, by linarith⟩, abs_le.2 ⟨by linarith, by linarith⟩⟩
    · exact ⟨y + t * |y|, abs_le.2 ⟨by linarith, by linarith⟩, abs_le.2 ⟨by linarith, by linarith⟩⟩
  obtain ⟨z, z1, z2⟩ := key
  have r1 := labF_rel ht z1 h1 h2 ht0
  have r2 := labF_lip x z
  have := abs_add_le (labF x - labF z) (labF z - labF y)
  rw [sub_add_sub_cancel] at this
  linarith

/-- the cube, used slightly below the threshold -/
theorem seam_cube {c φ t δ : ℝ} (ht : t ≤ 1 / 1000) (ht0 : 0 ≤ t) (hc : |c - φ ^ 3| ≤ t * |φ ^ 3|)
    (hd : 6 / 29 - δ ≤ φ) (hd0 : 0 ≤ δ) (hd1 : δ ≤ 1 / 100) (h2 : φ ≤ 17 / 10) :
    |labF c - φ| ≤ 72 / 100 * t + δ := by
  have p0 : 0 < φ := by linarith
  have h1 : |labF c - labF (φ ^ 3)| ≤ 72 / 100 * t :=
    labF_rel ht hc (by have : 0 < φ ^ 3 := by positivity
                       linarith) (by
      have := pow_le_pow_left₀ p0.le h2 3
      norm_num at this ⊢; linarith) ht0
  have h3 : |labF (φ ^ 3) - φ| ≤ δ := by
    by_cases h : φ ≤ 6 / 29
    · have hl := labF_line ((cube_le_iff φ).2 h)
      have g := cube_ge (φ := φ) p0.le h
      have g2 := cube_le p0.le h
      norm_num at g g2
      rw [hl, abs_le]
      constructor
      · have := mul_nonneg (sub_nonneg.2 h) (sub_nonneg.2 h)
        nlinarith
      · nlinarith
    · have hf := labF_labG φ
      rw [labG_alt, if_neg h] at hf
      rw [hf]; simpa using hd0
  have t := abs_add_le (labF c - labF (φ ^ 3)) (labF (φ ^ 3) - φ)
  rw [sub_add_sub_cancel] at t
  linarith

/-- the straight piece, used slightly above the threshold -/
theorem seam_line {c φ e δ : ℝ} (hc : |c - (116 * φ - 16) / (24389 / 27)| ≤ e)
    (hd : φ ≤ 6 / 29 + δ) (hd0 : 0 ≤ δ) :
    |labF c - φ| ≤ 841 / 108 * e + δ := by
  have h1 := labF_lip c ((116 * φ - 16) / (24389 / 27))
  have h3 : |labF ((116 * φ - 16) / (24389 / 27)) - φ| ≤ δ := by
    by_cases h : φ ≤ 6 / 29
    · have hl := labF_line (x := (116 * φ - 16) / (24389 / 27)) (by linarith)
      rw [hl, show 841 / 108 * ((116 * φ - 16) / (24389 / 27)) + 4 / 29 - φ = 0 by ring]
      simpa using hd0
    · have h' := not_le.1 h
      obtain ⟨ec, gc⟩ := labF_cube (x := (116 * φ - 16) / (24389 / 27)) (by linarith)
      have g := cube_ge (φ := 6 / 29) (by norm_num) h'.le
      norm_num at g
      have hle : labF ((116 * φ - 16) / (24389 / 27)) ≤ φ := by
        by_contra hcon
        have := pow_lt_pow_left₀ (not_le.1 hcon) (by linarith) (show (3:ℕ) ≠ 0 by norm_num)
        rw [ec] at this
        linarith
      rw [abs_le]; constructor <;> linarith
  have t := abs_add_le (labF c - labF ((116 * φ - 16) / (24389 / 27)))
    (labF ((116 * φ - 16) / (24389 / 27)) - φ)
  rw [sub_add_sub_cancel] at t
  have := mul_le_mul_of_nonneg_left hc (show (0:ℝ) ≤ 841 / 108 by norm_num)
  linarith

end CS

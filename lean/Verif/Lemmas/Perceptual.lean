import Verif.Lemmas.LabReal
import Verif.Props.Transfer

/-!
# Lightness of a decoded sRGB component: how fast it changes
-/

namespace CS

/-- monotonicity on the non-negative numbers from two pieces -/
theorem mono_split {g : ℝ → ℝ} (m : ℝ) (h1 : ∀ x y, 0 ≤ x → x ≤ y → y ≤ m → g x ≤ g y)
    (h2 : ∀ x y, 0 ≤ x → m ≤ x → x ≤ y → g x ≤ g y) {x y : ℝ} (hx : 0 ≤ x) (h : x ≤ y) : g x ≤ g y := by
  rcases le_total y m with a | a
  · exact h1 x y hx h a
  · rcases le_total m x with b | b
    · exact h2 x y hx b h
    · exact (h1 x m hx b le_rfl).trans (h2 m y (hx.trans b) le_rfl a)

theorem labF_cube' {x : ℝ} (h : 216 / 24389 ≤ x) : labF x ^ 3 = x ∧ 6 / 29 ≤ labF x := by
  rcases h.lt_or_eq with h | h
  · exact ⟨(labF_cube h).1, (labF_cube h).2.le⟩
  · rw [labF_line h.ge, ← h]; norm_num

/-- the companding is concave: its increments get smaller -/
theorem labF_shift {c x y : ℝ} (hc : 0 ≤ c) (hx : 0 ≤ x) (h : x ≤ y) :
    labF (y + c) - labF (x + c) ≤ labF y - labF x := by
  have := mono_split (g := fun t => labF t - labF (t + c)) (216 / 24389) (fun x y _ h hy => ?_)
    (fun x y _ hm h => ?_) hx h
  · linarith
  · have := (le_abs_self _).trans (labF_lip (y + c) (x + c))
    rw [show y + c - (x + c) = y - x by ring, abs_of_nonneg (by linarith)] at this
    rw [labF_line hy, labF_line (h.trans hy)]
    linarith
  · obtain ⟨a1, a2⟩ := labF_cube' hm
    obtain ⟨b1, b2⟩ := labF_cube' (hm.trans h)
    obtain ⟨c1, c2⟩ := labF_cube' (show 216 / 24389 ≤ x + c by linarith)
    obtain ⟨d1, d2⟩ := labF_cube' (show 216 / 24389 ≤ y + c by linarith)
    have m1 := labF_strictMono.monotone (show x ≤ x + c by linarith)
    have m2 := labF_strictMono.monotone (show y ≤ y + c by linarith)
    have m3 := labF_strictMono.monotone h
    have m4 := labF_strictMono.monotone (show x + c ≤ y + c by linarith)
    generalize labF x = X at *
    generalize labF y = Y at *
    generalize labF (x + c) = X' at *
    generalize labF (y + c) = Y' at *
    have e : (Y' - X') * (Y' ^ 2 + Y' * X' + X' ^ 2) = (Y - X) * (Y ^ 2 + Y * X + X ^ 2) := by
      linarith [show (Y' - X') * (Y' ^ 2 + Y' * X' + X' ^ 2) = Y' ^ 3 - X' ^ 3 by ring,
        show (Y - X) * (Y ^ 2 + Y * X + X ^ 2) = Y ^ 3 - X ^ 3 by ring]
    have s : Y ^ 2 + Y * X + X ^ 2 ≤ Y' ^ 2 + Y' * X' + X' ^ 2 := by nlinarith
    have p : 0 < Y ^ 2 + Y * X + X ^ 2 := by nlinarith
    by_contra hn
    have : Y - X < Y' - X' := by linarith
    nlinarith

/-- increments of a scaled argument are smaller -/
theorem labF_scale {w x y : ℝ} (hw : 0 ≤ w) (hw1 : w ≤ 1) (hx : 0 ≤ x) (h : x ≤ y) :
    labF (w * y) - labF (w * x) ≤ labF y - labF x := by
  rcases hw.eq_or_lt with rfl | hw
  · have := labF_strictMono.monotone h
    simp only [zero_mul, sub_self]; linarith
  have := mono_split (g := fun t => labF t - labF (w * t)) (216 / 24389) (fun x y h0 h hy => ?_)
    (fun x y h0 hm h => ?_) hx h
  · linarith
  · rw [labF_line hy, labF_line (h.trans hy), labF_line (show w * y ≤ _ by nlinarith),
      labF_line (show w * x ≤ _ by nlinarith)]
    nlinarith
  · -- above the seam: split again where the scaled argument crosses it
    obtain ⟨r, r0, r3⟩ : ∃ r : ℝ, 0 < r ∧ r ^ 3 = w :=
      ⟨w ^ ((1:ℝ) / 3), Real.rpow_pos_of_pos hw _, by
        rw [← Real.rpow_natCast, ← Real.rpow_mul hw.le]; norm_num⟩
    have r1 : r ≤ 1 := by
      by_contra hn
      have : 1 < r ^ 3 := one_lt_pow₀ (not_le.1 hn) (by norm_num)
      linarith
    have cub : ∀ x y, x ≤ y → 216 / 24389 ≤ w * x → 216 / 24389 ≤ x →
        labF x - labF (w * x) ≤ labF y - labF (w * y) := by
      intro x y h k kx
      have hy : w * x ≤ w * y := mul_le_mul_of_nonneg_left h hw.le
      have one : ∀ t, 216 / 24389 ≤ w * t → 216 / 24389 ≤ t → labF (w * t) = r * labF t := by
        intro t a b
        obtain ⟨a1, a2⟩ := labF_cube' a
        obtain ⟨b1, b2⟩ := labF_cube' b
        refine (pow_left_inj₀ (by linarith) (by positivity) (three_ne_zero)).1 ?_
        rw [a1, mul_pow, b1, r3]
      rw [one x k kx, one y (k.trans hy) (kx.trans h)]
      have := labF_strictMono.monotone h
      nlinarith
    have mix : ∀ x y, x ≤ y → w * y ≤ 216 / 24389 → 216 / 24389 ≤ x →
        labF x - labF (w * x) ≤ labF y - labF (w * y) := by
      intro x y h a hm
      obtain ⟨b1, b2⟩ := labF_cube' hm
      obtain ⟨c1, c2⟩ := labF_cube' (hm.trans h)
      have m3 := labF_strictMono.monotone h
      rw [labF_line a, labF_line (show w * x ≤ _ by nlinarith)]
      generalize labF x = X at *
      generalize labF y = Y at *
      subst b1 c1
      have k1 : 3 * Y ^ 2 * (841 / 108 * w) ≤ 1 := by
        have : Y * (3 * Y ^ 2 * (841 / 108 * w)) ≤ Y * 1 := by nlinarith
        exact le_of_mul_le_mul_left this (by linarith)
      have k2 := cube_le (show 0 ≤ X by linarith) m3
      have k3 : 841 / 108 * w * (Y ^ 3 - X ^ 3) ≤ Y - X := by
        calc 841 / 108 * w * (Y ^ 3 - X ^ 3) ≤ 841 / 108 * w * (3 * Y ^ 2 * (Y - X)) :=
              mul_le_mul_of_nonneg_left k2 (by positivity)
          _ = (3 * Y ^ 2 * (841 / 108 * w)) * (Y - X) := by ring
          _ ≤ 1 * (Y - X) := mul_le_mul_of_nonneg_right k1 (by linarith)
          _ = Y - X := one_mul _
      nlinarith
    rcases le_total (w * y) (216 / 24389) with a | a
    · exact mix x y h a hm
    · rcases le_total (216 / 24389) (w * x) with b | b
      · exact cub x y h b hm
      · have e : w * (216 / 24389 / w) = 216 / 24389 := by field_simp
        have l1 : x ≤ 216 / 24389 / w := by rw [le_div_iff₀ hw]; linarith
        have l2 : 216 / 24389 / w ≤ y := by rw [div_le_iff₀ hw]; linarith
        exact (mix x _ l1 e.le hm).trans (cub _ y l2 e.ge (hm.trans l1))

/-- a component that enters an XYZ coordinate with a weight up to 1, beside other light -/
theorem labF_weighted {w c x y : ℝ} (hw : 0 ≤ w) (hw1 : w ≤ 1) (hc : 0 ≤ c) (hx : 0 ≤ x) (h : x ≤ y) :
    labF (w * y + c) - labF (w * x + c) ≤ labF y - labF x :=
  (labF_shift hc (mul_nonneg hw hx) (mul_le_mul_of_nonneg_left h hw)).trans (labF_scale hw hw1 hx h)

theorem twelfths {X Y : ℝ} (hX : 0 ≤ X) (h : X ≤ Y) : 5 * (Y ^ 12 - X ^ 12) ≤ 12 * Y ^ 7 * (Y ^ 5 - X ^ 5) := by
  have hY := hX.trans h
  have : 0 ≤ (Y - X) ^ 2 * (7 * Y ^ 10 + 14 * Y ^ 9 * X + 21 * Y ^ 8 * X ^ 2 + 28 * Y ^ 7 * X ^ 3 + 35 * Y ^ 6 * X ^ 4 +
      30 * Y ^ 5 * X ^ 5 + 25 * Y ^ 4 * X ^ 6 + 20 * Y ^ 3 * X ^ 7 + 15 * Y ^ 2 * X ^ 8 + 10 * Y * X ^ 9 + 5 * X ^ 10) := by
    positivity
  nlinarith [this]

theorem fifths {X Y : ℝ} (hX : 0 ≤ X) (h : X ≤ Y) : 5 * X * (Y ^ 4 - X ^ 4) ≤ 4 * (Y ^ 5 - X ^ 5) := by
  have hY := hX.trans h
  have : 0 ≤ (Y - X) ^ 2 * (4 * Y ^ 3 + 3 * Y ^ 2 * X + 2 * Y * X ^ 2 + X ^ 3) := by positivity
  nlinarith [this]

/-- the lightness of a 2.4 power: slope at most 1.1863 -/
theorem power_lip {u v : ℝ} (hu : 0 ≤ u) (h : u ≤ v) :
    labF (v ^ (((12:ℕ):ℝ) / ((5:ℕ):ℝ))) - labF (u ^ (((12:ℕ):ℝ) / ((5:ℕ):ℝ))) ≤ 1.1863 * (v - u) := by
  obtain ⟨Z, Z0, Z4⟩ : ∃ Z : ℝ, 0 < Z ∧ Z ^ 4 = 6 / 29 :=
    ⟨(6 / 29 : ℝ) ^ ((1:ℝ) / 4), Real.rpow_pos_of_pos (by norm_num) _, by
      rw [← Real.rpow_natCast, ← Real.rpow_mul (by norm_num)]; norm_num⟩
  have Zl : 0.6744 ≤ Z := by
    by_contra hn
    have := pow_lt_pow_left₀ (not_le.1 hn) Z0.le (four_ne_zero)
    rw [Z4] at this
    norm_num at this
  have root : ∀ {u : ℝ}, 0 ≤ u → ∃ X : ℝ, 0 ≤ X ∧ X ^ 5 = u ∧ u ^ (((12:ℕ):ℝ) / ((5:ℕ):ℝ)) = X ^ 12 := by
    intro u hu
    refine ⟨u ^ ((1:ℝ) / 5), Real.rpow_nonneg hu _, ?_, ?_⟩
    · rw [← Real.rpow_natCast, ← Real.rpow_mul hu]; norm_num
    · rw [← Real.rpow_natCast, ← Real.rpow_mul hu]; norm_num
  have cub : ∀ {X : ℝ}, Z ≤ X → labF (X ^ 12) = X ^ 4 := by
    intro X hX
    have hX0 : 0 ≤ X := Z0.le.trans hX
    have e : 6 / 29 ≤ X ^ 4 := by rw [← Z4]; exact pow_le_pow_left₀ Z0.le hX 4
    have e2 : (6 / 29 : ℝ) ^ 3 ≤ X ^ 12 := by
      rw [show X ^ 12 = (X ^ 4) ^ 3 by ring]; exact pow_le_pow_left₀ (by norm_num) e 3
    obtain ⟨a, b⟩ := labF_cube' (show 216 / 24389 ≤ X ^ 12 by norm_num at e2; linarith)
    exact (pow_left_inj₀ (by linarith) (by positivity) three_ne_zero).1 (by rw [a]; ring)
  have lin : ∀ {X : ℝ}, 0 ≤ X → X ≤ Z → labF (X ^ 12) = 841 / 108 * X ^ 12 + 4 / 29 := by
    intro X hX0 hX
    refine labF_line ?_
    have : X ^ 12 ≤ (Z ^ 4) ^ 3 := by rw [← pow_mul]; exact pow_le_pow_left₀ hX0 hX 12
    rw [Z4] at this
    norm_num at this
    linarith
  have := mono_split (g := fun t => 1.1863 * t ^ 5 - labF (t ^ 12)) Z (fun X Y hX h hY => ?_)
    (fun X Y hX0 hX h => ?_) (x := (root hu).choose) (y := (root (hu.trans h)).choose)
    (root hu).choose_spec.1 ?_
  · rw [(root hu).choose_spec.2.1, (root (hu.trans h)).choose_spec.2.1] at this
    rw [(root hu).choose_spec.2.2, (root (hu.trans h)).choose_spec.2.2]
    linarith
  · rw [lin hX (h.trans hY), lin (hX.trans h) hY]
    have t := twelfths hX h
    have f : X ^ 5 ≤ Y ^ 5 := pow_le_pow_left₀ hX h 5
    have y7 : Y ^ 7 ≤ Z ^ 7 := pow_le_pow_left₀ (hX.trans h) hY 7
    have z7 : 0.6744 * Z ^ 7 ≤ 36 / 841 := by
      have : Z ^ 8 = 36 / 841 := by rw [show Z ^ 8 = (Z ^ 4) ^ 2 by ring, Z4]; norm_num
      have : Z * Z ^ 7 = 36 / 841 := by rw [← this]; ring
      nlinarith [pow_pos Z0 7]
    have t2 : 12 * Y ^ 7 * (Y ^ 5 - X ^ 5) ≤ 12 * (36 / 841 / 0.6744) * (Y ^ 5 - X ^ 5) := by
      refine mul_le_mul_of_nonneg_right ?_ (by linarith)
      have : Y ^ 7 ≤ 36 / 841 / 0.6744 := by
        rw [le_div_iff₀ (by norm_num)]; linarith
      linarith
    norm_num at t2 ⊢
    linarith
  · rw [cub hX, cub (hX.trans h)]
    have t := fifths hX0 h
    have f : X ^ 4 ≤ Y ^ 4 := pow_le_pow_left₀ hX0 h 4
    have : 5 * 0.6744 * (Y ^ 4 - X ^ 4) ≤ 5 * X * (Y ^ 4 - X ^ 4) :=
      mul_le_mul_of_nonneg_right (by linarith) (by linarith)
    norm_num at this ⊢
    linarith
  · by_contra hn
    have := pow_lt_pow_left₀ (not_le.1 hn) (root (hu.trans h)).choose_spec.1 (show 5 ≠ 0 by norm_num)
    rw [(root hu).choose_spec.2.1, (root (hu.trans h)).choose_spec.2.1] at this
    linarith

/-- the lightness of a decoded sRGB component: slope at most 1.125, and a jump of at most 3e-8 at the seam -/
theorem srgb_light_lip {s t : ℝ} (hs : 0 ≤ s) (h : s ≤ t) :
    labF (decode.srgb_t t) - labF (decode.srgb_t s) ≤ 1.125 * (t - s) + 3e-8 := by
  have line : ∀ {x y : ℝ}, x ≤ y → y ≤ 0.040449936 → labF (y / 12.92) - labF (x / 12.92) ≤ 1.125 * (y - x) := by
    intro x y h hy
    have e : ∀ {z : ℝ}, z ≤ 0.040449936 → z / 12.92 ≤ 216 / 24389 := by
      intro z hz; rw [div_le_iff₀ (by norm_num)]; norm_num at hz ⊢; linarith
    rw [labF_line (e hy), labF_line (e (h.trans hy))]
    norm_num
    linarith
  have pow : ∀ {x y : ℝ}, 0 ≤ x → x ≤ y → labF (((y + 0.055) / 1.055) ^ (((12:ℕ):ℝ) / ((5:ℕ):ℝ))) -
      labF (((x + 0.055) / 1.055) ^ (((12:ℕ):ℝ) / ((5:ℕ):ℝ))) ≤ 1.125 * (y - x) := by
    intro x y hx h
    have := power_lip (u := (x + 0.055) / 1.055) (v := (y + 0.055) / 1.055) (by positivity) (by gcongr)
    rw [← sub_div, show y + 0.055 - (x + 0.055) = y - x by ring] at this
    refine this.trans ?_
    rw [mul_div_assoc', div_le_iff₀ (by norm_num)]
    norm_num
    linarith
  rw [dec_srgb, dec_srgb]
  split_ifs with h1 h2 h2
  · have := line h h1; linarith
  · exact absurd (h.trans h1) h2
  · have a := line h2 le_rfl
    have b := pow (show (0:ℝ) ≤ 0.040449936 by norm_num) (not_le.1 h1).le
    have j := (rpow_le_iff (x := (0.040449936 + 0.055) / 1.055) (by norm_num) (c := 0.003130803) (by norm_num) 12 5
      (by norm_num)).2 (by norm_num)
    have jl : labF (((0.040449936 + 0.055) / 1.055 : ℝ) ^ (((12:ℕ):ℝ) / ((5:ℕ):ℝ))) - labF (0.040449936 / 12.92 : ℝ) ≤ 3e-8 := by
      have e1 := labF_strictMono.monotone j
      rw [labF_line (show (0.003130803:ℝ) ≤ 216 / 24389 by norm_num)] at e1
      rw [labF_line (show (0.040449936 / 12.92 : ℝ) ≤ 216 / 24389 by norm_num)]
      generalize labF (((0.040449936 + 0.055) / 1.055 : ℝ) ^ (((12:ℕ):ℝ) / ((5:ℕ):ℝ))) = Q at *
      norm_num at e1 ⊢
      linarith
    linarith
  · have := pow hs h; linarith

end CS

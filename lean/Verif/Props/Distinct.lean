import Verif.Props.EightBits

/-!
# Different 8-bit and 16-bit colours are different colours (C125)
-/

namespace CS

/-! ### specification -/

/-- the white of a space: its colour (1, 1, 1) in XYZ -/
noncomputable def Spec.ownWhite (m : Matrix33 ℝ) : XYZ ℝ := rgbToXyz m ⟨1, 1, 1⟩

/-! ### proofs -/

theorem twelfths_below {X Y : ℝ} (hX : 0 ≤ X) (hY : 0 ≤ Y) : 12 * X ^ 7 * (Y ^ 5 - X ^ 5) ≤ 5 * (Y ^ 12 - X ^ 12) := by
  have : 0 ≤ (X - Y) ^ 2 * (7 * X ^ 10 + 14 * X ^ 9 * Y + 21 * X ^ 8 * Y ^ 2 + 28 * X ^ 7 * Y ^ 3 + 35 * X ^ 6 * Y ^ 4 +
      30 * X ^ 5 * Y ^ 5 + 25 * X ^ 4 * Y ^ 6 + 20 * X ^ 3 * Y ^ 7 + 15 * X ^ 2 * Y ^ 8 + 10 * X * Y ^ 9 + 5 * Y ^ 10) := by
    positivity
  nlinarith [this]

/-- the sRGB decoder is nowhere flatter than its linear part -/
theorem srgb_expand {s t : ℝ} (h : s ≤ t) : (t - s) / 12.92 ≤ decode.srgb_t t - decode.srgb_t s := by
  have root : ∀ {u : ℝ}, 0 ≤ u → ∃ X : ℝ, 0 ≤ X ∧ X ^ 5 = u ∧ u ^ (((12:ℕ):ℝ) / ((5:ℕ):ℝ)) = X ^ 12 := by
    intro u hu
    refine ⟨u ^ ((1:ℝ) / 5), Real.rpow_nonneg hu _, ?_, ?_⟩
    · rw [← Real.rpow_natCast, ← Real.rpow_mul hu]; norm_num
    · rw [← Real.rpow_natCast, ← Real.rpow_mul hu]; norm_num
  have pow : ∀ {x y : ℝ}, 0.040449936 ≤ x → x ≤ y → (y - x) / 12.92 ≤
      ((y + 0.055) / 1.055) ^ (((12:ℕ):ℝ) / ((5:ℕ):ℝ)) - ((x + 0.055) / 1.055) ^ (((12:ℕ):ℝ) / ((5:ℕ):ℝ)) := by
    intro x y hx h
    have hx0 : 0 ≤ x := le_trans (by norm_num) hx
    have hu : 0 ≤ (x + 0.055) / 1.055 := by positivity
    have hv : 0 ≤ (y + 0.055) / 1.055 := by have := hx0.trans h; positivity
    obtain ⟨X, X0, X5, Xe⟩ := root hu
    obtain ⟨Y, Y0, Y5, Ye⟩ := root hv
    rw [Xe, Ye]
    have Xl : 0.6184 ≤ X := by
      by_contra hn
      have := pow_lt_pow_left₀ (not_le.1 hn) X0 (show 5 ≠ 0 by norm_num)
      rw [X5, div_lt_iff₀ (by norm_num)] at this
      norm_num at this hx
      linarith
    have X7 : 0.0345 ≤ X ^ 7 := le_trans (by norm_num) (pow_le_pow_left₀ (by norm_num) Xl 7)
    have t := twelfths_below X0 Y0
    have d : Y ^ 5 - X ^ 5 = (y - x) / 1.055 := by rw [X5, Y5]; ring
    have d0 : 0 ≤ (y - x) / 1.055 := div_nonneg (by linarith) (by norm_num)
    rw [d] at t
    have t2 : 12 * 0.0345 * ((y - x) / 1.055) ≤ 12 * X ^ 7 * ((y - x) / 1.055) :=
      mul_le_mul_of_nonneg_right (by linarith) d0
    norm_num at t t2 ⊢
    linarith
  rw [dec_srgb, dec_srgb]
  split_ifs with h1 h2 h2
  · rw [sub_div]
  · exact absurd (h.trans h1) h2
  · have b := pow le_rfl (not_le.1 h1).le
    have j := (rpow_lt_iff (x := (0.040449936 + 0.055) / 1.055) (by norm_num)
        (c := 0.040449936 / 12.92) (by norm_num) 12 5 (by norm_num)).2 (by norm_num)
    have e1 := sub_div t s (12.92:ℝ)
    have e2 := sub_div t 0.040449936 (12.92:ℝ)
    linarith
  · exact pow (not_le.1 h2).le h

theorem srgb_expand_abs (s t : ℝ) : |s - t| ≤ 12.92 * |decode.srgb_t s - decode.srgb_t t| := by
  have key : ∀ {s t : ℝ}, s ≤ t → |s - t| ≤ 12.92 * |decode.srgb_t s - decode.srgb_t t| := by
    intro s t h
    have a := srgb_expand h
    rw [div_le_iff₀ (by norm_num)] at a
    have b := C30_strictly_increasing.1.monotone h
    rw [abs_of_nonpos (by linarith), abs_of_nonpos (by linarith)]
    linarith
  rcases le_total s t with h | h
  · exact key h
  · rw [abs_sub_comm, abs_sub_comm (decode.srgb_t s)]; exact key h

theorem srgb_white_one : decode.srgb_t (1:ℝ) = 1 := by
  rw [dec_srgb, if_neg (by norm_num)]; norm_num

theorem srgb_dec_le_one {t : ℝ} (h : t ≤ 1) : decode.srgb_t t ≤ 1 := by
  have := C30_strictly_increasing.1.monotone h
  rwa [srgb_white_one] at this

/-- C125 [R]: let two `SRGB` colours have components up to 1. Then each encoded component agrees to within 2.02 times their
`delta_E_1976`, with respect to the white of the space. So a small colour difference means close components. -/
theorem C125_close (u v : RGBf ℝ) (hu : u.r ≤ 1 ∧ u.g ≤ 1 ∧ u.b ≤ 1) (hv : v.r ≤ 1 ∧ v.g ≤ 1 ∧ v.b ≤ 1) :
    let m := (Shipped.srgb (fun q => (q : ℝ))).xf_rgb_to_xyz
    let D := deltaE1976 (Spec.srgbLab m (Spec.ownWhite m) u) (Spec.srgbLab m (Spec.ownWhite m) v)
    |u.r - v.r| ≤ 2.02 * D ∧ |u.g - v.g| ≤ 2.02 * D ∧ |u.b - v.b| ≤ 2.02 * D := by
  intro m D
  have h100 : (Flt.lit 100.0 : ℝ) = 100 := by rw [flt_lit]; norm_num
  have ex : ∀ c : RGBf ℝ, (rgbToXyz m c).x = 41.24 * c.r + 35.76 * c.g + 18.05 * c.b := by
    intro c
    show (((0.4124:ℚ):ℝ) * c.r + ((0.3576:ℚ):ℝ) * c.g + ((0.1805:ℚ):ℝ) * c.b) * (Flt.lit 100.0 : ℝ) = _
    rw [h100]; push_cast; norm_num; ring
  have ey : ∀ c : RGBf ℝ, (rgbToXyz m c).y = 21.26 * c.r + 71.52 * c.g + 7.22 * c.b := by
    intro c
    show (((0.2126:ℚ):ℝ) * c.r + ((0.7152:ℚ):ℝ) * c.g + ((0.0722:ℚ):ℝ) * c.b) * (Flt.lit 100.0 : ℝ) = _
    rw [h100]; push_cast; norm_num; ring
  have ez : ∀ c : RGBf ℝ, (rgbToXyz m c).z = 1.93 * c.r + 11.92 * c.g + 95.05 * c.b := by
    intro c
    show (((0.0193:ℚ):ℝ) * c.r + ((0.1192:ℚ):ℝ) * c.g + ((0.9505:ℚ):ℝ) * c.b) * (Flt.lit 100.0 : ℝ) = _
    rw [h100]; push_cast; norm_num; ring
  have wx : (Spec.ownWhite m).x = 95.05 := by unfold Spec.ownWhite; rw [ex]; norm_num
  have wy : (Spec.ownWhite m).y = 100 := by unfold Spec.ownWhite; rw [ey]; norm_num
  have wz : (Spec.ownWhite m).z = 108.9 := by unfold Spec.ownWhite; rw [ez]; norm_num
  have le : ∀ c : RGBf ℝ, c.r ≤ 1 ∧ c.g ≤ 1 ∧ c.b ≤ 1 → (rgbToXyz m (decode.srgb c)).x ≤ (Spec.ownWhite m).x ∧
      (rgbToXyz m (decode.srgb c)).y ≤ (Spec.ownWhite m).y ∧ (rgbToXyz m (decode.srgb c)).z ≤ (Spec.ownWhite m).z := by
    intro c hc
    have r1 : (decode.srgb c).r ≤ 1 := srgb_dec_le_one hc.1
    have g1 : (decode.srgb c).g ≤ 1 := srgb_dec_le_one hc.2.1
    have b1 : (decode.srgb c).b ≤ 1 := srgb_dec_le_one hc.2.2
    rw [wx, wy, wz, ex, ey, ez]
    norm_num
    refine ⟨?_, ?_, ?_⟩ <;> linarith
  have k := C123_separate_1976 (rgbToXyz m (decode.srgb u)) (rgbToXyz m (decode.srgb v)) (Spec.ownWhite m)
    (by rw [wx]; norm_num) (by rw [wy]; norm_num) (by rw [wz]; norm_num) (le u hu) (le v hv)
  obtain ⟨kx, ky, kz⟩ := k
  rw [wx, ex, ex] at kx
  rw [wy, ey, ey] at ky
  rw [wz, ez, ez] at kz
  have er := srgb_expand_abs u.r v.r
  have eg := srgb_expand_abs u.g v.g
  have eb := srgb_expand_abs u.b v.b
  have D0 : 0 ≤ D := (C33_metric _ _ (Spec.srgbLab m (Spec.ownWhite m) u)).1
  change |_| ≤ 0.03 * D * _ at kx
  change |_| ≤ 0.03 * D * _ at ky
  change |_| ≤ 0.03 * D * _ at kz
  have lin : |decode.srgb_t u.r - decode.srgb_t v.r| ≤ 0.156 * D ∧ |decode.srgb_t u.g - decode.srgb_t v.g| ≤ 0.156 * D ∧
      |decode.srgb_t u.b - decode.srgb_t v.b| ≤ 0.156 * D := by
    change |41.24 * decode.srgb_t u.r + 35.76 * decode.srgb_t u.g + 18.05 * decode.srgb_t u.b -
      (41.24 * decode.srgb_t v.r + 35.76 * decode.srgb_t v.g + 18.05 * decode.srgb_t v.b)| ≤ _ at kx
    change |21.26 * decode.srgb_t u.r + 71.52 * decode.srgb_t u.g + 7.22 * decode.srgb_t u.b -
      (21.26 * decode.srgb_t v.r + 71.52 * decode.srgb_t v.g + 7.22 * decode.srgb_t v.b)| ≤ _ at ky
    change |1.93 * decode.srgb_t u.r + 11.92 * decode.srgb_t u.g + 95.05 * decode.srgb_t u.b -
      (1.93 * decode.srgb_t v.r + 11.92 * decode.srgb_t v.g + 95.05 * decode.srgb_t v.b)| ≤ _ at kz
    rw [abs_le] at kx ky kz
    obtain ⟨x1, x2⟩ := kx
    obtain ⟨y1, y2⟩ := ky
    obtain ⟨z1, z2⟩ := kz
    clear er eg eb le
    generalize decode.srgb_t u.r = a at *
    generalize decode.srgb_t u.g = b at *
    generalize decode.srgb_t u.b = c at *
    generalize decode.srgb_t v.r = a' at *
    generalize decode.srgb_t v.g = b' at *
    generalize decode.srgb_t v.b = c' at *
    clear_value D
    norm_num at x1 x2 y1 y2 z1 z2 ⊢
    refine ⟨abs_le.2 ⟨?_, ?_⟩, abs_le.2 ⟨?_, ?_⟩, abs_le.2 ⟨?_, ?_⟩⟩ <;> linarith
  obtain ⟨l1, l2, l3⟩ := lin
  norm_num at er eg eb l1 l2 l3 ⊢
  refine ⟨?_, ?_, ?_⟩ <;> linarith

/-- C125 [R]: two different 8-bit `SRGB` colours differ by at least 0.0019 in `delta_E_1976`, and two different 16-bit ones by
at least 0.0000075: no two codes stand for the same colour. -/
theorem C125_distinct :
    let m := (Shipped.srgb (fun q => (q : ℝ))).xf_rgb_to_xyz
    let lab := Spec.srgbLab m (Spec.ownWhite m)
    (∀ p q : RGBu8, p ≠ q → 0.0019 ≤ deltaE1976 (lab p.toF) (lab q.toF)) ∧
    (∀ p q : RGBu16, p ≠ q → 0.0000075 ≤ deltaE1976 (lab p.toF) (lab q.toF)) := by
  intro m lab
  have gap : ∀ {i j : ℕ} {N : ℝ}, 0 < N → i ≠ j → 1 / N ≤ |(i:ℝ) / N - j / N| := by
    intro i j N hN h
    rw [← sub_div, abs_div, abs_of_pos hN]
    refine div_le_div_of_nonneg_right ?_ hN.le
    have : (1:ℤ) ≤ |(i:ℤ) - j| := Int.one_le_abs (by omega)
    exact_mod_cast this
  have le8 : ∀ n : UInt8, (unquant8 n : ℝ) ≤ 1 := fun n => by
    rw [unq8, div_le_one (by norm_num)]
    have := n.toNat_lt
    exact_mod_cast (show n.toNat ≤ 255 by omega)
  have le16 : ∀ n : UInt16, (unquant16 n : ℝ) ≤ 1 := fun n => by
    rw [unq16, div_le_one (by norm_num)]
    have := n.toNat_lt
    exact_mod_cast (show n.toNat ≤ 65535 by omega)
  constructor
  · intro p q h
    obtain ⟨k1, k2, k3⟩ := C125_close p.toF q.toF ⟨le8 _, le8 _, le8 _⟩ ⟨le8 _, le8 _, le8 _⟩
    have g : ∀ {a b : UInt8}, a ≠ b → 1 / 255 ≤ |(unquant8 a : ℝ) - unquant8 b| := fun h => by
      rw [unq8, unq8]; exact gap (by norm_num) (fun e => h (UInt8.toNat_inj.1 e))
    have fin : (1:ℝ) / 255 ≤ 2.02 * deltaE1976 (lab p.toF) (lab q.toF) := by
      by_cases h1 : p.r = q.r
      · by_cases h2 : p.g = q.g
        · have h3 : p.b ≠ q.b := fun h3 => h (RGBu8.ext h1 h2 h3)
          exact (g h3).trans k3
        · exact (g h2).trans k2
      · exact (g h1).trans k1
    norm_num at fin ⊢
    linarith
  · intro p q h
    obtain ⟨k1, k2, k3⟩ := C125_close p.toF q.toF ⟨le16 _, le16 _, le16 _⟩ ⟨le16 _, le16 _, le16 _⟩
    have g : ∀ {a b : UInt16}, a ≠ b → 1 / 65535 ≤ |(unquant16 a : ℝ) - unquant16 b| := fun h => by
      rw [unq16, unq16]; exact gap (by norm_num) (fun e => h (UInt16.toNat_inj.1 e))
    have fin : (1:ℝ) / 65535 ≤ 2.02 * deltaE1976 (lab p.toF) (lab q.toF) := by
      by_cases h1 : p.r = q.r
      · by_cases h2 : p.g = q.g
        · have h3 : p.b ≠ q.b := fun h3 => h (RGBu16.ext h1 h2 h3)
          exact (g h3).trans k3
        · exact (g h2).trans k2
      · exact (g h1).trans k1
    norm_num at fin ⊢
    linarith

/-- Not vacuous: two neighbouring dark codes. -/
example : (⟨0, 0, 0⟩ : RGBu8) ≠ ⟨0, 0, 1⟩ ∧ ((⟨0, 0, 1⟩ : RGBu8).toF : RGBf ℝ).b ≤ 1 := by
  refine ⟨by decide, ?_⟩
  show (unquant8 1 : ℝ) ≤ 1
  rw [unq8, show UInt8.toNat 1 = 1 from rfl]; norm_num

end CS

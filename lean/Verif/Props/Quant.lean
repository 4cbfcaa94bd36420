import Verif.Lemmas.Quant
import Verif.Num.Real

/-!
# C01-C05: clamping and integer quantisation

`FP f` is the IEEE model; the theorems hold for every format `f` with enough precision, which
includes `Fmt.b32` and `Fmt.b64`.
-/

namespace CS

/-! ## C01 -/

section
variable {f : Fmt} [Libm f]

/-- C01 [F]: for `a <= b`, clamping anything but a NaN lands in `[a,b]`. -/
theorem C01_clamp_range_ieee (x a b : FP f) (hab : Flt.le a b = true) (hx : x.isNaN = false) :
    Flt.le a (clamp x a b) = true ∧ Flt.le (clamp x a b) b = true := by
  obtain ⟨u, v, ha, hb, huv⟩ := (FP.le_iff a b).1 hab
  obtain ⟨w, hw⟩ := FP.ext_of_not_nan hx
  unfold clamp
  simp only [FP.flt_lt, FP.flt_le, Flt.gt, FP.lt, FP.le, ha, hb, hw]
  by_cases h1 : w < u
  · simp [h1, ha, hb, huv]
  · by_cases h2 : v < w
    · simp [h1, h2, ha, hb, huv]
    · simp [h1, h2, ha, hb, hw, not_lt.1 h1, not_lt.1 h2]

/-- C01 [F]: a value already inside `[a,b]` is returned as it is. -/
theorem C01_clamp_inside_ieee (x a b : FP f) (h1 : Flt.le a x = true) (h2 : Flt.le x b = true) :
    clamp x a b = x := by
  obtain ⟨u, w, ha, hx, h1⟩ := (FP.le_iff a x).1 h1
  obtain ⟨w', v, hx', hb, h2⟩ := (FP.le_iff x b).1 h2
  rw [hx] at hx'
  obtain rfl := Option.some.inj hx'
  unfold clamp
  simp only [FP.flt_lt, Flt.gt, FP.lt, ha, hb, hx]
  simp [not_lt.2 h1, not_lt.2 h2]

/-- C01 [F]: a NaN is passed through. -/
theorem C01_clamp_nan_ieee (x a b : FP f) (hx : x.isNaN = true) : clamp x a b = x := by
  rw [FP.isNaN_eq_nan hx]
  unfold clamp
  simp [FP.flt_lt, Flt.gt]

/-- C01 [F]: clamping twice is clamping once, for every input including NaN. -/
theorem C01_clamp_idempotent_ieee (x a b : FP f) (hab : Flt.le a b = true) :
    clamp (clamp x a b) a b = clamp x a b := by
  by_cases hx : x.isNaN = true
  · rw [C01_clamp_nan_ieee x a b hx, C01_clamp_nan_ieee x a b hx]
  · have h := C01_clamp_range_ieee x a b hab (by simpa using hx)
    exact C01_clamp_inside_ieee _ a b h.1 h.2

/-- C01 [F]: clamping preserves order. -/
theorem C01_clamp_monotone_ieee (x y a b : FP f) (hab : Flt.le a b = true)
    (hxy : Flt.le x y = true) : Flt.le (clamp x a b) (clamp y a b) = true := by
  obtain ⟨u, v, ha, hb, huv⟩ := (FP.le_iff a b).1 hab
  obtain ⟨w, z, hx, hy, hwz⟩ := (FP.le_iff x y).1 hxy
  unfold clamp
  simp only [FP.flt_lt, FP.flt_le, Flt.gt, FP.lt, FP.le, ha, hb, hx, hy]
  by_cases h1 : w < u <;> by_cases h2 : v < w <;> by_cases h3 : z < u <;> by_cases h4 : v < z <;>
    simp [h1, h2, h3, h4, ha, hb, hx, hy, huv, hwz] <;>
    simp only [not_lt] at * <;> order

/-- C01 [F]: `clamprgb` clamps each component. -/
theorem C01_clamprgb_ieee (c : RGBf (FP f)) (a b : FP f) (hab : Flt.le a b = true)
    (i : ℕ) (v w : FP f) (h : (clamprgb c a b).index i = .ok v) (hc : c.index i = .ok w)
    (hn : w.isNaN = false) : Flt.le a v = true ∧ Flt.le v b = true := by
  match i with
  | 0 => simp only [RGBf.index, clamprgb, Except.ok.injEq] at h hc; subst h hc
         exact C01_clamp_range_ieee _ _ _ hab hn
  | 1 => simp only [RGBf.index, clamprgb, Except.ok.injEq] at h hc; subst h hc
         exact C01_clamp_range_ieee _ _ _ hab hn
  | 2 => simp only [RGBf.index, clamprgb, Except.ok.injEq] at h hc; subst h hc
         exact C01_clamp_range_ieee _ _ _ hab hn
  | n + 3 => simp [RGBf.index] at h

end

/-- C01 [R]: clamp is projection to the interval. -/
theorem C01_clamp_real (x a b : ℝ) (hab : a ≤ b) : clamp x a b = max a (min x b) := by
  unfold clamp
  simp only [flt_lt, Flt.gt, decide_eq_true_eq]
  split
  · next h => rw [min_eq_left (by linarith), max_eq_left h.le]
  · next h =>
    split
    · next h' => rw [min_eq_right h'.le, max_eq_right hab]
    · next h' => rw [min_eq_left (not_lt.1 h'), max_eq_right (not_lt.1 h)]

/-! ## C02-C05 -/

section
variable {f : Fmt} [Libm f]

/-- C02 [F]: NaN and everything `<= 0` becomes code 0, everything `>= 1` the maximum code
(8 bit). There is no hypothesis on `x`: NaN, infinities, `-0` and subnormals are included. -/
theorem C02_quant8_saturates (x : FP f) (hp : 8 ≤ f.p) :
    (x.isNaN = true → quant8 x = 0) ∧ (Flt.le x (Flt.lit 0) = true → quant8 x = 0) ∧
    (Flt.le (Flt.lit 1) x = true → quant8 x = 255) := by
  have key : ∀ n : ℕ, n ≤ 255 → x.isNaN = false →
      roundQ f ((clamp x (Flt.lit 0) (Flt.lit 1)).val * 255) = n → (quant8 x).toNat = n := by
    intro n hn hx h
    rw [(quant8_eq x hp hx).1, h]
    exact FP.roundHalfAway_near (by positivity) (by norm_num)
  refine ⟨fun h => ?_, fun h => ?_, fun h => ?_⟩
  · unfold quant8
    rw [C01_clamp_nan_ieee _ _ _ h, FP.isNaN_eq_nan h]
    rfl
  · have hx : x.isNaN = false := by
      cases x <;> first | rfl | (rw [FP.flt_le] at h; simp at h)
    apply UInt8.toNat_inj.1
    rw [key 0 (by norm_num) hx (by rw [FP.clamp01_le0 x h]; simp [roundQ_zero])]
    rfl
  · have hx : x.isNaN = false := by
      cases x <;> first | rfl | (rw [FP.flt_le] at h; simp at h)
    apply UInt8.toNat_inj.1
    rw [key 255 (by norm_num) hx (by
      rw [FP.clamp01_ge1 x h]
      have := (FP.isRep_nat (f := f) 255
        (le_trans (by norm_num) (Nat.pow_le_pow_right (by norm_num) hp))).1
      simpa using this)]
    rfl

/-- C02 [F], 16 bit. -/
theorem C02_quant16_saturates (x : FP f) (hp : 16 ≤ f.p) :
    (x.isNaN = true → quant16 x = 0) ∧ (Flt.le x (Flt.lit 0) = true → quant16 x = 0) ∧
    (Flt.le (Flt.lit 1) x = true → quant16 x = 65535) := by
  have key : ∀ n : ℕ, n ≤ 65535 → x.isNaN = false →
      roundQ f ((clamp x (Flt.lit 0) (Flt.lit 1)).val * 65535) = n → (quant16 x).toNat = n := by
    intro n hn hx h
    rw [(quant16_eq x hp hx).1, h]
    exact FP.roundHalfAway_near (by positivity) (by norm_num)
  refine ⟨fun h => ?_, fun h => ?_, fun h => ?_⟩
  · unfold quant16
    rw [C01_clamp_nan_ieee _ _ _ h, FP.isNaN_eq_nan h]
    rfl
  · have hx : x.isNaN = false := by
      cases x <;> first | rfl | (rw [FP.flt_le] at h; simp at h)
    apply UInt16.toNat_inj.1
    rw [key 0 (by norm_num) hx (by rw [FP.clamp01_le0 x h]; simp [roundQ_zero])]
    rfl
  · have hx : x.isNaN = false := by
      cases x <;> first | rfl | (rw [FP.flt_le] at h; simp at h)
    apply UInt16.toNat_inj.1
    rw [key 65535 (by norm_num) hx (by
      rw [FP.clamp01_ge1 x h]
      have := (FP.isRep_nat (f := f) 65535
        (le_trans (by norm_num) (Nat.pow_le_pow_right (by norm_num) hp))).1
      simpa using this)]
    rfl

/-- C02 [F]: the colour conversions quantise the components independently, so the three clauses
above describe `RGBu8::from` and `RGBu16::from` of every colour. -/
theorem C02_toU8_components (c : RGBf (FP f)) :
    c.toU8.r = quant8 c.r ∧ c.toU8.g = quant8 c.g ∧ c.toU8.b = quant8 c.b ∧
    c.toU16.r = quant16 c.r ∧ c.toU16.g = quant16 c.g ∧ c.toU16.b = quant16 c.b :=
  ⟨rfl, rfl, rfl, rfl, rfl, rfl⟩

/-- C02 [F] for the whole 8-bit pixel, binary32 and binary64. -/
theorem C02_pixel8 [Libm Fmt.b32] [Libm Fmt.b64] :
    (∀ c : RGBf (FP Fmt.b32), Flt.le (Flt.lit 1) c.r = true → c.g.isNaN = true →
      Flt.le c.b (Flt.lit 0) = true → c.toU8 = ⟨255, 0, 0⟩) ∧
    (∀ c : RGBf (FP Fmt.b64), Flt.le (Flt.lit 1) c.r = true → c.g.isNaN = true →
      Flt.le c.b (Flt.lit 0) = true → c.toU8 = ⟨255, 0, 0⟩) := by
  refine ⟨fun c h1 h2 h3 => ?_, fun c h1 h2 h3 => ?_⟩ <;>
  · unfold RGBf.toU8
    rw [(C02_quant8_saturates c.r (by decide)).2.2 h1, (C02_quant8_saturates c.g (by decide)).1 h2,
      (C02_quant8_saturates c.b (by decide)).2.1 h3]

theorem clamp01_val_mono (x y : FP f) (h : Flt.le x y = true) :
    (clamp x (Flt.lit 0) (Flt.lit 1)).val ≤ (clamp y (Flt.lit 0) (Flt.lit 1)).val ∧
      x.isNaN = false ∧ y.isNaN = false := by
  have hx : x.isNaN = false := by
    cases x <;> first | rfl | (rw [FP.flt_le] at h; simp at h)
  have hy : y.isNaN = false := by
    cases y <;> first | rfl | (rw [FP.flt_le] at h; simp at h)
  have h01 : Flt.le (Flt.lit 0 : FP f) (Flt.lit 1) = true := by
    rw [FP.flt_lit0, FP.flt_lit1, FP.flt_le, FP.le_fin]; norm_num
  have := C01_clamp_monotone_ieee x y _ _ h01 h
  rw [FP.flt_le, FP.le_finite (FP.clamp01 x hx).1 (FP.clamp01 y hy).1, decide_eq_true_eq] at this
  exact ⟨this, hx, hy⟩

/-- C03 [F]: larger floats never get smaller 8-bit codes, all roundings included. -/
theorem C03_quant8_monotone (x y : FP f) (hp : 8 ≤ f.p) (h : Flt.le x y = true) :
    quant8 x ≤ quant8 y := by
  obtain ⟨hv, hx, hy⟩ := clamp01_val_mono x y h
  rw [UInt8.le_iff_toNat_le, (quant8_eq x hp hx).1, (quant8_eq y hp hy).1]
  exact Int.toNat_le_toNat (FP.roundHalfAway_mono (quant8_eq x hp hx).2
    (roundQ_mono f (by linarith)))

/-- C03 [F], 16 bit. -/
theorem C03_quant16_monotone (x y : FP f) (hp : 16 ≤ f.p) (h : Flt.le x y = true) :
    quant16 x ≤ quant16 y := by
  obtain ⟨hv, hx, hy⟩ := clamp01_val_mono x y h
  rw [UInt16.le_iff_toNat_le, (quant16_eq x hp hx).1, (quant16_eq y hp hy).1]
  exact Int.toNat_le_toNat (FP.roundHalfAway_mono (quant16_eq x hp hx).2
    (roundQ_mono f (by linarith)))

/-- C04 [F]: an 8-bit pixel survives the trip through any float format of at least 10 bits of
precision. -/
theorem C04_u8_roundtrip (c : RGBu8) (hp : 10 ≤ f.p) : (c.toF : RGBf (FP f)).toU8 = c := by
  unfold RGBf.toU8 RGBu8.toF
  simp [u8_roundtrip _ hp]

/-- C04 [F]: a 16-bit pixel survives the trip through any float format of at least 18 bits of
precision. -/
theorem C04_u16_roundtrip (c : RGBu16) (hp : 18 ≤ f.p) : (c.toF : RGBf (FP f)).toU16 = c := by
  unfold RGBf.toU16 RGBu16.toF
  simp [u16_roundtrip _ hp]

/-- C04 at the formats of the crate. -/
theorem C04_f32_f64 [Libm Fmt.b32] [Libm Fmt.b64] :
    (∀ c : RGBu8, (c.toF : RGBf (FP Fmt.b32)).toU8 = c ∧ (c.toF : RGBf (FP Fmt.b64)).toU8 = c) ∧
    (∀ c : RGBu16, (c.toF : RGBf (FP Fmt.b32)).toU16 = c ∧ (c.toF : RGBf (FP Fmt.b64)).toU16 = c) :=
  ⟨fun c => ⟨C04_u8_roundtrip c (by decide), C04_u8_roundtrip c (by decide)⟩,
   fun c => ⟨C04_u16_roundtrip c (by decide), C04_u16_roundtrip c (by decide)⟩⟩

/-- C05 [F]: the 8-bit code is a nearest one up to the rounding of the multiplication
(half a unit in the last place at 255, that is `2^(7-p)`). -/
theorem C05_quant8_nearest_ieee (x : FP f) (hp : 8 ≤ f.p) (hx : x.isFinite = true)
    (h0 : 0 ≤ x.val) (h1 : x.val ≤ 1) :
    |((quant8 x).toNat : ℚ) - 255 * x.val| ≤ 1/2 + 2 ^ (7 - (f.p : ℤ)) := by
  obtain ⟨e, hr⟩ := quant8_eq x hp (FP.isNaN_of_finite hx)
  rw [FP.clamp01_mid x hx h0 h1] at e hr
  have e2 := FP.roundHalfAway_err hr
  have e3 := roundQ_err_lt f (q := x.val * 255) (k := 7) (by
    rw [abs_of_nonneg (by positivity)]; norm_num; linarith)
  have hk0 : 0 ≤ FP.roundHalfAway (roundQ f (x.val * 255)) := by
    rw [FP.roundHalfAway_nonneg hr]; exact Int.floor_nonneg.2 (by linarith)
  have hc : ((quant8 x).toNat : ℚ) = (FP.roundHalfAway (roundQ f (x.val * 255)) : ℚ) := by
    rw [e]; exact_mod_cast Int.toNat_of_nonneg hk0
  rw [hc]
  rw [abs_le] at *
  push_cast at *
  constructor <;> linarith [e2.1, e2.2, e3.1, e3.2]

/-- C05 [F], 16 bit: the error term is `2^(15-p)`. -/
theorem C05_quant16_nearest_ieee (x : FP f) (hp : 16 ≤ f.p) (hx : x.isFinite = true)
    (h0 : 0 ≤ x.val) (h1 : x.val ≤ 1) :
    |((quant16 x).toNat : ℚ) - 65535 * x.val| ≤ 1/2 + 2 ^ (15 - (f.p : ℤ)) := by
  obtain ⟨e, hr⟩ := quant16_eq x hp (FP.isNaN_of_finite hx)
  rw [FP.clamp01_mid x hx h0 h1] at e hr
  have e2 := FP.roundHalfAway_err hr
  have e3 := roundQ_err_lt f (q := x.val * 65535) (k := 15) (by
    rw [abs_of_nonneg (by positivity)]; norm_num; linarith)
  have hk0 : 0 ≤ FP.roundHalfAway (roundQ f (x.val * 65535)) := by
    rw [FP.roundHalfAway_nonneg hr]; exact Int.floor_nonneg.2 (by linarith)
  have hc : ((quant16 x).toNat : ℚ) = (FP.roundHalfAway (roundQ f (x.val * 65535)) : ℚ) := by
    rw [e]; exact_mod_cast Int.toNat_of_nonneg hk0
  rw [hc]
  rw [abs_le] at *
  push_cast at *
  constructor <;> linarith [e2.1, e2.2, e3.1, e3.2]

/-- Non-vacuity: the hypotheses of the theorems above are met by ordinary floats, here `1/2` in
binary32, which is inside `[0,1]`, finite, and quantises to 128. -/
example [Libm Fmt.b32] : let x : FP Fmt.b32 := FP.fin (1/2) (by decide +kernel)
    x.isFinite = true ∧ 0 ≤ x.val ∧ x.val ≤ 1 ∧ Flt.le (Flt.lit 0) x = true ∧
    Flt.le x (Flt.lit 1) = true ∧ x.isNaN = false := by
  intro x
  refine ⟨rfl, by norm_num [x], by norm_num [x], ?_, ?_, rfl⟩
  · rw [FP.flt_lit0, FP.flt_le, FP.le_fin]; norm_num
  · rw [FP.flt_lit1, FP.flt_le, FP.le_fin]; norm_num

end

/-- C05 [R]: in exact arithmetic the 8-bit code is a nearest one. -/
theorem C05_quant8_nearest_real (x : ℝ) (h0 : 0 ≤ x) (h1 : x ≤ 1) :
    |((quant8 x).toNat : ℝ) - 255 * x| ≤ 1/2 := by
  have hc : clamp x (Flt.lit 0) (Flt.lit 1) = x := by
    rw [C01_clamp_real _ _ _ (by simp)]; simp [h0, h1]
  unfold quant8
  rw [hc]
  simp only [flt_asUInt, flt_lit]
  have hr : (Flt.round (x * ((255:ℚ):ℝ)) : ℝ) = ⌊x * 255 + 1/2⌋ := by
    show (if 0 ≤ x * ((255:ℚ):ℝ) then (_:ℝ) else _) = _
    rw [if_pos (by push_cast; positivity)]; norm_num
  rw [hr]
  have hf0 : 0 ≤ ⌊x * 255 + 1/2⌋ := Int.floor_nonneg.2 (by positivity)
  have hf1 : ⌊x * 255 + 1/2⌋ < 256 := by rw [Int.floor_lt]; push_cast; linarith
  obtain ⟨k, hk⟩ := Int.eq_ofNat_of_zero_le hf0
  have hk' : k ≤ 255 := by omega
  rw [hk, Int.cast_natCast, Nat.floor_natCast]
  have : Nat.min 255 k = k := Nat.min_eq_right hk'
  rw [this, UInt8.toNat_ofNat', Nat.mod_eq_of_lt (by omega), abs_le]
  have a1 := Int.floor_le (x * 255 + 1/2)
  have a2 := Int.lt_floor_add_one (x * 255 + 1/2)
  rw [hk, Int.cast_natCast] at a1 a2
  constructor <;> linarith

/-- C05 [R], 16 bit. -/
theorem C05_quant16_nearest_real (x : ℝ) (h0 : 0 ≤ x) (h1 : x ≤ 1) :
    |((quant16 x).toNat : ℝ) - 65535 * x| ≤ 1/2 := by
  have hc : clamp x (Flt.lit 0) (Flt.lit 1) = x := by
    rw [C01_clamp_real _ _ _ (by simp)]; simp [h0, h1]
  unfold quant16
  rw [hc]
  simp only [flt_asUInt, flt_lit]
  have hr : (Flt.round (x * ((65535:ℚ):ℝ)) : ℝ) = ⌊x * 65535 + 1/2⌋ := by
    show (if 0 ≤ x * ((65535:ℚ):ℝ) then (_:ℝ) else _) = _
    rw [if_pos (by push_cast; positivity)]; norm_num
  rw [hr]
  have hf0 : 0 ≤ ⌊x * 65535 + 1/2⌋ := Int.floor_nonneg.2 (by positivity)
  have hf1 : ⌊x * 65535 + 1/2⌋ < 65536 := by rw [Int.floor_lt]; push_cast; linarith
  obtain ⟨k, hk⟩ := Int.eq_ofNat_of_zero_le hf0
  have hk' : k ≤ 65535 := by omega
  rw [hk, Int.cast_natCast, Nat.floor_natCast]
  have : Nat.min 65535 k = k := Nat.min_eq_right hk'
  rw [this, UInt16.toNat_ofNat', Nat.mod_eq_of_lt (by omega), abs_le]
  have a1 := Int.floor_le (x * 65535 + 1/2)
  have a2 := Int.lt_floor_add_one (x * 65535 + 1/2)
  rw [hk, Int.cast_natCast] at a1 a2
  constructor <;> linarith

end CS

import Verif.Props.Gamut
import Verif.Props.Distinct
import Verif.Lemmas.FPLinear
import Verif.Lemmas.BtClose

/-!
# 8-bit sRGB and BT.709 images survive a trip through a wider space in 16 bits (C127)
-/

namespace CS
open Spec

/-! ### specification -/

/-- `s` and `d` exist, and every 8-bit image in `s`, converted with `rgb_to_rgb` to 16-bit codes in `d` and from these back to
8-bit codes in `s`, is what it was; the buffers may hold anything before, and both counts are the length of the image -/
def Spec.Survives8 (s d : Res (ColorSpaceRGB ℝ)) : Prop :=
  ∃ a b, s = .ok a ∧ d = .ok b ∧ ∀ (image out8 : List RGBu8) (out16 : List RGBu16),
    out8.length = image.length → out16.length = image.length →
    ∃ wide, rgbToRgb RGBf.toU16 a b (image.map RGBu8.toF) out16 = .ok (wide, image.length) ∧
      rgbToRgb RGBf.toU8 b a (wide.map RGBu16.toF) out8 = .ok (image, image.length)

/-! ### codes -/

theorem quant8_near {x : ℝ} (n : UInt8) (h : |x - n.toNat / 255| ≤ 19 / 10000) : quant8 x = n := by
  have hn : (n.toNat : ℝ) ≤ 255 := by exact_mod_cast Nat.le_of_lt_succ n.toNat_lt
  have hn0 : (0:ℝ) ≤ n.toNat / 255 := by positivity
  have hn1 : (n.toNat : ℝ) / 255 ≤ 1 := by rw [div_le_one (by norm_num)]; exact hn
  obtain ⟨y, hy0, hy1, hy, e⟩ : ∃ y : ℝ, 0 ≤ y ∧ y ≤ 1 ∧ |y - n.toNat / 255| ≤ 19 / 10000 ∧ quant8 x = quant8 y := by
    have hc : ∀ x : ℝ, clamp x (Flt.lit 0) (Flt.lit 1) = max 0 (min 1 x) := by
      intro x
      rw [C01_clamp_real _ _ _ (by simp)]
      rcases le_total x 0 with h0 | h0 <;> rcases le_total x 1 with h1 | h1 <;> simp [h0, h1]
    refine ⟨max 0 (min 1 x), le_max_left _ _, max_le zero_le_one (min_le_left _ _), ?_, ?_⟩
    · rw [abs_le] at h ⊢
      rcases le_total x 0 with h0 | h0
      · rw [max_eq_left (min_le_of_right_le h0)]; constructor <;> linarith
      · rw [max_eq_right (le_min zero_le_one h0)]
        rcases le_total x 1 with h1 | h1
        · rw [min_eq_right h1]; exact h
        · rw [min_eq_left h1]; constructor <;> linarith
    · unfold quant8
      have e : max 0 (min 1 (max 0 (min 1 x))) = max 0 (min 1 x) := by
        rw [min_eq_right (max_le zero_le_one (min_le_left 1 x)), max_eq_right (le_max_left 0 (min 1 x))]
      rw [hc, hc, e]
  rw [e]
  have k := C05_quant8_nearest_real y hy0 hy1
  apply UInt8.toNat_inj.1
  rw [abs_le] at hy k
  have l1 : ((quant8 y).toNat : ℝ) < n.toNat + 1 := by linarith [hy.1, hy.2, k.1, k.2]
  have l2 : (n.toNat : ℝ) < (quant8 y).toNat + 1 := by linarith [hy.1, hy.2, k.1, k.2]
  have l1' : (quant8 y).toNat < n.toNat + 1 := by exact_mod_cast l1
  have l2' : n.toNat < (quant8 y).toNat + 1 := by exact_mod_cast l2
  omega

/-! ### the way back -/

/-- a component that moves little keeps its code -/
theorem srgb_back (n : UInt8) {z : ℝ} (h : |z - decode.srgb_t (unquant8 n : ℝ)| ≤ 1.4699e-4) :
    quant8 (encode.srgb_t z) = n := by
  apply quant8_near
  have a := srgb_expand_abs (encode.srgb_t z) (unquant8 n)
  have b := (C26_decode_encode z).2
  rw [← unq8]
  refine a.trans ?_
  have : |decode.srgb_t (encode.srgb_t z) - decode.srgb_t (unquant8 n : ℝ)| ≤ 1e-8 + 1.4699e-4 := by
    refine (abs_sub_le _ z _).trans (add_le_add b h)
  calc _ ≤ 12.92 * ((1e-8 : ℝ) + 1.4699e-4) := mul_le_mul_of_nonneg_left this (by norm_num)
    _ ≤ _ := by norm_num

theorem row_moves {x y z p q r p' q' r' W : ℝ} (hr : |x| + |y| + |z| ≤ 2.33) (h1 : |p - p'| ≤ W) (h2 : |q - q'| ≤ W)
    (h3 : |r - r'| ≤ W) : |x * p + y * q + z * r - (x * p' + y * q' + z * r')| ≤ 2.33 * W := by
  have hW := (abs_nonneg _).trans h1
  rw [show x * p + y * q + z * r - (x * p' + y * q' + z * r') = x * (p - p') + y * (q - q') + z * (r - r') by ring]
  refine (abs_add_three _ _ _).trans ?_
  rw [abs_mul, abs_mul, abs_mul]
  have a := mul_le_mul_of_nonneg_left h1 (abs_nonneg x)
  have b := mul_le_mul_of_nonneg_left h2 (abs_nonneg y)
  have c := mul_le_mul_of_nonneg_left h3 (abs_nonneg z)
  have d := mul_le_mul_of_nonneg_right hr hW
  linarith

/-- the rows of the matrix do not stretch more than the widest of the shipped ones -/
def RowsSmall (m : Matrix33 ℝ) : Prop := |m.x0| + |m.x1| + |m.x2| ≤ 2.33 ∧ |m.x3| + |m.x4| + |m.x5| ≤ 2.33 ∧
  |m.x6| + |m.x7| + |m.x8| ≤ 2.33

/-- the decoder sends codes to [0, 1], and light near that of a code is encoded to it -/
def Keeps (te td : ℝ → ℝ) : Prop :=
  (∀ n : UInt8, 0 ≤ td (unquant8 n) ∧ td (unquant8 n) ≤ 1) ∧
  ∀ (n : UInt8) (z : ℝ), |z - td (unquant8 n)| ≤ 1.4699e-4 → quant8 (te z) = n

theorem trip8 {te td : ℝ → ℝ} (hk : Keeps te td) {m m' : Matrix33 ℝ} (hm : m' * m = Matrix33.identity) (hs : RowsSmall m')
    (c : RGBu8) (z : RGBf ℝ) (hr : |z.r - (m * (c.toF : RGBf ℝ).mapc td).r| ≤ 6.3e-5)
    (hg : |z.g - (m * (c.toF : RGBf ℝ).mapc td).g| ≤ 6.3e-5)
    (hb : |z.b - (m * (c.toF : RGBf ℝ).mapc td).b| ≤ 6.3e-5) : ((m' * z).mapc te).toU8 = c := by
  have back : m' * (m * (c.toF : RGBf ℝ).mapc td) = (c.toF : RGBf ℝ).mapc td := by
    rw [mul_def] at hm
    have e0 := congrArg Matrix33.x0 hm
    have e1 := congrArg Matrix33.x1 hm
    have e2 := congrArg Matrix33.x2 hm
    have e3 := congrArg Matrix33.x3 hm
    have e4 := congrArg Matrix33.x4 hm
    have e5 := congrArg Matrix33.x5 hm
    have e6 := congrArg Matrix33.x6 hm
    have e7 := congrArg Matrix33.x7 hm
    have e8 := congrArg Matrix33.x8 hm
    simp only [Matrix33.identity, Flt.one, Flt.zero, flt_lit, Rat.cast_one, Rat.cast_zero] at e0 e1 e2 e3 e4 e5 e6 e7 e8
    generalize (c.toF : RGBf ℝ).mapc td = v
    rw [mulR_def, mulR_def]
    ext <;> dsimp only
    · linear_combination v.r * e0 + v.g * e1 + v.b * e2
    · linear_combination v.r * e3 + v.g * e4 + v.b * e5
    · linear_combination v.r * e6 + v.g * e7 + v.b * e8
  have key : ∀ {u v : ℝ}, |u - v| ≤ 2.33 * 6.3e-5 → |u - v| ≤ 1.4699e-4 := fun h => h.trans (by norm_num)
  obtain ⟨s1, s2, s3⟩ := hs
  have k1 := key (row_moves s1 hr hg hb)
  have k2 := key (row_moves s2 hr hg hb)
  have k3 := key (row_moves s3 hr hg hb)
  have b1 := congrArg RGBf.r back
  have b2 := congrArg RGBf.g back
  have b3 := congrArg RGBf.b back
  rw [mulR_def] at b1 b2 b3
  dsimp only at b1 b2 b3
  rw [b1] at k1
  rw [b2] at k2
  rw [b3] at k3
  have q1 := hk.2 c.r _ k1
  have q2 := hk.2 c.g _ k2
  have q3 := hk.2 c.b _ k3
  show (⟨_, _, _⟩ : RGBu8) = c
  cases c
  simp only [RGBu8.mk.injEq]
  exact ⟨q1, q2, q3⟩

/-! ### images -/

theorem convLoop_full {T U : Type} (g : RGBf T → U) : ∀ (out : List U) (l : List (RGBf T)), out.length = l.length →
    convLoop g out l = (l.map g, l.length)
  | [], [], _ => rfl
  | o :: out, c :: l, e => by
    have := convLoop_full g out l (by simpa using e)
    simp [convLoop, this]

/-- light in [0, 1] is nearly restored after encoding it and storing it in 16 bits -/
def Restores (o e : RGBf ℝ → RGBf ℝ) : Prop := ∀ y : RGBf ℝ, Spec.InRange y →
  |(e (o y).toU16.toF).r - y.r| ≤ 6.3e-5 ∧ |(e (o y).toU16.toF).g - y.g| ≤ 6.3e-5 ∧ |(e (o y).toU16.toF).b - y.b| ≤ 6.3e-5

theorem keeps_srgb : Keeps encode.srgb_t decode.srgb_t := by
  refine ⟨fun n => ?_, fun n z h => srgb_back n h⟩
  have hn : (n.toNat : ℝ) ≤ 255 := by exact_mod_cast Nat.le_of_lt_succ n.toNat_lt
  have h0 : (0:ℝ) ≤ unquant8 n := by rw [unq8]; positivity
  have h1 : (unquant8 n : ℝ) ≤ 1 := by rw [unq8, div_le_one (by norm_num)]; exact hn
  have a := srgb_expand h0
  have b := srgb_expand h1
  rw [C30_black_white.2.1] at a
  rw [C30_black_white.2.2.2.1] at b
  have c1 : 0 ≤ ((unquant8 n : ℝ) - 0) / 12.92 := by rw [sub_zero]; positivity
  have c2 : 0 ≤ (1 - (unquant8 n : ℝ)) / 12.92 := div_nonneg (by linarith) (by norm_num)
  constructor <;> linarith

/-- the BT.709 encoder, with the jump at its seam -/
theorem bt709_enc_near (x z : ℝ) : |encode.bt709_t z - encode.bt709_t x| ≤ 4.62 * |z - x| + 2.5e-4 := by
  have low : ∀ {x z : ℝ}, x ≤ 0.018 → 0.018 < z →
      |(1.099 * z ^ (((9:ℕ):ℝ) / ((20:ℕ):ℝ)) - 0.099) - x * 4.5| ≤ 4.62 * |z - x| + 2.5e-4 := by
    intro x z hx hz
    have l := bt_lip (a := z) (b := 0.018) (by linarith) (by norm_num)
    have u1 := (rpow_lt_iff (x := 0.018) (by norm_num) (c := 0.18 / 1.099) (by norm_num) 9 20 (by norm_num)).2 (by norm_num)
    have u2 := (rpow_le_iff (x := 0.018) (by norm_num) (c := 0.18025 / 1.099) (by norm_num) 9 20 (by norm_num)).2 (by norm_num)
    have mono := Real.rpow_le_rpow (x := 0.018) (y := z) (z := ((9:ℕ):ℝ) / ((20:ℕ):ℝ)) (by norm_num) hz.le (by positivity)
    rw [show (0.45:ℝ) = ((9:ℕ):ℝ) / ((20:ℕ):ℝ) by norm_num] at l
    rw [abs_of_pos (show 0 < z - 0.018 by linarith)] at l
    rw [abs_of_pos (show 0 < z - x by linarith)]
    have l := (abs_le.1 l).2
    rw [div_lt_iff₀ (by norm_num)] at u1
    rw [le_div_iff₀ (by norm_num)] at u2
    generalize z ^ (((9:ℕ):ℝ) / ((20:ℕ):ℝ)) = P at *
    generalize (0.018:ℝ) ^ (((9:ℕ):ℝ) / ((20:ℕ):ℝ)) = Q at *
    rw [abs_le]
    constructor <;> linarith
  rw [enc_bt709, enc_bt709]
  split_ifs with h1 h2 h2
  · rw [← sub_mul, abs_mul, abs_of_pos (show (0:ℝ) < 4.5 by norm_num)]
    have := abs_nonneg (z - x)
    linarith
  · rw [abs_sub_comm, abs_sub_comm z]
    exact low h1 (not_le.1 h2)
  · exact low h2 (not_le.1 h1)
  · have l := bt_lip (a := z) (b := x) (by linarith) (by linarith)
    rw [show (0.45:ℝ) = ((9:ℕ):ℝ) / ((20:ℕ):ℝ) by norm_num] at l
    rw [sub_sub_sub_cancel_right, ← mul_sub, abs_mul, abs_of_pos (show (0:ℝ) < 1.099 by norm_num)]
    have := abs_nonneg (z - x)
    linarith

theorem keeps_bt709 : Keeps encode.bt709_t decode.bt709_t := by
  refine ⟨fun n => ?_, fun n z h => ?_⟩
  · have hn : (n.toNat : ℝ) ≤ 255 := by exact_mod_cast Nat.le_of_lt_succ n.toNat_lt
    have h0 : (0:ℝ) ≤ unquant8 n := by rw [unq8]; positivity
    have h1 : (unquant8 n : ℝ) ≤ 1 := by rw [unq8, div_le_one (by norm_num)]; exact hn
    rw [dec_bt709]
    split_ifs with h
    · exact ⟨by positivity, by rw [div_le_one (by norm_num)]; linarith⟩
    · exact ⟨by positivity, Real.rpow_le_one (by positivity) (by rw [div_le_one (by norm_num)]; linarith) (by positivity)⟩
  · apply quant8_near
    have e : encode.bt709_t (decode.bt709_t (unquant8 n : ℝ)) = unquant8 n := by
      refine (C27_encode_decode _).1 ?_
      rintro ⟨a, b⟩
      rw [unq8, lt_div_iff₀ (by norm_num)] at a
      rw [unq8, div_lt_iff₀ (by norm_num)] at b
      have a' : (20:ℝ) < n.toNat := by linarith
      have b' : (n.toNat:ℝ) < 21 := by linarith
      have a'' : 20 < n.toNat := by exact_mod_cast a'
      have b'' : n.toNat < 21 := by exact_mod_cast b'
      omega
    have l := bt709_enc_near (decode.bt709_t (unquant8 n : ℝ)) z
    rw [e] at l
    rw [← unq8]
    refine l.trans ((add_le_add_left (mul_le_mul_of_nonneg_left h (by norm_num)) _).trans (by norm_num))

theorem survives_of {s d : Res (ColorSpaceRGB ℝ)} {a b : ColorSpaceRGB ℝ} (es : s = .ok a) (ed : d = .ok b)
    {te td : ℝ → ℝ} (hk : Keeps te td) (ho : a.oetf = fun c => c.mapc te) (he : a.eotf = fun c => c.mapc td) (hr : Restores b.oetf b.eotf) {m m' : Matrix33 ℝ}
    (hm : rgbToRgbMatrix a b = .ok m) (hm' : rgbToRgbMatrix b a = .ok m') (hi : m' * m = Matrix33.identity)
    (hc : ∀ c : RGBf ℝ, Spec.InRange c → Spec.InRange (m * c)) (hs : RowsSmall m') : Spec.Survives8 s d := by
  refine ⟨a, b, es, ed, fun image out8 out16 l8 l16 => ?_⟩
  refine ⟨(image.map RGBu8.toF).map fun c => (b.encode (m * a.decode c)).toU16, ?_, ?_⟩
  · unfold rgbToRgb
    rw [hm]
    show Except.ok _ = _
    rw [convLoop_full _ _ _ (by rw [List.length_map, l16])]
    rw [List.length_map]
  · unfold rgbToRgb
    rw [hm']
    show Except.ok _ = _
    rw [convLoop_full _ _ _ (by simp [l8])]
    simp only [List.length_map, List.map_map]
    congr 2
    refine (List.map_congr_left fun c _ => ?_).trans (List.map_id _)
    simp only [Function.comp_apply, ColorSpaceRGB.encode, ColorSpaceRGB.decode, ho, he, id]
    obtain ⟨k1, k2, k3⟩ := hr _ (hc ((c.toF : RGBf ℝ).mapc td) ⟨hk.1 _, hk.1 _, hk.1 _⟩)
    exact trip8 hk hi hs c _ k1 k2 k3

/-! ### the two middle spaces -/

theorem near16 {x : ℝ} (h0 : 0 ≤ x) (h1 : x ≤ 1) : |(unquant16 (quant16 x) : ℝ) - x| ≤ 1 / 131070 ∧
    (0:ℝ) ≤ unquant16 (quant16 x) ∧ (unquant16 (quant16 x) : ℝ) ≤ 1 := by
  refine ⟨?_, ?_, ?_⟩
  · rw [abs_sub_comm, unq16]
    exact (code_near (by norm_num) (C05_quant16_nearest_real _ h0 h1)).trans (by norm_num)
  · rw [unq16]; positivity
  · rw [unq16, div_le_one (by norm_num)]
    exact_mod_cast Nat.le_of_lt_succ (quant16 x).toNat_lt

theorem restores_power : Restores (fun c => c.powf (ratLit 1.0 / ratLit 2.6)) (fun c => c.powf (ratLit 2.6)) := by
  have key : ∀ {y : ℝ}, 0 ≤ y → y ≤ 1 →
      |(unquant16 (quant16 (y ^ ((ratLit 1.0 : ℝ) / ratLit 2.6))) : ℝ) ^ (ratLit 2.6 : ℝ) - y| ≤ 6.3e-5 := by
    intro y h0 h1
    have p0 : 0 ≤ y ^ ((ratLit 1.0 : ℝ) / ratLit 2.6) := Real.rpow_nonneg h0 _
    have p1 : y ^ ((ratLit 1.0 : ℝ) / ratLit 2.6) ≤ 1 := Real.rpow_le_one h0 h1 (by norm_num)
    obtain ⟨n, q0, q1⟩ := near16 p0 p1
    have e : (y ^ ((ratLit 1.0 : ℝ) / ratLit 2.6)) ^ (ratLit 2.6 : ℝ) = y := by
      rw [← Real.rpow_mul h0, div_mul_cancel₀ _ (by norm_num), show (ratLit 1.0 : ℝ) = 1 by norm_num, Real.rpow_one]
    have l := rpow_lip_up (M := 1) (K := 2.6) (r := ratLit 2.6) (by norm_num) (by rw [Real.one_rpow]; norm_num) q0 q1 p0 p1
    rw [e] at l
    refine l.trans ((mul_le_mul_of_nonneg_left n (by norm_num)).trans (by norm_num))
  rintro y ⟨⟨r0, r1⟩, ⟨g0, g1⟩, ⟨b0, b1⟩⟩
  exact ⟨key r0 r1, key g0 g1, key b0 b1⟩

theorem restores_bt2020 : Restores encode.bt2020 decode.bt2020 := by
  have key : ∀ {y : ℝ}, 0 ≤ y → y ≤ 1 →
      |decode.bt2020_t (unquant16 (quant16 (encode.bt2020_t y)) : ℝ) - y| ≤ 6.3e-5 := by
    intro y h0 h1
    rw [enc_bt2020]
    by_cases hy : y < 0.018
    · rw [if_pos hy]
      obtain ⟨n, q0, q1⟩ := near16 (x := y * 4.5) (by positivity) (by linarith)
      generalize (unquant16 (quant16 (y * 4.5)) : ℝ) = q at *
      rw [abs_le] at n
      rw [dec_bt2020]
      split_ifs with hq
      · rw [abs_le]
        constructor
        · rw [le_sub_iff_add_le, le_div_iff₀ (by norm_num)]; linarith
        · rw [sub_le_iff_le_add, div_le_iff₀ (by norm_num)]; linarith
      · push Not at hq
        have hq' : q ≤ 0.08101 := by linarith
        have a1 : (0.18 / 1.099 : ℝ) ≤ (q + 0.099) / 1.099 := by gcongr; linarith
        have a2 : (q + 0.099) / 1.099 ≤ (0.18001 / 1.099 : ℝ) := by gcongr; linarith
        have a0 : (0:ℝ) ≤ (q + 0.099) / 1.099 := le_trans (by norm_num) a1
        have u := (rpow_lt_iff a0 (c := 0.01794) (by norm_num) 20 9 (by norm_num)).2
          (lt_of_lt_of_le (by norm_num) (pow_le_pow_left₀ (by norm_num) a1 20))
        have v := (rpow_le_iff a0 (c := 0.01796) (by norm_num) 20 9 (by norm_num)).2
          ((pow_le_pow_left₀ a0 a2 20).trans (by norm_num))
        generalize ((q + 0.099) / 1.099) ^ (((20:ℕ):ℝ) / ((9:ℕ):ℝ)) = P at *
        rw [abs_le]
        constructor <;> linarith
    · rw [if_neg hy]
      push Not at hy
      have lo := (rpow_lt_iff h0 (c := 0.18015 / 1.099) (by norm_num) 9 20 (by norm_num)).2
        (lt_of_lt_of_le (by norm_num) (pow_le_pow_left₀ (by norm_num) hy 9))
      have hi : y ^ (((9:ℕ):ℝ) / ((20:ℕ):ℝ)) ≤ 1 := Real.rpow_le_one h0 h1 (by positivity)
      have inv := rpow_inv_cancel h0 9 20 (by norm_num) (by norm_num)
      generalize y ^ (((9:ℕ):ℝ) / ((20:ℕ):ℝ)) = P at *
      rw [div_lt_iff₀ (by norm_num)] at lo
      obtain ⟨n, q0, q1⟩ := near16 (x := 1.099 * P - 0.099) (by linarith) (by linarith)
      generalize (unquant16 (quant16 (1.099 * P - 0.099)) : ℝ) = q at *
      have n' := abs_le.1 n
      rw [dec_bt2020, if_neg (by rw [not_lt]; linarith)]
      have l := bt_curve_lip (a := q) (b := 1.099 * P - 0.099) q0 (by linarith) (by linarith) (by linarith)
      rw [show (1 / 0.45 : ℝ) = ((20:ℕ):ℝ) / ((9:ℕ):ℝ) by norm_num,
        show (1.099 * P - 0.099 + 0.099) / 1.099 = P by ring, inv] at l
      refine l.trans ((mul_le_mul_of_nonneg_left n (by norm_num)).trans (by norm_num))
  rintro y ⟨⟨r0, r1⟩, ⟨g0, g1⟩, ⟨b0, b1⟩⟩
  exact ⟨key r0 r1, key g0 g1, key b0 b1⟩

/-- C127 [R]: every 8-bit `SRGB_DRV` or `ITUR_BT709` image survives being converted to `DCI_P3_D65` or to `ITUR_BT2020` in
16 bits and back. -/
theorem C127_wide_trip (s d : Res (ColorSpaceRGB ℝ)) (hs : s = Shipped.srgbDrv ratLit ∨ s = Shipped.bt709 ratLit)
    (hd : d = Shipped.dciP3D65 ratLit ∨ d = Shipped.bt2020 ratLit) : Spec.Survives8 s d := by
  obtain ⟨a, b, m, es, ed, em, hc⟩ := C126_shipped s d hs hd
  obtain ⟨a', b', es', ed', m1, m2, h1, h2, h3, -⟩ := C22_derived_spaces s d
    (by rcases hs with rfl | rfl <;> simp [derivedSpaces]) (by rcases hd with rfl | rfl <;> simp [derivedSpaces])
  rw [es] at es'; cases es'
  rw [ed] at ed'; cases ed'
  rw [em] at h1; cases h1
  obtain ⟨te, td, hk, ho, he⟩ : ∃ te td, Keeps te td ∧ a.oetf = (fun c => c.mapc te) ∧ a.eotf = fun c => c.mapc td := by
    rcases hs with rfl | rfl
    · exact ⟨_, _, keeps_srgb, new_transfer _ _ _ _ _ _ es⟩
    · exact ⟨_, _, keeps_bt709, new_transfer _ _ _ _ _ _ es⟩
  have hnew : ∃ o e, ColorSpaceRGB.new ⟨ratLit 0.64, ratLit 0.33, ratLit 1.0⟩ ⟨ratLit 0.30, ratLit 0.60, ratLit 1.0⟩
      ⟨ratLit 0.15, ratLit 0.06, ratLit 1.0⟩ ⟨ratLit 0.3127, ratLit 0.3290, ratLit 1.0⟩ o e = .ok a := by
    rcases hs with rfl | rfl
    · exact ⟨_, _, es⟩
    · exact ⟨_, _, es⟩
  obtain ⟨o, e, hnew⟩ := hnew
  obtain ⟨-, -, ⟨c3, e3, i3, -⟩, -, ⟨c4, e4, i4, -⟩, -⟩ := C66_derived_real
  rcases hd with rfl | rfl
  · rw [ed] at e4; cases e4
    have hm := C126_matrix _ _ _ _ _ _ _ _ _ _ _ b a ed hnew i4 (by norm_num) (by unfold Spec.Inside tri; norm_num)
      (by unfold Spec.Inside tri; norm_num)
    rw [h2] at hm
    injection hm with hm
    refine survives_of es ed hk ho he ?_ em h2 h3 hc ?_
    · obtain ⟨o, e⟩ := new_transfer _ _ _ _ _ _ ed
      rw [o, e]; exact restores_power
    · rw [hm]; unfold RowsSmall tri; norm_num [abs_of_pos, abs_of_neg]
  · rw [ed] at e3; cases e3
    have hm := C126_matrix _ _ _ _ _ _ _ _ _ _ _ b a ed hnew i3 (by norm_num) (by unfold Spec.Inside tri; norm_num)
      (by unfold Spec.Inside tri; norm_num)
    rw [h2] at hm
    injection hm with hm
    refine survives_of es ed hk ho he ?_ em h2 h3 hc ?_
    · obtain ⟨o, e⟩ := new_transfer _ _ _ _ _ _ ed
      rw [o, e]; exact restores_bt2020
    · rw [hm]; unfold RowsSmall tri; norm_num [abs_of_pos, abs_of_neg]

/-- C127 [R]: 8 bits in the middle are not enough: the two darkest greys of `SRGB_DRV` get the same 8-bit code in
`ITUR_BT2020`. -/
theorem C127_eight_bits_counterexample : ∃ a b, Shipped.srgbDrv ratLit = .ok a ∧ Shipped.bt2020 ratLit = .ok b ∧
    ∀ o : RGBu8, rgbToRgb RGBf.toU8 a b [(⟨0, 0, 0⟩ : RGBu8).toF] [o] = rgbToRgb RGBf.toU8 a b [(⟨1, 1, 1⟩ : RGBu8).toF] [o] := by
  obtain ⟨a, b, es, ed, m, m2, em, -, -, h1⟩ := C22_derived_spaces (Shipped.srgbDrv ratLit) (Shipped.bt2020 ratLit)
    (by simp [derivedSpaces]) (by simp [derivedSpaces])
  refine ⟨a, b, es, ed, fun o => ?_⟩
  obtain ⟨-, he⟩ := new_transfer _ _ _ _ _ _ es
  obtain ⟨ho, -⟩ := new_transfer _ _ _ _ _ _ ed
  have grey : ∀ t : ℝ, m * (⟨t, t, t⟩ : RGBf ℝ) = ⟨t, t, t⟩ := by
    intro t
    rw [mulR_def] at h1 ⊢
    simp only [RGBf.mk.injEq, mul_one] at h1 ⊢
    obtain ⟨p, q, r⟩ := h1
    exact ⟨by linear_combination t * p, by linear_combination t * q, by linear_combination t * r⟩
  have key : ∀ n : UInt8, n.toNat ≤ 1 → quant8 (encode.bt2020_t (decode.srgb_t (unquant8 n : ℝ))) = 0 := by
    intro n hn
    have hn : (n.toNat : ℝ) ≤ 1 := by exact_mod_cast hn
    have hn0 : (0:ℝ) ≤ n.toNat := Nat.cast_nonneg _
    have a1 : (n.toNat : ℝ) / 255 / 12.92 ≤ 1 / 255 / 12.92 := by gcongr
    have a2 : (1 : ℝ) / 255 / 12.92 < 4e-4 := by norm_num
    have a0 : 0 ≤ (n.toNat : ℝ) / 255 / 12.92 := by positivity
    rw [unq8, dec_srgb, if_pos (by rw [div_le_iff₀ (by norm_num)]; linarith), enc_bt2020, if_pos (by linarith)]
    apply quant8_near
    rw [abs_le]
    norm_num at a1 a2 ⊢
    constructor <;> linarith
  have each : ∀ c : RGBu8, c.r.toNat ≤ 1 → c.r = c.g → c.r = c.b →
      (b.encode (m * a.decode (c.toF : RGBf ℝ))).toU8 = ⟨0, 0, 0⟩ := by
    rintro ⟨r, g, b'⟩ h e1 e2
    dsimp only at h e1 e2
    subst e1 e2
    unfold ColorSpaceRGB.encode ColorSpaceRGB.decode
    rw [he, ho]
    have e : decode.srgb ((⟨r, r, r⟩ : RGBu8).toF : RGBf ℝ) = ⟨decode.srgb_t (unquant8 r), decode.srgb_t (unquant8 r),
      decode.srgb_t (unquant8 r)⟩ := rfl
    rw [e, grey]
    have k := key r h
    show (⟨_, _, _⟩ : RGBu8) = _
    rw [RGBu8.mk.injEq]
    exact ⟨k, k, k⟩
  unfold rgbToRgb
  rw [em]
  show Except.ok (([(b.encode (m * a.decode _)).toU8], 1) : List RGBu8 × ℕ) = Except.ok ([(b.encode (m * a.decode _)).toU8], 1)
  rw [each ⟨0, 0, 0⟩ (by decide) rfl rfl, each ⟨1, 1, 1⟩ (by decide) rfl rfl]

/-- Not vacuous: an image of three pixels and buffers of its size. -/
example : ∃ (image out8 : List RGBu8) (out16 : List RGBu16), image ≠ [] ∧ out8.length = image.length ∧
    out16.length = image.length :=
  ⟨[⟨255, 0, 7⟩, ⟨0, 0, 255⟩, ⟨20, 21, 22⟩], List.replicate 3 ⟨0, 0, 0⟩, List.replicate 3 ⟨0, 0, 0⟩, by simp, rfl, rfl⟩

end CS

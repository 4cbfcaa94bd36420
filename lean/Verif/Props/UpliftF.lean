import Verif.Props.RoundTrip
import Verif.Props.Smits
import Verif.Props.ToXyzShipped
import Verif.Props.SpragueShipped
import Verif.Lemmas.ImageQ
import Verif.Lemmas.FPNear

/-!
# RGB to spectrum and back in f64 (C98)
-/

namespace CS

/-- a colour of floats, exactly -/
noncomputable def Spec.exactRgb {f : Fmt} (c : RGBf (FP f)) : RGBf ℝ := ⟨c.r.val, c.g.val, c.b.val⟩

theorem my_basis_bound : ∀ k : ℕ, k < 81 → |Tables.myR.getD k 0| + |Tables.myG.getD k 0| + |Tables.myB.getD k 0| ≤ 2 := by
  decide +kernel

/-- the uplifted spectrum in f64 follows the exact one -/
theorem uplift_loaded [Libm Fmt.b64] (rgb : RGBf (FP Fmt.b64)) (m : ℚ) (h1 : 1 / 2 ^ 16 ≤ m) (h2 : m ≤ 2 ^ 14)
    (hc : ∀ i, (rgbVec rgb i).isFinite = true ∧ |(rgbVec rgb i).val| ≤ m) :
    ∃ s S, upliftMy rgb = .ok s ∧ upliftMy (Spec.exactRgb rgb) = .ok S ∧ Spec.Loaded (3 * (m : ℝ)) s S ∧
      S.shape.interval = .uniform ((5 : ℕ) : ℝ) := by
  obtain ⟨s, e1, e2, e3, e4⟩ := C59_f64 rgb
  obtain ⟨S, E1, E2, E3, E4⟩ := C59_samples (Spec.exactRgb rgb)
  have m1 : (1:ℝ) / 2 ^ 16 ≤ m := by qcast h1
  have m2 : (m:ℝ) ≤ 2 ^ 14 := by qcast h2
  have c0 := hc 0
  have c1 := hc 1
  have c2 := hc 2
  have r0 : |(rgb.r.val : ℝ)| ≤ m := by exact_mod_cast c0.2
  have r1 : |(rgb.g.val : ℝ)| ≤ m := by exact_mod_cast c1.2
  have r2 : |(rgb.b.val : ℝ)| ≤ m := by exact_mod_cast c2.2
  have hS : ∀ k (hk : k < S.samples.length), S.samples[k] = ⟨380 + k * 5,
      (Spec.my k).1 * rgb.r.val + (Spec.my k).2.1 * rgb.g.val + (Spec.my k).2.2 * rgb.b.val⟩ := by
    intro k hk
    have := E4 k (by omega)
    rw [List.getElem?_eq_getElem hk, Option.some.injEq] at this
    exact this
  refine ⟨s, S, e1, E1, ⟨by linarith, by norm_num at m2 ⊢; linarith, ⟨?_, ?_⟩, ⟨by omega, ?_, ?_, ?_, ?_⟩, ?_, ?_⟩, ?_⟩
  · rw [List.forall₂_iff_get]
    refine ⟨by omega, fun k hk hk' => ?_⟩
    obtain ⟨p, p1, p2, p3, p4⟩ := e4 k (by omega)
    obtain ⟨p5, p6⟩ := p4 m (le_trans (by norm_num) h1) (h2.trans (by norm_num)) hc
    rw [List.getElem?_eq_getElem hk, Option.some.injEq] at p1
    rw [List.get_eq_getElem, List.get_eq_getElem, p1, hS k hk']
    refine ⟨p2, ?_, p5, ?_⟩
    · rw [p3]; push_cast; ring
    · have : |(p.v.val : ℝ) - ((Tables.myR.getD k 0 : ℚ) * rgb.r.val + (Tables.myG.getD k 0 : ℚ) * rgb.g.val +
          (Tables.myB.getD k 0 : ℚ) * rgb.b.val)| ≤ 1e-15 * m := by
        have h := (Rat.cast_le (K := ℝ)).2 p6
        rw [Rat.cast_abs] at h
        push_cast at h
        norm_num at h ⊢
        exact h
      refine this.trans ?_
      rw [u_b64]
      norm_num
      linarith
  · rw [e2, E2]
    have key : ∀ n : ℕ, n ≤ 2 ^ 20 → Spec.SameNum (Flt.lit (n : ℚ) : FP Fmt.b64) (n : ℝ) := by
      intro n hn
      show Spec.SameNum (FP.lit (n : ℚ) : FP Fmt.b64) (n : ℝ)
      rw [FP.lit_nat _ (by norm_num [Fmt.b64] at hn ⊢; omega) (by norm_num at hn ⊢; omega)]
      exact ⟨rfl, by simp [FP.val]⟩
    have k1 := key 380 (by norm_num)
    have k2 := key 780 (by norm_num)
    have k3 := key 5 (by norm_num)
    norm_num at k1 k2 k3
    exact ⟨k1, k2, k3⟩
  · intro p hp
    obtain ⟨k, hk, rfl⟩ := List.mem_iff_getElem.1 hp
    rw [hS k hk]
    exact ⟨380 + k * 5, by omega, by push_cast; rfl⟩
  · rw [VSPD.wavelengths, List.pairwise_iff_getElem]
    intro i j hi hj hij
    simp only [List.length_map] at hi hj
    simp only [List.getElem_map, hS i hi, hS j hj]
    have : (i:ℝ) < j := by exact_mod_cast hij
    linarith
  · rw [List.head?_eq_getElem?, E4 0 (by norm_num), E2]
    simp [SpdShape.new]
  · rw [List.getLast?_eq_getElem?, E3, E4 80 (by norm_num), E2]
    simp only [Option.map_some, SpdShape.new]
    norm_num
  · intro p hp
    obtain ⟨k, hk, rfl⟩ := List.mem_iff_getElem.1 hp
    rw [hS k hk]
    have hb : |((Tables.myR.getD k 0 : ℚ) : ℝ)| + |((Tables.myG.getD k 0 : ℚ) : ℝ)| + |((Tables.myB.getD k 0 : ℚ) : ℝ)| ≤ 2 := by
      exact_mod_cast my_basis_bound k (by omega)
    show |((Tables.myR.getD k 0 : ℚ) : ℝ) * rgb.r.val + ((Tables.myG.getD k 0 : ℚ) : ℝ) * rgb.g.val +
      ((Tables.myB.getD k 0 : ℚ) : ℝ) * rgb.b.val| ≤ 3 * m
    refine (abs_add_three _ _ _).trans ?_
    rw [abs_mul, abs_mul, abs_mul]
    have t1 := mul_le_mul_of_nonneg_left r0 (abs_nonneg ((Tables.myR.getD k 0 : ℚ) : ℝ))
    have t2 := mul_le_mul_of_nonneg_left r1 (abs_nonneg ((Tables.myG.getD k 0 : ℚ) : ℝ))
    have t3 := mul_le_mul_of_nonneg_left r2 (abs_nonneg ((Tables.myB.getD k 0 : ℚ) : ℝ))
    have t4 := mul_le_mul_of_nonneg_right hb (show (0:ℝ) ≤ m by linarith [show (0:ℝ) ≤ 1 / 2 ^ 16 by positivity])
    have m0 : (0:ℝ) ≤ m := by linarith [show (0:ℝ) ≤ 1 / 2 ^ 16 by positivity]
    rw [add_mul, add_mul] at t4
    linarith
  · rw [E2]; norm_num [SpdShape.new]
  · rw [E2]; simp [SpdShape.new]

/-- one row of the matrix applied to nearby values -/
theorem row_near {a b c x y z : FP Fmt.b64} {A B C X Y Z m : ℝ} (m1 : 1 / 2 ^ 16 ≤ m) (m2 : m ≤ 2 ^ 14)
    (fa : a.isFinite = true) (fb : b.isFinite = true) (fc : c.isFinite = true)
    (fx : x.isFinite = true) (fy : y.isFinite = true) (fz : z.isFinite = true)
    (ha : |(a.val : ℝ) - A| ≤ 1e-15) (hb : |(b.val : ℝ) - B| ≤ 1e-15) (hc : |(c.val : ℝ) - C| ≤ 1e-15)
    (hA : |A| ≤ 4) (hB : |B| ≤ 4) (hC : |C| ≤ 4)
    (hx : |(x.val : ℝ) - X| ≤ 2e-9 * m) (hy : |(y.val : ℝ) - Y| ≤ 2e-9 * m) (hz : |(z.val : ℝ) - Z| ≤ 2e-9 * m)
    (hX : |X| ≤ 2 * m) (hY : |Y| ≤ 2 * m) (hZ : |Z| ≤ 2 * m) :
    (a * x + b * y + c * z).isFinite = true ∧
    |((a * x + b * y + c * z).val : ℝ) - (A * X + B * Y + C * Z)| ≤ 3e-8 * m := by
  have m0 : 0 < m := lt_of_lt_of_le (by positivity) m1
  have term : ∀ {a x : FP Fmt.b64} {A X : ℝ}, |(a.val : ℝ) - A| ≤ 1e-15 → |A| ≤ 4 → |(x.val : ℝ) - X| ≤ 2e-9 * m →
      |X| ≤ 2 * m → |(a.val : ℝ) * x.val| ≤ 9 * m ∧ |(a.val : ℝ) * x.val - A * X| ≤ 9e-9 * m := by
    intro a x A X h1 h2 h3 h4
    have e : (a.val : ℝ) * x.val - A * X = (a.val - A) * x.val + A * (x.val - X) := by ring
    have hx' : |(x.val : ℝ)| ≤ 3 * m := by
      have := abs_add_le ((x.val : ℝ) - X) X
      rw [sub_add_cancel] at this
      norm_num at h3
      linarith
    have t1 : |((a.val : ℝ) - A) * x.val| ≤ 1e-15 * (3 * m) := by
      rw [abs_mul]; exact mul_le_mul h1 hx' (abs_nonneg _) (by norm_num)
    have t2 : |A * ((x.val : ℝ) - X)| ≤ 4 * (2e-9 * m) := by
      rw [abs_mul]; exact mul_le_mul h2 h3 (abs_nonneg _) (by norm_num)
    have t3 : |A * X| ≤ 4 * (2 * m) := by
      rw [abs_mul]; exact mul_le_mul h2 h4 (abs_nonneg _) (by norm_num)
    have t4 := abs_add_le (((a.val : ℝ) - A) * x.val) (A * ((x.val : ℝ) - X))
    rw [← e] at t4
    have t5 := abs_add_le ((a.val : ℝ) * x.val - A * X) (A * X)
    rw [sub_add_cancel] at t5
    generalize |((a.val : ℝ) - A) * x.val| = z1 at *
    generalize |A * ((x.val : ℝ) - X)| = z2 at *
    generalize |A * X| = z3 at *
    generalize |(a.val : ℝ) * x.val - A * X| = z4 at *
    generalize |(a.val : ℝ) * x.val| = z5 at *
    norm_num at t1 t2 t3 ⊢
    constructor <;> linarith
  obtain ⟨p1, q1⟩ := term ha hA hx hX
  obtain ⟨p2, q2⟩ := term hb hB hy hY
  obtain ⟨p3, q3⟩ := term hc hC hz hZ
  have hS : ((|a.val * x.val| + |b.val * y.val| + |c.val * z.val| : ℚ) : ℝ) ≤ 27 * m := by
    push_cast; linarith
  have hS' : |a.val * x.val| + |b.val * y.val| + |c.val * z.val| ≤ 2 ^ Fmt.b64.emax / 2 := by
    have h30 : (|a.val * x.val| + |b.val * y.val| + |c.val * z.val| : ℚ) ≤ 2 ^ 30 := by
      have : ((|a.val * x.val| + |b.val * y.val| + |c.val * z.val| : ℚ) : ℝ) ≤ ((2 ^ 30 : ℚ) : ℝ) := by
        refine hS.trans ?_
        norm_num at m2 ⊢
        linarith
      exact_mod_cast this
    refine h30.trans ?_
    rw [le_div_iff₀ (by norm_num), ← pow_succ]
    exact pow_le_pow_right₀ (by norm_num) (by norm_num [Fmt.b64])
  obtain ⟨r1, r2⟩ := dot3_err fa fb fc fx fy fz hS'
  refine ⟨r1, ?_⟩
  have r2' := (Rat.cast_le (K := ℝ)).2 r2
  rw [Rat.cast_abs] at r2'
  have he : (Fmt.b64.eta : ℝ) ≤ Fmt.b64.u / 2 ^ 124 := by
    have := (Rat.cast_le (K := ℝ)).2 wide_b64.heta
    push_cast at this
    exact this
  have hrhs : ((4 * Fmt.b64.u * (|a.val * x.val| + |b.val * y.val| + |c.val * z.val|) + 5 * Fmt.b64.eta : ℚ) : ℝ) ≤
      1e-10 * m := by
    rw [Rat.cast_add, Rat.cast_mul, Rat.cast_mul, Rat.cast_mul]
    rw [u_b64] at *
    have := mul_le_mul_of_nonneg_left hS (show (0:ℝ) ≤ 4 * (1 / 2 ^ 53) by positivity)
    norm_num at this he m1 ⊢
    linarith
  have r3 := r2'.trans hrhs
  push_cast at r3
  obtain ⟨x1, x2⟩ := abs_le.1 r3
  obtain ⟨x3, x4⟩ := abs_le.1 q1
  obtain ⟨x5, x6⟩ := abs_le.1 q2
  obtain ⟨x7, x8⟩ := abs_le.1 q3
  rw [abs_le]
  norm_num at x1 x2 x3 x4 x5 x6 x7 x8 ⊢
  constructor <;> linarith

/-- division by 100 -/
theorem hundredth_near [Libm Fmt.b64] {x : FP Fmt.b64} {X m : ℝ} (m1 : 1 / 2 ^ 16 ≤ m) (m2 : m ≤ 2 ^ 14)
    (fx : x.isFinite = true) (hx : |(x.val : ℝ) - X| ≤ 1e-7 * m) (hX : |X| ≤ 150 * m) :
    (x / FP.lit 100.0 : FP Fmt.b64).isFinite = true ∧
    |((x / FP.lit 100.0 : FP Fmt.b64).val : ℝ) - X / 100| ≤ 2e-9 * m := by
  have m0 : 0 < m := lt_of_lt_of_le (by positivity) m1
  have e : (FP.lit 100.0 : FP Fmt.b64) = FP.lit ((100 : ℕ) : ℚ) := by norm_num
  have hl := FP.lit_nat (f := Fmt.b64) 100 (by norm_num [Fmt.b64]) (by norm_num)
  have f1 : (FP.lit 100.0 : FP Fmt.b64).isFinite = true := by rw [e, hl]; rfl
  have v1 : (FP.lit 100.0 : FP Fmt.b64).val = 100 := by rw [e, hl]; simp [FP.val]
  have hx' : |(x.val : ℝ)| ≤ 151 * m := by
    have := abs_add_le ((x.val : ℝ) - X) X
    rw [sub_add_cancel] at this
    norm_num at hx
    linarith
  have hq : |((x.val / 100 : ℚ) : ℝ)| ≤ 1.51 * m := by
    push_cast
    rw [abs_div, abs_of_pos (show (0:ℝ) < 100 by norm_num), div_le_iff₀ (by norm_num)]
    norm_num
    linarith
  obtain ⟨a, b⟩ := FP.div_err fx f1 (by rw [v1]; norm_num) (by
    rw [v1]
    apply Nr.small_abs std_b64
    refine hq.trans ?_
    norm_num at m2 ⊢
    linarith)
  refine ⟨a, ?_⟩
  rw [v1] at b
  have b' := (Rat.cast_le (K := ℝ)).2 b
  rw [Rat.cast_abs, Rat.cast_add, Rat.cast_mul, Rat.cast_abs] at b'
  have he : (Fmt.b64.eta : ℝ) ≤ Fmt.b64.u / 2 ^ 124 := by
    have := (Rat.cast_le (K := ℝ)).2 wide_b64.heta
    push_cast at this
    exact this
  have hu := mul_le_mul_of_nonneg_right hq (show (0:ℝ) ≤ Fmt.b64.u by rw [u_b64]; positivity)
  have hsum : |((x.val / 100 : ℚ) : ℝ)| * (Fmt.b64.u : ℝ) + Fmt.b64.eta ≤ 1e-12 * m := by
    rw [u_b64] at *
    norm_num at hu he m1 ⊢
    linarith
  have b2 := b'.trans hsum
  push_cast at b2
  obtain ⟨x1, x2⟩ := abs_le.1 b2
  obtain ⟨x3, x4⟩ := abs_le.1 hx
  rw [abs_le]
  norm_num at x1 x2 x3 x4 ⊢
  constructor <;> linarith

/-- the sRGB matrix in f64: the entries and the exact ones -/
def srgbRow : Fin 3 → Fin 3 → ℚ :=
  fun i j => ((![![3.2406, -1.5372, -0.4986], ![-0.9689, 1.8758, 0.0415], ![0.0557, -0.2040, 1.0570]] :
    Fin 3 → Fin 3 → ℚ) i j)

theorem srgb_matrix64 [Libm Fmt.b64] : ∀ i j : Fin 3,
    (((Shipped.srgb (FP.ofQ Fmt.b64 false)).xf_xyz_to_rgb * Matrix33.identity).get i j).isFinite = true ∧
    |(((Shipped.srgb (FP.ofQ Fmt.b64 false)).xf_xyz_to_rgb * Matrix33.identity).get i j).val - srgbRow i j| ≤
      1 / 10 ^ 15 :=
  of_decide_eq_true (by krefl)

/-- the exact matrix gives back nearly the colour, so the tristimulus values are of its size -/
theorem xyz_size {R : XYZ ℝ} {rgb : RGBf ℝ} {m : ℝ}
    (hr : |rgb.r| ≤ m) (hg : |rgb.g| ≤ m) (hb : |rgb.b| ≤ m)
    (h1 : |(3.2406 * (R.x / 100) + -1.5372 * (R.y / 100) + -0.4986 * (R.z / 100)) - rgb.r| ≤ 1.1e-4 * m)
    (h2 : |(-0.9689 * (R.x / 100) + 1.8758 * (R.y / 100) + 0.0415 * (R.z / 100)) - rgb.g| ≤ 1.1e-4 * m)
    (h3 : |(0.0557 * (R.x / 100) + -0.2040 * (R.y / 100) + 1.0570 * (R.z / 100)) - rgb.b| ≤ 3.4e-4 * m) :
    |R.x| ≤ 110 * m ∧ |R.y| ≤ 110 * m ∧ |R.z| ≤ 110 * m := by
  rw [abs_le] at *
  obtain ⟨a1, a2⟩ := hr
  obtain ⟨b1, b2⟩ := hg
  obtain ⟨c1, c2⟩ := hb
  obtain ⟨d1, d2⟩ := h1
  obtain ⟨e1, e2⟩ := h2
  obtain ⟨f1, f2⟩ := h3
  norm_num at *
  rw [abs_le, abs_le]
  refine ⟨⟨?_, ?_⟩, ⟨?_, ?_⟩, ?_, ?_⟩ <;> linarith

/-! ## C98 -/

/-- C98 [F]: in f64, uplifting a linear sRGB colour with components up to `m` in magnitude and converting
the spectrum back, with the shipped D65 illuminant, the shipped CIE 1931 observer and the sRGB matrix, does
not panic and recovers the colour: within 1.11e-4 `m` in red and green, 3.41e-4 `m` in blue. -/
theorem C98_uplift_f64 [Libm Fmt.b64] (hp : PowiAccurate Fmt.b64) (rgb : RGBf (FP Fmt.b64)) (m : ℚ)
    (h1 : 1 / 2 ^ 16 ≤ m) (h2 : m ≤ 2 ^ 14)
    (hc : ∀ i, (rgbVec rgb i).isFinite = true ∧ |(rgbVec rgb i).val| ≤ m) :
    ∃ il cmf s M N, Spectra.vspd Spectra.d65 = .ok il ∧ Spectra.cie1931 = .ok cmf ∧ upliftMy rgb = .ok s ∧
      (let cs := Shipped.srgb (FP.ofQ Fmt.b64 false)
       xyzToRgbMatrix cs.white cs = .ok M) ∧
      ∀ fuel, N ≤ fuel → ∃ xyz, s.toXyz fuel il cmf = .ok xyz ∧
        Spec.CloseTo (1.11e-4 * m) (xyzToRgb M xyz).r rgb.r.val ∧
        Spec.CloseTo (1.11e-4 * m) (xyzToRgb M xyz).g rgb.g.val ∧
        Spec.CloseTo (3.41e-4 * m) (xyzToRgb M xyz).b rgb.b.val := by
  have m1 : (1:ℝ) / 2 ^ 16 ≤ m := by qcast h1
  have m2 : (m:ℝ) ≤ 2 ^ 14 := by qcast h2
  have m0 : (0:ℝ) < m := lt_of_lt_of_le (by positivity) m1
  obtain ⟨s, S, e1, E1, hl, hi⟩ := uplift_loaded rgb m h1 h2 hc
  have hp53 : 10 ≤ Fmt.b64.p := by norm_num [Fmt.b64]
  have hD : (⟨Spectra.d65, 300, 780, 5⟩ : Spec.Listing) ∈ Spec.shipped := by simp [Spec.shipped]
  obtain ⟨il, hil⟩ : ∃ il : VSPD (FP Fmt.b64), Spectra.vspd Spectra.d65 = .ok il := ⟨_, C70_loads_ieee hp53 _ hD⟩
  obtain ⟨IL, hIL⟩ : ∃ IL : VSPD ℝ, Spectra.vspd Spectra.d65 = .ok IL := ⟨_, C70_loads_real _ hD⟩
  have hX : (⟨Spectra.xBar, 360, 830, 1⟩ : Spec.Listing) ∈ Spec.shipped := by simp [Spec.shipped]
  have hY : (⟨Spectra.yBar, 360, 830, 1⟩ : Spec.Listing) ∈ Spec.shipped := by simp [Spec.shipped]
  have hZ : (⟨Spectra.zBar, 360, 830, 1⟩ : Spec.Listing) ∈ Spec.shipped := by simp [Spec.shipped]
  obtain ⟨cmf, hcmf⟩ : ∃ cmf : CMF (FP Fmt.b64), Spectra.cie1931 = .ok cmf := by
    unfold Spectra.cie1931
    rw [C70_loads_ieee hp53 _ hX, C70_loads_ieee hp53 _ hY, C70_loads_ieee hp53 _ hZ]
    exact ⟨_, rfl⟩
  obtain ⟨CM, hCM⟩ : ∃ CM : CMF ℝ, Spectra.cie1931 = .ok CM := by
    unfold Spectra.cie1931
    rw [C70_loads_real _ hX, C70_loads_real _ hY, C70_loads_real _ hZ]
    exact ⟨_, rfl⟩
  obtain ⟨N1, R, H1⟩ := C91_shipped hp ⟨Spectra.d65, 300, 780, 5⟩ (by simp [Spec.daylights]) il hil IL hIL
    cmf CM hcmf hCM _ s S hl 5 hi (by norm_num) (by norm_num)
  have c0 := hc 0
  have c1 := hc 1
  have c2 := hc 2
  have r0 : |(rgb.r.val : ℝ)| ≤ m := by exact_mod_cast c0.2
  have r1 : |(rgb.g.val : ℝ)| ≤ m := by exact_mod_cast c1.2
  have r2 : |(rgb.b.val : ℝ)| ≤ m := by exact_mod_cast c2.2
  obtain ⟨N2, H2⟩ := C72_uplift_round_trip (Spec.exactRgb rgb) m r0 r1 r2 IL CM hIL hCM S E1
  have hwhite : xyzToRgbMatrix (Shipped.srgb (FP.ofQ Fmt.b64 false)).white (Shipped.srgb (FP.ofQ Fmt.b64 false)) =
      .ok ((Shipped.srgb (FP.ofQ Fmt.b64 false)).xf_xyz_to_rgb * Matrix33.identity) := by
    have hn : (XYZ.fromChromaticity (Shipped.srgb (FP.ofQ Fmt.b64 false)).white).x.isNaN = false ∧
        (XYZ.fromChromaticity (Shipped.srgb (FP.ofQ Fmt.b64 false)).white).y.isNaN = false ∧
        (XYZ.fromChromaticity (Shipped.srgb (FP.ofQ Fmt.b64 false)).white).z.isNaN = false :=
      of_decide_eq_true (by krefl)
    unfold xyzToRgbMatrix
    rw [(C15_same_white_ieee _ hn.1 hn.2.1 hn.2.2).1]
    rfl
  refine ⟨il, cmf, s, _, max N1 N2, hil, hcmf, e1, hwhite, fun fuel hf => ?_⟩
  obtain ⟨a1, xyz, a2, bx, b_y, bz⟩ := H1 fuel (le_trans (le_max_left _ _) hf)
  obtain ⟨R', M', A1, A2, A3, A4, A5⟩ := H2 fuel (le_trans (le_max_right _ _) hf)
  rw [a1] at A1
  obtain rfl : R = R' := by injection A1
  have hM' : M' = (Shipped.srgb ratLit).xf_xyz_to_rgb := by
    unfold xyzToRgbMatrix at A2
    rw [(C15_equal_whites_real _).1] at A2
    have A2 : Except.ok ((Shipped.srgb ratLit).xf_xyz_to_rgb * Matrix33.identity) = (Except.ok M' : Res _) := A2
    rw [m33_mul_one] at A2
    exact (Except.ok.inj A2).symm
  subst hM'
  have h100 : (Flt.lit 100.0 : ℝ) = 100 := by norm_num
  have hdiv : R / XYZ.fromScalar (100:ℝ) = ⟨R.x / 100, R.y / 100, R.z / 100⟩ := rfl
  simp only [xyzToRgb, h100, hdiv, mulX_def, Shipped.srgb, ColorSpaceRGB.newWithMatrices, ratLit,
    Spec.exactRgb] at A3 A4 A5
  push_cast at A3 A4 A5
  obtain ⟨z1, z2, z3⟩ := xyz_size (R := R) (rgb := Spec.exactRgb rgb) r0 r1 r2 A3 A4 A5
  have hB : ∀ {X : ℝ}, |X| ≤ 110 * m → 2e-8 * (3 * (m:ℝ)) + 1.1e-10 * |X| ≤ 1e-7 * m := by
    intro X h
    norm_num
    linarith
  obtain ⟨dx1, dx2⟩ := hundredth_near m1 m2 bx.1 (bx.2.trans (hB z1)) (by linarith)
  obtain ⟨dy1, dy2⟩ := hundredth_near m1 m2 b_y.1 (b_y.2.trans (hB z2)) (by linarith)
  obtain ⟨dz1, dz2⟩ := hundredth_near m1 m2 bz.1 (bz.2.trans (hB z3)) (by linarith)
  have half : ∀ {X : ℝ}, |X| ≤ 110 * m → |X / 100| ≤ 2 * m := by
    intro X h
    rw [abs_div, abs_of_pos (show (0:ℝ) < 100 by norm_num), div_le_iff₀ (by norm_num)]
    linarith
  have ent : ∀ i j, |(((((Shipped.srgb (FP.ofQ Fmt.b64 false)).xf_xyz_to_rgb * Matrix33.identity).get i j).val : ℚ) : ℝ) -
      (srgbRow i j : ℚ)| ≤ 1e-15 := by
    intro i j
    have := (srgb_matrix64 i j).2
    have := (Rat.cast_le (K := ℝ)).2 this
    rw [Rat.cast_abs] at this
    push_cast at this
    norm_num at this ⊢
    exact this
  have big : ∀ i j, |((srgbRow i j : ℚ) : ℝ)| ≤ 4 := by
    have : ∀ i j, |srgbRow i j| ≤ 4 := by decide +kernel
    intro i j
    exact_mod_cast this i j
  have row : ∀ i, _ := fun i => row_near m1 m2 (srgb_matrix64 i 0).1 (srgb_matrix64 i 1).1 (srgb_matrix64 i 2).1 dx1 dy1 dz1
    (ent i 0) (ent i 1) (ent i 2) (big i 0) (big i 1) (big i 2) dx2 dy2 dz2 (half z1) (half z2) (half z3)
  refine ⟨xyz, a2, ?_, ?_, ?_⟩
  · obtain ⟨g1, g2⟩ := row 0
    refine ⟨g1, ?_⟩
    have q0 : srgbRow 0 0 = 3.2406 := rfl
    have q1 : srgbRow 0 1 = -1.5372 := rfl
    have q2 : srgbRow 0 2 = -0.4986 := rfl
    rw [q0, q1, q2] at g2
    push_cast at g2
    have := abs_sub_le _ _ (rgb.r.val : ℝ) |>.trans (add_le_add g2 A3)
    refine le_trans this ?_
    norm_num
    linarith
  · obtain ⟨g1, g2⟩ := row 1
    refine ⟨g1, ?_⟩
    have q0 : srgbRow 1 0 = -0.9689 := rfl
    have q1 : srgbRow 1 1 = 1.8758 := rfl
    have q2 : srgbRow 1 2 = 0.0415 := rfl
    rw [q0, q1, q2] at g2
    push_cast at g2
    have := abs_sub_le _ _ (rgb.g.val : ℝ) |>.trans (add_le_add g2 A4)
    refine le_trans this ?_
    norm_num
    linarith
  · obtain ⟨g1, g2⟩ := row 2
    refine ⟨g1, ?_⟩
    have q0 : srgbRow 2 0 = 0.0557 := rfl
    have q1 : srgbRow 2 1 = -0.2040 := rfl
    have q2 : srgbRow 2 2 = 1.0570 := rfl
    rw [q0, q1, q2] at g2
    push_cast at g2
    have := abs_sub_le _ _ (rgb.b.val : ℝ) |>.trans (add_le_add g2 A5)
    refine le_trans this ?_
    norm_num
    linarith

/-- C98 [F]: every linear 8-bit sRGB pixel, converted to f64, uplifted to a spectrum, converted back and
quantised, is the same pixel. -/
theorem C98_eight_bit [Libm Fmt.b64] (hp : PowiAccurate Fmt.b64) (c : RGBu8) :
    ∃ il cmf s M N, Spectra.vspd Spectra.d65 = .ok il ∧ Spectra.cie1931 = .ok cmf ∧
      upliftMy (c.toF : RGBf (FP Fmt.b64)) = .ok s ∧
      (let cs := Shipped.srgb (FP.ofQ Fmt.b64 false)
       xyzToRgbMatrix cs.white cs = .ok M) ∧
      ∀ fuel, N ≤ fuel → ∃ xyz, s.toXyz fuel il cmf = .ok xyz ∧ (xyzToRgb M xyz).toU8 = c := by
  have key : ∀ n : UInt8, (unquant8 n : FP Fmt.b64).isFinite = true ∧ |(unquant8 n : FP Fmt.b64).val| ≤ 1 := by
    intro n
    obtain ⟨a, b, d, -⟩ := unquant8_spec (f := Fmt.b64) std_b64 n
    exact ⟨a, by rwa [abs_of_nonneg b]⟩
  obtain ⟨il, cmf, s, M, N, g1, g2, g3, g4, g5⟩ := C98_uplift_f64 hp (c.toF : RGBf (FP Fmt.b64)) 1 (by norm_num)
    (by norm_num) (by intro i; fin_cases i <;> exact key _)
  refine ⟨il, cmf, s, M, N, g1, g2, g3, g4, fun fuel hf => ?_⟩
  obtain ⟨xyz, k1, k2, k3, k4⟩ := g5 fuel hf
  refine ⟨xyz, k1, ?_⟩
  rw [Rat.cast_one, mul_one] at k2 k3 k4
  have q1 := quant8_of_near std_b64 k2.1 c.r (k2.2.trans (by norm_num))
  have q2 := quant8_of_near std_b64 k3.1 c.g (k3.2.trans (by norm_num))
  have q3 := quant8_of_near std_b64 k4.1 c.b (k4.2.trans (by norm_num))
  unfold RGBf.toU8
  rw [q1, q2, q3]

/-- Not vacuous: a library meeting the assumption exists, and the orange (1, 1/2, 0) qualifies with `m = 1`. -/
example : @PowiAccurate Fmt.b64 (idealLibm Fmt.b64) ∧
    ∀ i, (rgbVec (⟨dyadic Fmt.b64 1 0, dyadic Fmt.b64 1 1, dyadic Fmt.b64 0 0⟩ : RGBf (FP Fmt.b64)) i).isFinite = true ∧
      |(rgbVec (⟨dyadic Fmt.b64 1 0, dyadic Fmt.b64 1 1, dyadic Fmt.b64 0 0⟩ : RGBf (FP Fmt.b64)) i).val| ≤ 1 := by
  refine ⟨ideal_powi std_b64, ?_⟩
  simp only [Fin.forall_fin_succ, IsEmpty.forall_iff, and_true]
  exact of_decide_eq_true (by krefl)

end CS

import Verif.Lemmas.BtClose
import Verif.Props.Image

/-!
# Images through other spaces and back (C83)

An 8-bit image is decoded, converted to the linear components of another space (or to XYZ), converted
back, and encoded. As in C82 the theorems hold for every library whose `powf` is within two units in
the last place.
-/

namespace CS

/-! ### specification -/

/-- `srgb` itself -/
def Spec.srgb (f : Fmt) [Libm f] : Res (ColorSpaceRGB (FP f)) := .ok (Shipped.srgb (FP.ofQ f false))

/-- the other spaces whose transfer curve has bounded slope and stays in `[0, 1]` -/
def Spec.gentle (f : Fmt) [Libm f] : List (Res (ColorSpaceRGB (FP f))) :=
  let l := FP.ofQ f false
  [Shipped.srgbDrv l, Shipped.bt709 l, Shipped.bt2020 l, .ok (Shipped.aces l), Shipped.acesCg l]

/-- every shipped space but `srgb` -/
def Spec.notSrgb (f : Fmt) [Libm f] : List (Res (ColorSpaceRGB (FP f))) :=
  let l := FP.ofQ f false
  [.ok (Shipped.adobeRgb1998 l), .ok (Shipped.alexaWideGamut l), .ok (Shipped.aces l),
   Shipped.srgbDrv l, Shipped.bt709 l, Shipped.bt2020 l, Shipped.dciP3 l, Shipped.dciP3D65 l,
   Shipped.acesCg l]

/-- both spaces and both matrices exist, and every 8-bit pixel of the first survives decoding,
conversion to the second, conversion back and encoding -/
def Spec.Through8 {f : Fmt} [Libm f] (r s : Res (ColorSpaceRGB (FP f))) : Prop :=
  ∃ a b m n, r = .ok a ∧ s = .ok b ∧ rgbToRgbMatrix a b = .ok m ∧ rgbToRgbMatrix b a = .ok n ∧
    ∀ c : RGBu8, (a.encode (n * (m * a.decode c.toF))).toU8 = c

/-- the same through XYZ, for each of the six white points -/
def Spec.ThroughXyz8 {f : Fmt} [Libm f] (r : Res (ColorSpaceRGB (FP f))) : Prop :=
  ∃ cs, r = .ok cs ∧ ∀ w ∈ Spec.whites f, ∃ A B, xyzToRgbMatrix w cs = .ok A ∧
    rgbToXyzMatrix w cs = .ok B ∧
    ∀ c : RGBu8, (cs.encode (xyzToRgb A (rgbToXyz B (cs.decode c.toF)))).toU8 = c

/-! ### curves -/

/-- decoding stays in `[0,1]` up to 1e-5, and encoding something within `δ` of the decoded component
gives the component to within `κ` -/
structure CurveClose {f : Fmt} [Libm f] (δ κ : ℝ) (cs : ColorSpaceRGB (FP f)) (enc dec : FP f → FP f) :
    Prop where
  henc : cs.oetf = RGBf.mapc enc
  hdec : cs.eotf = RGBf.mapc dec
  bound : ∀ y : FP f, y.isFinite = true → 0 ≤ y.val → y.val ≤ 1 →
    (dec y).isFinite = true ∧ |((dec y).val : ℝ)| ≤ 1.00001
  close : ∀ y x : FP f, y.isFinite = true → 0 ≤ y.val → y.val ≤ 1 → x.isFinite = true →
    |(x.val : ℝ) - (dec y).val| ≤ δ → (enc x).isFinite = true ∧ |((enc x).val : ℝ) - y.val| ≤ κ

/-- a linear map that moves components in `[-1.00001, 1.00001]` by at most `δ` -/
theorem CurveClose.u8 {f : Fmt} [Libm f] {δ κ : ℝ} (hf : Std f) {cs : ColorSpaceRGB (FP f)}
    {enc dec : FP f → FP f} (h : CurveClose δ κ cs enc dec) (hκ : κ ≤ 1 / 600)
    (g : RGBf (FP f) → RGBf (FP f))
    (hg : ∀ c, (∀ i, (rgbVec c i).isFinite = true ∧ |(rgbVec c i).val| ≤ 1.00001) → ∀ i,
      (rgbVec (g c) i).isFinite = true ∧ |((rgbVec (g c) i).val : ℝ) - (rgbVec c i).val| ≤ δ)
    (c : RGBu8) : (cs.encode (g (cs.decode c.toF))).toU8 = c := by
  unfold ColorSpaceRGB.encode ColorSpaceRGB.decode
  rw [h.henc, h.hdec]
  have hb : ∀ n : UInt8, (dec (unquant8 n)).isFinite = true ∧ |(dec (unquant8 n) : FP f).val| ≤ 1.00001 := by
    intro n
    obtain ⟨a, b, c, _⟩ := unquant8_spec (f := f) hf n
    obtain ⟨d, e⟩ := h.bound _ a b c
    refine ⟨d, ?_⟩
    have : |((dec (unquant8 n) : FP f).val : ℝ)| ≤ ((1.00001 : ℚ) : ℝ) := e.trans (by norm_num)
    exact_mod_cast this
  have key : ∀ (n : UInt8) (x : FP f), x.isFinite = true →
      |(x.val : ℝ) - (dec (unquant8 n)).val| ≤ δ → quant8 (enc x) = n := by
    intro n x hx hd
    obtain ⟨a, b, c, _⟩ := unquant8_spec (f := f) hf n
    obtain ⟨e1, e2⟩ := h.close _ x a b c hx hd
    exact quant8_of_near hf e1 n (e2.trans hκ)
  obtain ⟨r, gg, b⟩ := c
  have hv := hg (RGBf.mapc dec (RGBu8.toF ⟨r, gg, b⟩)) (by
    intro i; fin_cases i
    · exact hb r
    · exact hb gg
    · exact hb b)
  have k0 := key r _ (hv 0).1 (hv 0).2
  have k1 := key gg _ (hv 1).1 (hv 1).2
  have k2 := key b _ (hv 2).1 (hv 2).2
  show (⟨_, _, _⟩ : RGBu8) = _
  exact congr (congrArg₂ RGBu8.mk k0 k1) k2

section
variable {f : Fmt} [Libm f] (hf : Std f) (hp : PowAccurate f)
include hf hp

theorem srgb_dec_bound {y : FP f} (hy : y.isFinite = true) (h0 : 0 ≤ y.val) (h1 : y.val ≤ 1) :
    (decode.srgb_t y).isFinite = true ∧ |((decode.srgb_t y).val : ℝ)| ≤ 1.00001 := by
  obtain ⟨hu, hu0, _⟩ := u_tiny hf
  have hy1 : (y.val : ℝ) ≤ 1 := by exact_mod_cast h1
  have hy0 : (0 : ℝ) ≤ y.val := by exact_mod_cast h0
  rcases le_or_gt y.val (FP.lit 0.040449936 : FP f).val with h | h
  · obtain ⟨_, a1, a2, a3⟩ := srgb_dec_lin hf hy h0 h
    refine ⟨a1, ?_⟩
    have h4 : (0:ℝ) ≤ (decode.srgb_t y).val := by exact_mod_cast a2
    rw [abs_of_nonneg h4]
    have := (abs_le.1 a3).2
    norm_num at this hu ⊢
    linarith
  · have hD := srgb_dec_pow hf hp hy h h1
    refine ⟨hD.fin, ?_⟩
    have hD1 : (((y.val : ℝ) + 0.055) / 1.055) ^ (2.4 : ℝ) ≤ 1 := by
      refine Real.rpow_le_one (by positivity) ?_ (by norm_num)
      rw [div_le_one (by norm_num)]; linarith
    obtain ⟨sm0, sm1⟩ := RelF.small hf (n := 21) (by norm_num) (by norm_num)
    have ed := (abs_le.1 (hD.err.to_abs sm0 (le_trans sm1 (by norm_num)))).2
    rw [abs_of_pos hD.err.xpos]
    have hk : 21 * kap f * (1 + 21 * kap f) ≤ 1 / 10 ^ 5 := by
      have : 21 * kap f ≤ 1 / 200000 := by unfold kap; norm_num at hu ⊢; linarith
      have h' := kap_pos f
      nlinarith
    have := mul_le_mul hD1 hk (by positivity) (by norm_num)
    generalize (((y.val : ℝ) + 0.055) / 1.055) ^ (2.4 : ℝ) = D at *
    norm_num at this ed ⊢
    linarith

theorem srgb_curves {cs : ColorSpaceRGB (FP f)} (h1 : cs.oetf = encode.srgb) (h2 : cs.eotf = decode.srgb)
    {δ : ℝ} (hδ0 : 0 ≤ δ) (hδ : δ ≤ 1 / 1000) : ∃ enc dec, CurveClose δ (1 / 40000 + 14 * δ) cs enc dec :=
  ⟨encode.srgb_t, decode.srgb_t, h1, h2, fun y hy h0 h1 => srgb_dec_bound hf hp hy h0 h1,
    fun y x hy h0 h1 hx hd => by
      obtain ⟨a, b⟩ := srgb_close hf hp hy h0 h1 hx hδ hd
      refine ⟨a, b.trans ?_⟩
      have := (u_tiny hf).1
      norm_num at this ⊢; linarith⟩

theorem bt709_dec_bound {y : FP f} (hy : y.isFinite = true) (h0 : 0 ≤ y.val) (h1 : y.val ≤ 1) :
    (decode.bt709_t y).isFinite = true ∧ |((decode.bt709_t y).val : ℝ)| ≤ 1.00001 := by
  have hA := RelF.litE hf (q := 1.099) (by norm_num) (by norm_num)
  have hB := RelF.litE hf (q := 0.099) (by norm_num) (by norm_num)
  obtain ⟨a, X, b, c⟩ := bt_dec_near hf hp (hA.congr (by norm_num))
    ((hB.mono (by norm_num)).congr (by norm_num)) hy h0 h1 (bt709_dec_cases hf hy)
  refine ⟨a, ?_⟩
  obtain ⟨b1, b2⟩ := abs_le.1 b
  have : 0 ≤ X ∧ X ≤ 1 := by
    rcases c with ⟨c1, c2, c3⟩ | ⟨_, c2, c3, _⟩
    · exact ⟨c2, by norm_num at c1 c3 ⊢; linarith⟩
    · exact ⟨le_trans (by norm_num) c2, c3⟩
  rw [abs_le]
  norm_num at b1 b2 ⊢
  constructor <;> linarith [this.1, this.2]

theorem bt2020_dec_bound {y : FP f} (hy : y.isFinite = true) (h0 : 0 ≤ y.val) (h1 : y.val ≤ 1) :
    (decode.bt2020_t y).isFinite = true ∧ |((decode.bt2020_t y).val : ℝ)| ≤ 1.00001 := by
  have hA := RelF.litE hf (q := 1.099) (by norm_num) (by norm_num)
  obtain ⟨a, X, b, c⟩ := bt_dec_near hf hp (hA.congr (by norm_num))
    (bt2020_beta hf) hy h0 h1 (bt2020_dec_cases hf hy)
  refine ⟨a, ?_⟩
  obtain ⟨b1, b2⟩ := abs_le.1 b
  have : 0 ≤ X ∧ X ≤ 1 := by
    rcases c with ⟨c1, c2, c3⟩ | ⟨_, c2, c3, _⟩
    · exact ⟨c2, by norm_num at c1 c3 ⊢; linarith⟩
    · exact ⟨le_trans (by norm_num) c2, c3⟩
  rw [abs_le]
  norm_num at b1 b2 ⊢
  constructor <;> linarith [this.1, this.2]

theorem gentle_curves {δ : ℝ} (hδ0 : 0 ≤ δ) (hδ : δ ≤ 1 / 11000) :
    ∀ r ∈ Spec.gentle f, ∀ cs, r = .ok cs → ∃ enc dec, CurveClose δ (1 / 600) cs enc dec := by
  have ln : ∀ cs : ColorSpaceRGB (FP f), cs.oetf = encode.linear → cs.eotf = decode.linear →
      ∃ enc dec, CurveClose δ (1 / 600) cs enc dec := fun cs h1 h2 =>
    ⟨encode.linear_t, decode.linear_t, h1, h2, fun y hy h0 h1 => ⟨hy, by
      have hy1 : (y.val : ℝ) ≤ 1 := by exact_mod_cast h1
      have hy0 : (0 : ℝ) ≤ y.val := by exact_mod_cast h0
      show |(y.val : ℝ)| ≤ _
      rw [abs_of_nonneg hy0]; norm_num; linarith⟩,
      fun y x hy h0 h1 hx hd => ⟨hx, le_trans hd (by norm_num at hδ ⊢; linarith)⟩⟩
  intro r hr cs e
  simp only [Spec.gentle, List.mem_cons, List.not_mem_nil, or_false] at hr
  rcases hr with rfl | rfl | rfl | rfl | rfl
  · obtain ⟨a, b⟩ := new_curves e
    obtain ⟨enc, dec, h⟩ := srgb_curves hf hp a b hδ0 (hδ.trans (by norm_num))
    exact ⟨enc, dec, h.henc, h.hdec, h.bound, fun y x hy h0 h1 hx hd => by
      obtain ⟨a, b⟩ := h.close y x hy h0 h1 hx hd
      exact ⟨a, b.trans (by norm_num at hδ ⊢; linarith)⟩⟩
  · obtain ⟨a, b⟩ := new_curves e
    exact ⟨encode.bt709_t, decode.bt709_t, a, b, fun y hy h0 h1 => bt709_dec_bound hf hp hy h0 h1,
      fun y x hy h0 h1 hx hd => by
        obtain ⟨a, b⟩ := bt709_close hf hp hy h0 h1 hx (hδ.trans (by norm_num)) hd
        exact ⟨a, b.trans (by norm_num at hδ ⊢; linarith)⟩⟩
  · obtain ⟨a, b⟩ := new_curves e
    exact ⟨encode.bt2020_t, decode.bt2020_t, a, b, fun y hy h0 h1 => bt2020_dec_bound hf hp hy h0 h1,
      fun y x hy h0 h1 hx hd => by
        obtain ⟨a, b⟩ := bt2020_close hf hp hy h0 h1 hx (hδ.trans (by norm_num)) hd
        exact ⟨a, b.trans (by norm_num at hδ ⊢; linarith)⟩⟩
  · cases e; exact ln _ rfl rfl
  · obtain ⟨a, b⟩ := new_curves e; exact ln _ a b

omit hf hp in
/-- a pair that returns within `t` maps components of `[-1.00001,1.00001]` within `1.00001 t` -/
theorem returns_move {m n : Matrix33 (FP f)} {t : ℚ} (h : Spec.Returns m n t)
    (c : RGBf (FP f)) (hc : ∀ i, (rgbVec c i).isFinite = true ∧ |(rgbVec c i).val| ≤ 1.00001) (i : Fin 3) :
    (rgbVec (n * (m * c)) i).isFinite = true ∧
    |((rgbVec (n * (m * c)) i).val : ℝ) - (rgbVec c i).val| ≤ ((t * 1.00001 : ℚ) : ℝ) := by
  obtain ⟨a, b⟩ := h c 1.00001 (by norm_num) (by norm_num) hc i
  exact ⟨a, by exact_mod_cast b⟩

theorem through_srgb {s : Res (ColorSpaceRGB (FP f))} {t : ℚ} (h0 : 0 ≤ t) (h1 : t ≤ 1.1e-4)
    (h : Spec.PairReturns (Spec.srgb f) s t) : Spec.Through8 (Spec.srgb f) s := by
  obtain ⟨a, b, m, n, e1, e2, e3, e4, hr⟩ := h
  refine ⟨a, b, m, n, e1, e2, e3, e4, fun c => ?_⟩
  cases e1
  have t0 : (0:ℝ) ≤ ((t * 1.00001 : ℚ) : ℝ) := by
    have : (0:ℚ) ≤ t * 1.00001 := by positivity
    exact_mod_cast this
  have t1 : ((t * 1.00001 : ℚ) : ℝ) ≤ 1.15e-4 := by
    have : t * 1.00001 ≤ (1.15e-4 : ℚ) := by norm_num at h1 ⊢; linarith
    have : ((t * 1.00001 : ℚ) : ℝ) ≤ ((1.15e-4 : ℚ) : ℝ) := by exact_mod_cast this
    exact this.trans (by norm_num)
  obtain ⟨enc, dec, hc⟩ := srgb_curves hf hp (cs := Shipped.srgb (FP.ofQ f false)) rfl rfl t0
    (t1.trans (by norm_num))
  exact hc.u8 hf (by norm_num at t1 ⊢; linarith) _ (fun c hc i => returns_move hr c hc i) c

theorem through_gentle {r s : Res (ColorSpaceRGB (FP f))} (hg : r ∈ Spec.gentle f) {t : ℚ} (h0 : 0 ≤ t)
    (h1 : t ≤ 9e-5) (h : Spec.PairReturns r s t) : Spec.Through8 r s := by
  obtain ⟨a, b, m, n, e1, e2, e3, e4, hr⟩ := h
  refine ⟨a, b, m, n, e1, e2, e3, e4, fun c => ?_⟩
  have t0 : (0:ℝ) ≤ ((t * 1.00001 : ℚ) : ℝ) := by
    have : (0:ℚ) ≤ t * 1.00001 := by positivity
    exact_mod_cast this
  have t1 : ((t * 1.00001 : ℚ) : ℝ) ≤ 1 / 11000 := by
    have : t * 1.00001 ≤ (1 / 11000 : ℚ) := by norm_num at h1 ⊢; linarith
    have : ((t * 1.00001 : ℚ) : ℝ) ≤ ((1 / 11000 : ℚ) : ℝ) := by exact_mod_cast this
    exact this.trans (by norm_num)
  obtain ⟨enc, dec, hc⟩ := gentle_curves hf hp t0 t1 r hg a e1
  exact hc.u8 hf le_rfl _ (fun c hc i => returns_move hr c hc i) c

theorem xyz_srgb {t : ℚ} (h0 : 0 ≤ t) (h1 : t ≤ 9e-5)
    (h : Spec.SpaceTrips (Spec.srgb f) t) : Spec.ThroughXyz8 (Spec.srgb f) := by
  obtain ⟨cs, e, hw⟩ := h
  refine ⟨cs, e, fun w hw' => ?_⟩
  obtain ⟨A, B, hA, hB, hT⟩ := hw w hw'
  refine ⟨A, B, hA, hB, fun c => ?_⟩
  cases e
  have t0 : (0:ℝ) ≤ ((t * 1.00001 : ℚ) : ℝ) := by
    have : (0:ℚ) ≤ t * 1.00001 := by positivity
    exact_mod_cast this
  have t1 : ((t * 1.00001 : ℚ) : ℝ) ≤ 1.15e-4 := by
    have : t * 1.00001 ≤ (1.15e-4 : ℚ) := by norm_num at h1 ⊢; linarith
    have : ((t * 1.00001 : ℚ) : ℝ) ≤ ((1.15e-4 : ℚ) : ℝ) := by exact_mod_cast this
    exact this.trans (by norm_num)
  obtain ⟨enc, dec, hc⟩ := srgb_curves hf hp (cs := Shipped.srgb (FP.ofQ f false)) rfl rfl t0
    (t1.trans (by norm_num))
  refine hc.u8 hf (by norm_num at t1 ⊢; linarith) (fun c => xyzToRgb A (rgbToXyz B c)) (fun c hc i => ?_) c
  obtain ⟨a, b⟩ := hT.2 c 1.00001 (by norm_num) (by norm_num) hc i
  exact ⟨a, by exact_mod_cast b⟩

theorem xyz_gentle {r : Res (ColorSpaceRGB (FP f))} (hg : r ∈ Spec.gentle f) {t : ℚ} (h0 : 0 ≤ t)
    (h1 : t ≤ 9e-5) (h : Spec.SpaceTrips r t) : Spec.ThroughXyz8 r := by
  obtain ⟨cs, e, hw⟩ := h
  refine ⟨cs, e, fun w hw' => ?_⟩
  obtain ⟨A, B, hA, hB, hT⟩ := hw w hw'
  refine ⟨A, B, hA, hB, fun c => ?_⟩
  have t0 : (0:ℝ) ≤ ((t * 1.00001 : ℚ) : ℝ) := by
    have : (0:ℚ) ≤ t * 1.00001 := by positivity
    exact_mod_cast this
  have t1 : ((t * 1.00001 : ℚ) : ℝ) ≤ 1 / 11000 := by
    have : t * 1.00001 ≤ (1 / 11000 : ℚ) := by norm_num at h1 ⊢; linarith
    have : ((t * 1.00001 : ℚ) : ℝ) ≤ ((1 / 11000 : ℚ) : ℝ) := by exact_mod_cast this
    exact this.trans (by norm_num)
  obtain ⟨enc, dec, hc⟩ := gentle_curves hf hp t0 t1 r hg cs e
  refine hc.u8 hf le_rfl (fun c => xyzToRgb A (rgbToXyz B c)) (fun c hc i => ?_) c
  obtain ⟨a, b⟩ := hT.2 c 1.00001 (by norm_num) (by norm_num) hc i
  exact ⟨a, by exact_mod_cast b⟩

end

/-! ## C83 -/

theorem gentle_tol {f : Fmt} [Libm f] {a b c d e : ℚ} {r : Res (ColorSpaceRGB (FP f))}
    (h : r ∈ Spec.gentle f) : ∃ t, (t = d ∨ t = e) ∧ (r, t) ∈ Spec.xyzTolerance f a b c d e := by
  simp only [Spec.gentle, List.mem_cons, List.not_mem_nil, or_false] at h
  simp only [Spec.xyzTolerance, List.mem_cons, List.not_mem_nil, or_false]
  rcases h with rfl | rfl | rfl | rfl | rfl
  · exact ⟨e, .inr rfl, by simp only [true_or, or_true]⟩
  · exact ⟨e, .inr rfl, by simp only [true_or, or_true]⟩
  · exact ⟨e, .inr rfl, by simp only [true_or, or_true]⟩
  · exact ⟨d, .inl rfl, by simp only [true_or, or_true]⟩
  · exact ⟨e, .inr rfl, by simp only [or_true]⟩

theorem notSrgb_tol {f : Fmt} [Libm f] {a b c d e : ℚ} {r : Res (ColorSpaceRGB (FP f))}
    (h : r ∈ Spec.notSrgb f) : ∃ t, (t = b ∨ t = c ∨ t = d ∨ t = e) ∧
      (r, t) ∈ Spec.xyzTolerance f a b c d e := by
  simp only [Spec.notSrgb, List.mem_cons, List.not_mem_nil, or_false] at h
  simp only [Spec.xyzTolerance, List.mem_cons, List.not_mem_nil, or_false]
  rcases h with rfl | rfl | rfl | rfl | rfl | rfl | rfl | rfl | rfl
  · exact ⟨b, .inl rfl, by simp only [true_or, or_true]⟩
  · exact ⟨c, .inr (.inl rfl), by simp only [true_or, or_true]⟩
  · exact ⟨d, .inr (.inr (.inl rfl)), by simp only [true_or, or_true]⟩
  all_goals exact ⟨e, .inr (.inr (.inr rfl)), by simp only [true_or, or_true]⟩

/-- C83 [F]: in f32, every 8-bit sRGB image survives the trip through any other shipped space, and every
8-bit image in SRGB_DRV, BT.709, BT.2020, ACES or ACEScg survives the trip through any shipped space. -/
theorem C83_spaces_f32 [Libm Fmt.b32] (hp : PowAccurate Fmt.b32) :
    (∀ s ∈ Spec.notSrgb Fmt.b32, Spec.Through8 (Spec.srgb Fmt.b32) s) ∧
    (∀ r ∈ Spec.gentle Fmt.b32, ∀ s ∈ Spec.srgb Fmt.b32 :: Spec.notSrgb Fmt.b32, Spec.Through8 r s) := by
  constructor
  · intro s hs
    obtain ⟨t, ht, hm⟩ := notSrgb_tol (a := 8e-5) (b := 2.5e-5) (c := 3e-6) (d := 2e-6) (e := 2e-6) hs
    refine through_srgb std_b32 hp ?_ ?_ (C77_rgb_to_rgb_f32 (Spec.srgb Fmt.b32, 8e-5)
      (List.mem_cons_self ..) (s, t) hm) <;> rcases ht with rfl | rfl | rfl | rfl <;> norm_num
  · intro r hr s hs
    obtain ⟨t, ht, hm⟩ := gentle_tol (a := 8e-5) (b := 2.5e-5) (c := 3e-6) (d := 2e-6) (e := 2e-6) hr
    rcases List.mem_cons.1 hs with rfl | hs
    · refine through_gentle std_b32 hp hr ?_ ?_ (C77_rgb_to_rgb_f32 (r, t) hm
        (Spec.srgb Fmt.b32, 8e-5) (List.mem_cons_self ..)) <;> rcases ht with rfl | rfl <;> norm_num
    · obtain ⟨t', ht', hm'⟩ := notSrgb_tol (a := 8e-5) (b := 2.5e-5) (c := 3e-6) (d := 2e-6) (e := 2e-6) hs
      refine through_gentle std_b32 hp hr ?_ ?_ (C77_rgb_to_rgb_f32 (r, t) hm (s, t') hm') <;>
        rcases ht with rfl | rfl <;> rcases ht' with rfl | rfl | rfl | rfl <;> norm_num

/-- C83 [F]: the same in f64. -/
theorem C83_spaces_f64 [Libm Fmt.b64] (hp : PowAccurate Fmt.b64) :
    (∀ s ∈ Spec.notSrgb Fmt.b64, Spec.Through8 (Spec.srgb Fmt.b64) s) ∧
    (∀ r ∈ Spec.gentle Fmt.b64, ∀ s ∈ Spec.srgb Fmt.b64 :: Spec.notSrgb Fmt.b64, Spec.Through8 r s) := by
  constructor
  · intro s hs
    obtain ⟨t, ht, hm⟩ := notSrgb_tol (a := 8e-5) (b := 2.5e-5) (c := 3e-6) (d := 2e-10) (e := 1e-14) hs
    refine through_srgb std_b64 hp ?_ ?_ (C77_rgb_to_rgb_f64 (Spec.srgb Fmt.b64, 8e-5)
      (List.mem_cons_self ..) (s, t) hm) <;> rcases ht with rfl | rfl | rfl | rfl <;> norm_num
  · intro r hr s hs
    obtain ⟨t, ht, hm⟩ := gentle_tol (a := 8e-5) (b := 2.5e-5) (c := 3e-6) (d := 2e-10) (e := 1e-14) hr
    rcases List.mem_cons.1 hs with rfl | hs
    · refine through_gentle std_b64 hp hr ?_ ?_ (C77_rgb_to_rgb_f64 (r, t) hm
        (Spec.srgb Fmt.b64, 8e-5) (List.mem_cons_self ..)) <;> rcases ht with rfl | rfl <;> norm_num
    · obtain ⟨t', ht', hm'⟩ := notSrgb_tol (a := 8e-5) (b := 2.5e-5) (c := 3e-6) (d := 2e-10) (e := 1e-14) hs
      refine through_gentle std_b64 hp hr ?_ ?_ (C77_rgb_to_rgb_f64 (r, t) hm (s, t') hm') <;>
        rcases ht with rfl | rfl <;> rcases ht' with rfl | rfl | rfl | rfl <;> norm_num

/-- C83 [F]: every 8-bit image in sRGB, SRGB_DRV, BT.709, BT.2020, ACES or ACEScg survives the conversion
to XYZ and back, with any of the six white points, in f32 and in f64. -/
theorem C83_xyz [Libm Fmt.b32] [Libm Fmt.b64] (hp : PowAccurate Fmt.b32) (hp' : PowAccurate Fmt.b64) :
    (∀ r ∈ Spec.srgb Fmt.b32 :: Spec.gentle Fmt.b32, Spec.ThroughXyz8 r) ∧
    (∀ r ∈ Spec.srgb Fmt.b64 :: Spec.gentle Fmt.b64, Spec.ThroughXyz8 r) := by
  constructor
  · intro r hr
    rcases List.mem_cons.1 hr with rfl | hr
    · exact xyz_srgb std_b32 hp (by norm_num) (by norm_num)
        (C77_round_trip_f32 (Spec.srgb Fmt.b32, 8e-5) (List.mem_cons_self ..))
    · obtain ⟨t, ht, hm⟩ := gentle_tol (a := 8e-5) (b := 2e-5) (c := 5e-6) (d := 5e-6) (e := 5e-6) hr
      refine xyz_gentle std_b32 hp hr ?_ ?_ (C77_round_trip_f32 (r, t) hm) <;>
        rcases ht with rfl | rfl <;> norm_num
  · intro r hr
    rcases List.mem_cons.1 hr with rfl | hr
    · exact xyz_srgb std_b64 hp' (by norm_num) (by norm_num)
        (C77_round_trip_f64 (Spec.srgb Fmt.b64, 8e-5) (List.mem_cons_self ..))
    · obtain ⟨t, ht, hm⟩ := gentle_tol (a := 8e-5) (b := 2e-5) (c := 3e-6) (d := 2e-10) (e := 1e-14) hr
      refine xyz_gentle std_b64 hp' hr ?_ ?_ (C77_round_trip_f64 (r, t) hm) <;>
        rcases ht with rfl | rfl <;> norm_num

/-- Not vacuous: with the library that rounds the exact power, a pixel goes from sRGB to DCI-P3 and back. -/
example : letI := idealLibm Fmt.b32
    ∃ b m n, Shipped.dciP3 (FP.ofQ Fmt.b32 false) = .ok b ∧
      rgbToRgbMatrix (Shipped.srgb (FP.ofQ Fmt.b32 false)) b = .ok m ∧
      rgbToRgbMatrix b (Shipped.srgb (FP.ofQ Fmt.b32 false)) = .ok n ∧
      ((Shipped.srgb (FP.ofQ Fmt.b32 false)).encode
        (n * (m * (Shipped.srgb (FP.ofQ Fmt.b32 false)).decode (RGBu8.toF ⟨200, 1, 13⟩)))).toU8
        = ⟨200, 1, 13⟩ := by
  letI := idealLibm Fmt.b32
  obtain ⟨a, b, m, n, e1, e2, e3, e4, h⟩ := (C83_spaces_f32 (ideal_pow std_b32)).1
    (Shipped.dciP3 (FP.ofQ Fmt.b32 false)) (by simp [Spec.notSrgb])
  cases e1
  exact ⟨b, m, n, e2, e3, e4, h _⟩

end CS

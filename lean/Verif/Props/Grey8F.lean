import Verif.Lemmas.CurveRel
import Verif.Props.ViaF
import Verif.Lemmas.FPIn

/-!
# 8-bit greys, white and black between colour spaces (C111)

As in C82 and C83 the theorems hold for every library whose `powf` is within two units in the last place.
-/

namespace CS

/-! ### specification -/

/-- the 8-bit grey with the code `v` -/
def Spec.grey8 (v : UInt8) : RGBu8 := ⟨v, v, v⟩

/-- every 8-bit grey of the first space survives decoding, conversion to the second space, conversion back
and encoding -/
def Spec.GreyTrip8 {f : Fmt} [Libm f] (r s : Res (ColorSpaceRGB (FP f))) : Prop :=
  ∃ a b m n, r = .ok a ∧ s = .ok b ∧ rgbToRgbMatrix a b = .ok m ∧ rgbToRgbMatrix b a = .ok n ∧
    ∀ v : UInt8, (a.encode (n * (m * a.decode (Spec.grey8 v).toF))).toU8 = Spec.grey8 v

/-- every 8-bit grey of the first space is the grey with the same code in the second -/
def Spec.GreyKept8 {f : Fmt} [Libm f] (r s : Res (ColorSpaceRGB (FP f))) : Prop :=
  ∃ a b m, r = .ok a ∧ s = .ok b ∧ rgbToRgbMatrix a b = .ok m ∧
    ∀ v : UInt8, (b.encode (m * a.decode (Spec.grey8 v).toF)).toU8 = Spec.grey8 v

/-- the 8-bit white and black of the first space are the white and black of the second -/
def Spec.WhiteBlack8 {f : Fmt} [Libm f] (r s : Res (ColorSpaceRGB (FP f))) : Prop :=
  ∃ a b m, r = .ok a ∧ s = .ok b ∧ rgbToRgbMatrix a b = .ok m ∧
    (b.encode (m * a.decode (Spec.grey8 255).toF)).toU8 = Spec.grey8 255 ∧
    (b.encode (m * a.decode (Spec.grey8 0).toF)).toU8 = Spec.grey8 0

/-- every shipped space but `ALEXA_WIDE_GAMUT`, grouped by transfer curve -/
def Spec.sameCurve (f : Fmt) [Libm f] : List (List (Res (ColorSpaceRGB (FP f)))) :=
  let l := FP.ofQ f false
  [[.ok (Shipped.srgb l), Shipped.srgbDrv l], [Shipped.bt709 l, Shipped.bt2020 l],
   [Shipped.dciP3 l, Shipped.dciP3D65 l], [.ok (Shipped.aces l), Shipped.acesCg l],
   [.ok (Shipped.adobeRgb1998 l)]]

/-! ### rounding -/

section
variable {f : Fmt}

theorem finite_of_add {a b : FP f} (h : (a + b).isFinite = true) : a.isFinite = true ∧ b.isFinite = true := by
  change (FP.add a b).isFinite = true at h
  unfold FP.add at h
  cases a <;> cases b <;> simp_all [FP.isNaN, FP.isFinite, FP.sgn]

theorem finite_of_mul {a b : FP f} (h : (a * b).isFinite = true) : a.isFinite = true := by
  change (FP.mul a b).isFinite = true at h
  cases a with
  | nan => simp [FP.mul, FP.isFinite] at h
  | fin => rfl
  | nzero => rfl
  | pinf =>
    exfalso
    cases b <;> simp [FP.mul, FP.isFinite, FP.infOf, FP.sgn] at h
    split_ifs at h
  | ninf =>
    exfalso
    cases b <;> simp [FP.mul, FP.isFinite, FP.infOf, FP.sgn] at h
    split_ifs at h

theorem row_finite {m : Matrix33 (FP f)} {c : RGBf (FP f)} (h : ∀ i, (rgbVec (m * c) i).isFinite = true) :
    ∀ i j, (m.get i j).isFinite = true ∧ (rgbVec c j).isFinite = true := by
  intro i j
  have hi := h i
  rw [mul_row] at hi
  obtain ⟨h1, h2⟩ := finite_of_add hi
  obtain ⟨h0, h1⟩ := finite_of_add h1
  have key : ∀ {a b : FP f}, (a * b).isFinite = true → a.isFinite = true ∧ b.isFinite = true := fun h =>
    ⟨finite_of_mul h, finite_of_mul (by rw [FP.mul_comm'] at h; exact h)⟩
  fin_cases j
  · exact key h0
  · exact key h1
  · exact key h2

/-- a finite matrix takes black to black -/
theorem zero_row {m : Matrix33 (FP f)} (hm : ∀ i j, (m.get i j).isFinite = true) {c : RGBf (FP f)}
    (hc : ∀ i, FP.IsZero (rgbVec c i)) (i : Fin 3) : FP.IsZero (rgbVec (m * c) i) := by
  rw [mul_row]
  have mz : ∀ {a b : FP f}, a.isFinite = true → FP.IsZero b → FP.IsZero (a * b) := fun ha hb => by
    rw [FP.mul_finite_eq ha hb.1, hb.2, mul_zero, FP.ofQ_zero]
    exact FP.isZero_zeroOf _
  have az : ∀ {a b : FP f}, FP.IsZero a → FP.IsZero b → FP.IsZero (a + b) := fun {a b} ha hb => by
    obtain ⟨s, e⟩ := add_finite_eq ha.1 hb.1
    rw [e, ha.2, hb.2, add_zero, FP.ofQ_zero]
    exact FP.isZero_zeroOf _
  exact az (az (mz (hm i 0) (hc 0)) (mz (hm i 1) (hc 1))) (mz (hm i 2) (hc 2))

theorem grey_vec (g : FP f) (i : Fin 3) : rgbVec (⟨g, g, g⟩ : RGBf (FP f)) i = g := by fin_cases i <;> rfl

theorem greyVec_move {m : Matrix33 (FP f)} {t : ℚ} (h : Spec.KeepsGrey m t) (ht : t ≤ 1 / 2500) {D : FP f}
    (hD : D.isFinite = true) (h1 : D.val ≤ 1.00001) (h0 : D.val = 0 ∨ 1 / 2 ^ 90 ≤ D.val) (i : Fin 3) :
    (rgbVec (m * (⟨D, D, D⟩ : RGBf (FP f))) i).isFinite = true ∧
    |((rgbVec (m * (⟨D, D, D⟩ : RGBf (FP f))) i).val : ℝ) - D.val| ≤ 1 / 2500 * D.val := by
  rcases h0 with h0 | h0
  · have one : (FP.lit 1 : FP f).isFinite = true ∧ (FP.lit 1 : FP f).val = 1 := by
      rw [FP.lit_one]; exact ⟨rfl, rfl⟩
    have hm := row_finite (fun i => (h _ one.1 (by rw [one.2]; norm_num) (by rw [one.2]; norm_num) i).1)
    obtain ⟨z1, z2⟩ := zero_row (fun i j => (hm i j).1) (c := ⟨D, D, D⟩)
      (fun i => by rw [grey_vec]; exact ⟨hD, h0⟩) i
    exact ⟨z1, by rw [z2, h0]; norm_num⟩
  · have hDp : 0 < D.val := lt_of_lt_of_le (by positivity) h0
    obtain ⟨a, b⟩ := h D hD (by rw [abs_of_pos hDp]; exact h0)
      (by rw [abs_of_pos hDp]; exact h1.trans (by norm_num)) i
    refine ⟨a, ?_⟩
    rw [abs_of_pos hDp] at b
    have : |(rgbVec (m * (⟨D, D, D⟩ : RGBf (FP f))) i).val - D.val| ≤ 1 / 2500 * D.val :=
      b.trans (mul_le_mul_of_nonneg_right ht hDp.le)
    qcast this

theorem greyVec_return [Libm f] {m n : Matrix33 (FP f)} {t : ℚ} (h : Spec.Returns m n t) (ht : t ≤ 1 / 2500) {D : FP f}
    (hD : D.isFinite = true) (h1 : D.val ≤ 1.00001) (h0 : D.val = 0 ∨ 1 / 2 ^ 90 ≤ D.val) (i : Fin 3) :
    (rgbVec (n * (m * (⟨D, D, D⟩ : RGBf (FP f)))) i).isFinite = true ∧
    |((rgbVec (n * (m * (⟨D, D, D⟩ : RGBf (FP f)))) i).val : ℝ) - D.val| ≤ 1 / 2500 * D.val := by
  rcases h0 with h0 | h0
  · have hz : ∀ i, FP.IsZero (rgbVec (⟨D, D, D⟩ : RGBf (FP f)) i) := fun i => by rw [grey_vec]; exact ⟨hD, h0⟩
    have hn := row_finite (fun i => (h ⟨D, D, D⟩ (1 / 2 ^ 90) le_rfl (by norm_num)
      (fun i => ⟨(hz i).1, by rw [(hz i).2]; norm_num⟩) i).1)
    have hm := row_finite (fun j => (hn 0 j).2)
    obtain ⟨z1, z2⟩ := zero_row (fun i j => (hn i j).1) (zero_row (fun i j => (hm i j).1) hz) i
    exact ⟨z1, by rw [z2, h0]; norm_num⟩
  · have hDp : 0 < D.val := lt_of_lt_of_le (by positivity) h0
    obtain ⟨a, b⟩ := h ⟨D, D, D⟩ D.val h0 (h1.trans (by norm_num))
      (fun i => by rw [grey_vec]; exact ⟨hD, (abs_of_pos hDp).le⟩) i
    refine ⟨a, ?_⟩
    rw [grey_vec] at b
    have : |(rgbVec (n * (m * (⟨D, D, D⟩ : RGBf (FP f)))) i).val - D.val| ≤ 1 / 2500 * D.val :=
      b.trans (mul_le_mul_of_nonneg_right ht hDp.le)
    qcast this

end

/-! ### the shipped curves -/

section
variable {f : Fmt} [Libm f]

theorem unquant8_low (hf : Std f) (v : UInt8) : (unquant8 v : FP f).isFinite = true ∧ 0 ≤ (unquant8 v : FP f).val ∧
    (unquant8 v : FP f).val ≤ 1 ∧ ((unquant8 v : FP f).val = 0 ∨ 1 / 2 ^ 9 ≤ (unquant8 v : FP f).val) := by
  obtain ⟨a, b, c, d, e⟩ := unquant8_spec (f := f) hf v
  refine ⟨a, b, c, ?_⟩
  rcases Nat.eq_zero_or_pos v.toNat with h | h
  · rcases e with e | e
    · exact .inl e
    · exfalso
      rw [h] at d
      have := (abs_le.1 d).2
      norm_num at this e
      linarith
  · right
    have h1 : (1:ℚ) ≤ v.toNat := by exact_mod_cast h
    have := (abs_le.1 d).1
    norm_num at this ⊢
    linarith

theorem unquant8_255 (hf : Std f) : (unquant8 255 : FP f).val = 1 := by
  have hp := hf.p24
  have hN : 255 ≤ 2 ^ f.p := le_trans (by norm_num) (Nat.pow_le_pow_right (by norm_num) (by omega : 8 ≤ f.p))
  obtain ⟨h1, h2, h3, h4⟩ := unquant_val (f := f) 255 255 le_rfl (by norm_num) hN (by norm_num)
  have e : (unquant8 255 : FP f) = FP.ofQ f false ((255 : ℕ) : ℚ) / FP.lit ((255 : ℕ) : ℚ) := by
    unfold unquant8; norm_num; rfl
  rw [e, h2, div_self (by norm_num)]
  simpa using (FP.isRep_nat (f := f) 1 Nat.one_le_two_pow).1

theorem same_curves (hf : Std f) (hp : PowAccurate f) : ∀ l ∈ Spec.sameCurve f, ∀ r ∈ l, ∀ s ∈ l, ∀ a b,
    r = .ok a → s = .ok b → ∃ enc dec, b.oetf = RGBf.mapc enc ∧ a.eotf = RGBf.mapc dec ∧
      CurveRel (1 / 2500) (1 / 600) enc dec := by
  intro l hl r hr s hs a b ea eb
  simp only [Spec.sameCurve, List.mem_cons, List.not_mem_nil, or_false] at hl
  rcases hl with rfl | rfl | rfl | rfl | rfl
  · have k : ∀ r ∈ [.ok (Shipped.srgb (FP.ofQ f false)), Shipped.srgbDrv (FP.ofQ f false)], ∀ a, r = .ok a →
        a.oetf = RGBf.mapc encode.srgb_t ∧ a.eotf = RGBf.mapc decode.srgb_t := by
      intro r hr a e
      simp only [List.mem_cons, List.not_mem_nil, or_false] at hr
      rcases hr with rfl | rfl
      · cases e; exact ⟨rfl, rfl⟩
      · exact new_curves e
    exact ⟨_, _, (k s hs b eb).1, (k r hr a ea).2, srgb_rel hf hp (by norm_num) le_rfl⟩
  · have k : ∀ r ∈ [Shipped.bt709 (FP.ofQ f false), Shipped.bt2020 (FP.ofQ f false)], ∀ a, r = .ok a →
        ∃ enc dec, (enc = encode.bt709_t ∨ enc = encode.bt2020_t) ∧ (dec = decode.bt709_t ∨ dec = decode.bt2020_t) ∧
        a.oetf = RGBf.mapc enc ∧ a.eotf = RGBf.mapc dec := by
      intro r hr a e
      simp only [List.mem_cons, List.not_mem_nil, or_false] at hr
      rcases hr with rfl | rfl
      · exact ⟨_, _, .inl rfl, .inl rfl, new_curves e⟩
      · exact ⟨_, _, .inr rfl, .inr rfl, new_curves e⟩
    obtain ⟨_, dec, _, k1, _, k2⟩ := k r hr a ea
    obtain ⟨enc, _, k3, _, k4, _⟩ := k s hs b eb
    exact ⟨enc, dec, k4, k2, bt_rels hf hp (by norm_num) le_rfl k3 k1⟩
  · have k : ∀ r ∈ [Shipped.dciP3 (FP.ofQ f false), Shipped.dciP3D65 (FP.ofQ f false)], ∀ a, r = .ok a →
        a.oetf = RGBf.mapc (fun x : FP f => Flt.powf x (FP.ofQ f false 1.0 / FP.ofQ f false 2.6)) ∧
        a.eotf = RGBf.mapc (fun y : FP f => Flt.powf y (FP.ofQ f false 2.6)) := by
      intro r hr a e
      simp only [List.mem_cons, List.not_mem_nil, or_false] at hr
      rcases hr with rfl | rfl <;> exact new_curves e
    exact ⟨_, _, (k s hs b eb).1, (k r hr a ea).2, gamma_rel hf hp (by norm_num) (by norm_num) le_rfl⟩
  · have k : ∀ r ∈ [.ok (Shipped.aces (FP.ofQ f false)), Shipped.acesCg (FP.ofQ f false)], ∀ a, r = .ok a →
        a.oetf = RGBf.mapc (fun x => x) ∧ a.eotf = RGBf.mapc (fun x => x) := by
      intro r hr a e
      simp only [List.mem_cons, List.not_mem_nil, or_false] at hr
      rcases hr with rfl | rfl
      · cases e; exact ⟨rfl, rfl⟩
      · exact new_curves e
    exact ⟨_, _, (k s hs b eb).1, (k r hr a ea).2, linear_rel le_rfl⟩
  · simp only [List.mem_cons, List.not_mem_nil, or_false] at hr hs
    subst hr hs
    cases ea; cases eb
    exact ⟨_, _, rfl, rfl, gamma_rel hf hp (g := 2.19921875) (by norm_num) (by norm_num) le_rfl⟩

theorem mem_flatten_curve {r : Res (ColorSpaceRGB (FP f))} (h : r ∈ (Spec.sameCurve f).flatten) :
    ∃ l ∈ Spec.sameCurve f, r ∈ l := List.mem_flatten.1 h

/-- encoding three numbers close to the decoded grey -/
theorem encode_grey (hf : Std f) {b : ColorSpaceRGB (FP f)} {enc dec : FP f → FP f}
    (he : b.oetf = RGBf.mapc enc) (hc : CurveRel (1 / 2500) (1 / 600) enc dec) (v : UInt8) {c : RGBf (FP f)}
    (h : ∀ i, (rgbVec c i).isFinite = true ∧
      |((rgbVec c i).val : ℝ) - (dec (unquant8 v)).val| ≤ 1 / 2500 * (dec (unquant8 v)).val) :
    (b.encode c).toU8 = Spec.grey8 v := by
  obtain ⟨a1, a2, a3, a4⟩ := unquant8_low hf v
  have k : ∀ i, quant8 (enc (rgbVec c i)) = v := fun i => by
    obtain ⟨x, y⟩ := hc.close _ _ a1 a2 a3 a4 (h i).1 (h i).2
    exact quant8_of_near hf x v y
  unfold ColorSpaceRGB.encode
  rw [he]
  show (⟨_, _, _⟩ : RGBu8) = ⟨v, v, v⟩
  exact congr (congrArg₂ RGBu8.mk (k 0) (k 1)) (k 2)

theorem decode_grey {a : ColorSpaceRGB (FP f)} {dec : FP f → FP f} (hd : a.eotf = RGBf.mapc dec) (v : UInt8) :
    a.decode (Spec.grey8 v).toF = ⟨dec (unquant8 v), dec (unquant8 v), dec (unquant8 v)⟩ := by
  unfold ColorSpaceRGB.decode
  rw [hd]; rfl

theorem trip_of (hf : Std f) (hp : PowAccurate f) {r s : Res (ColorSpaceRGB (FP f))}
    (hr : r ∈ (Spec.sameCurve f).flatten) {t : ℚ} (ht : t ≤ 1 / 2500) (h : Spec.PairReturns r s t) :
    Spec.GreyTrip8 r s := by
  obtain ⟨a, b, m, n, e1, e2, e3, e4, hR⟩ := h
  refine ⟨a, b, m, n, e1, e2, e3, e4, fun v => ?_⟩
  obtain ⟨l, hl, hrl⟩ := List.mem_flatten.1 hr
  obtain ⟨enc, dec, c1, c2, hc⟩ := same_curves hf hp l hl r hrl r hrl a a e1 e1
  obtain ⟨a1, a2, a3, a4⟩ := unquant8_low hf v
  obtain ⟨l1, l2, l3⟩ := hc.low _ a1 a2 a3 a4
  rw [decode_grey c2]
  exact encode_grey hf c1 hc v (greyVec_return hR ht l1 l2 l3)

theorem kept_of (hf : Std f) (hp : PowAccurate f) {r s : Res (ColorSpaceRGB (FP f))}
    {l : List (Res (ColorSpaceRGB (FP f)))} (hl : l ∈ Spec.sameCurve f) (hr : r ∈ l) (hs : s ∈ l) {t : ℚ}
    (ht : t ≤ 1 / 2500) (h : Spec.PairGrey r s t) : Spec.GreyKept8 r s := by
  obtain ⟨a, b, m, e1, e2, e3, hG⟩ := h
  refine ⟨a, b, m, e1, e2, e3, fun v => ?_⟩
  obtain ⟨enc, dec, c1, c2, hc⟩ := same_curves hf hp l hl r hr s hs a b e1 e2
  obtain ⟨a1, a2, a3, a4⟩ := unquant8_low hf v
  obtain ⟨l1, l2, l3⟩ := hc.low _ a1 a2 a3 a4
  rw [decode_grey c2]
  exact encode_grey hf c1 hc v (greyVec_move hG ht l1 l2 l3)

theorem white_of (hf : Std f) (hp : PowAccurate f) {r s : Res (ColorSpaceRGB (FP f))}
    (hr : r ∈ (Spec.sameCurve f).flatten) (hs : s ∈ (Spec.sameCurve f).flatten) {t : ℚ}
    (ht : t ≤ 3.6e-4) (h : Spec.PairGrey r s t) : Spec.WhiteBlack8 r s := by
  obtain ⟨a, b, m, e1, e2, e3, hG⟩ := h
  refine ⟨a, b, m, e1, e2, e3, ?_⟩
  obtain ⟨l, hl, hrl⟩ := List.mem_flatten.1 hr
  obtain ⟨_, dec, _, c2, hc⟩ := same_curves hf hp l hl r hrl r hrl a a e1 e1
  obtain ⟨l', hl', hsl⟩ := List.mem_flatten.1 hs
  obtain ⟨enc, dec', c1, _, hc'⟩ := same_curves hf hp l' hl' s hsl s hsl b b e2 e2
  rw [decode_grey c2, decode_grey c2]
  have ht' : t ≤ 1 / 2500 := ht.trans (by norm_num)
  constructor
  · obtain ⟨a1, a2, a3, a4⟩ := unquant8_low (f := f) hf 255
    obtain ⟨l1, l2, l3⟩ := hc.low _ a1 a2 a3 a4
    have o1 := abs_le.1 (hc.one _ a1 (unquant8_255 hf))
    have o2 := abs_le.1 (hc'.one _ a1 (unquant8_255 hf))
    have hDp : 0 < (dec (unquant8 255)).val := by
      have : (0:ℝ) < (dec (unquant8 255)).val := by norm_num at o1; linarith [o1.1]
      exact_mod_cast this
    refine encode_grey hf c1 hc' 255 fun i => ?_
    have l4 : 1 / 2 ^ 90 ≤ (dec (unquant8 255)).val := by
      rcases l3 with l3 | l3
      · exact absurd l3 hDp.ne'
      · exact l3
    obtain ⟨g1, g2⟩ := hG _ l1 (by rw [abs_of_pos hDp]; exact l4)
      (by rw [abs_of_pos hDp]; exact l2.trans (by norm_num)) i
    refine ⟨g1, ?_⟩
    rw [abs_of_pos hDp] at g2
    have g3 := g2.trans (mul_le_mul ht l2 hDp.le (by norm_num))
    have g4 : |((rgbVec (m * (⟨dec (unquant8 255), dec (unquant8 255), dec (unquant8 255)⟩ : RGBf (FP f))) i).val : ℝ) -
        (dec (unquant8 255)).val| ≤ ((3.6e-4 * 1.00001 : ℚ) : ℝ) := by exact_mod_cast g3
    obtain ⟨g5, g6⟩ := abs_le.1 g4
    obtain ⟨o3, o4⟩ := o1
    obtain ⟨o5, o6⟩ := o2
    rw [abs_le]
    norm_num at g5 g6 o3 o4 o5 o6 ⊢
    constructor <;> linarith
  · obtain ⟨a1, a2, a3, a4⟩ := unquant8_low (f := f) hf 0
    have z : (unquant8 0 : FP f).val = 0 := by
      obtain ⟨_, _, _, d, _⟩ := unquant8_spec (f := f) hf 0
      rcases a4 with h | h
      · exact h
      · exfalso
        have := (abs_le.1 d).2
        norm_num at this h
        linarith
    obtain ⟨l1, l2, l3⟩ := hc.low _ a1 a2 a3 a4
    refine encode_grey hf c1 hc' 0 fun i => ?_
    obtain ⟨g1, g2⟩ := greyVec_move hG ht' l1 l2 l3 i
    refine ⟨g1, ?_⟩
    rw [hc.zero _ a1 z] at g2
    rw [hc'.zero _ a1 z]
    exact g2

/-- every shipped space is in the table of tolerances -/
theorem any_tol {a b c d e T : ℚ} (ha : a ≤ T) (hb : b ≤ T) (hc : c ≤ T)
    (hd : d ≤ T) (he : e ≤ T) {r : Res (ColorSpaceRGB (FP f))}
    (h : r ∈ Spec.srgb f :: Spec.notSrgb f) : ∃ t, t ≤ T ∧ (r, t) ∈ Spec.xyzTolerance f a b c d e := by
  rcases List.mem_cons.1 h with rfl | h
  · exact ⟨a, ha, List.mem_cons_self ..⟩
  · obtain ⟨t, ht, hm⟩ := notSrgb_tol (a := a) (b := b) (c := c) (d := d) (e := e) h
    rcases ht with rfl | rfl | rfl | rfl
    · exact ⟨_, hb, hm⟩
    · exact ⟨_, hc, hm⟩
    · exact ⟨_, hd, hm⟩
    · exact ⟨_, he, hm⟩

theorem curve_any {r : Res (ColorSpaceRGB (FP f))} (h : r ∈ (Spec.sameCurve f).flatten) :
    r ∈ Spec.srgb f :: Spec.notSrgb f := by
  simp only [Spec.sameCurve, List.flatten_cons, List.flatten_nil, List.cons_append, List.nil_append,
    List.append_nil, List.mem_cons, List.not_mem_nil, or_false] at h
  simp only [Spec.srgb, Spec.notSrgb, List.mem_cons, List.not_mem_nil, or_false]
  rcases h with rfl | rfl | rfl | rfl | rfl | rfl | rfl | rfl | rfl <;> simp only [true_or, or_true]

end

/-! ## C111 -/

/-- C111 [F]: in f32 and f64, every 8-bit grey of sRGB, SRGB_DRV, BT.709, BT.2020, DCI-P3, DCI-P3 D65, ACES,
ACEScg or Adobe RGB survives the conversion to any of the ten shipped spaces and back. -/
theorem C111_grey_trip [Libm Fmt.b32] [Libm Fmt.b64] (hp : PowAccurate Fmt.b32) (hp' : PowAccurate Fmt.b64) :
    (∀ r ∈ (Spec.sameCurve Fmt.b32).flatten, ∀ s ∈ Spec.srgb Fmt.b32 :: Spec.notSrgb Fmt.b32, Spec.GreyTrip8 r s) ∧
    (∀ r ∈ (Spec.sameCurve Fmt.b64).flatten, ∀ s ∈ Spec.srgb Fmt.b64 :: Spec.notSrgb Fmt.b64, Spec.GreyTrip8 r s) := by
  constructor
  · intro r hr s hs
    have tol := fun {r} => any_tol (f := Fmt.b32) (a := 8e-5) (b := 2.5e-5) (c := 3e-6) (d := 2e-6) (e := 2e-6)
      (T := 1e-4) (by norm_num) (by norm_num) (by norm_num) (by norm_num) (by norm_num) (r := r)
    obtain ⟨t, h1, hm⟩ := tol (curve_any hr)
    obtain ⟨t', h1', hm'⟩ := tol hs
    exact trip_of std_b32 hp hr (by norm_num at h1 h1' ⊢; linarith) (C77_rgb_to_rgb_f32 (r, t) hm (s, t') hm')
  · intro r hr s hs
    have tol := fun {r} => any_tol (f := Fmt.b64) (a := 8e-5) (b := 2.5e-5) (c := 3e-6) (d := 2e-10) (e := 1e-14)
      (T := 1e-4) (by norm_num) (by norm_num) (by norm_num) (by norm_num) (by norm_num) (r := r)
    obtain ⟨t, h1, hm⟩ := tol (curve_any hr)
    obtain ⟨t', h1', hm'⟩ := tol hs
    exact trip_of std_b64 hp' hr (by norm_num at h1 h1' ⊢; linarith) (C77_rgb_to_rgb_f64 (r, t) hm (s, t') hm')

/-- C111 [F]: between two shipped spaces with the same transfer curve (sRGB and SRGB_DRV, BT.709 and BT.2020,
DCI-P3 and DCI-P3 D65, ACES and ACEScg) every 8-bit grey keeps its code, in f32 and in f64. -/
theorem C111_grey_kept [Libm Fmt.b32] [Libm Fmt.b64] (hp : PowAccurate Fmt.b32) (hp' : PowAccurate Fmt.b64) :
    (∀ l ∈ Spec.sameCurve Fmt.b32, ∀ r ∈ l, ∀ s ∈ l, Spec.GreyKept8 r s) ∧
    (∀ l ∈ Spec.sameCurve Fmt.b64, ∀ r ∈ l, ∀ s ∈ l, Spec.GreyKept8 r s) := by
  constructor
  · intro l hl r hr s hs
    have tol := fun {r} => any_tol (f := Fmt.b32) (a := 1.75e-4) (b := 2.8e-5) (c := 1.5e-6) (d := 7e-7) (e := 8e-7)
      (T := 1.75e-4) (by norm_num) (by norm_num) (by norm_num) (by norm_num) (by norm_num) (r := r)
    obtain ⟨t, h1, hm⟩ := tol (curve_any (List.mem_flatten.2 ⟨l, hl, hr⟩))
    obtain ⟨t', h1', hm'⟩ := tol (curve_any (List.mem_flatten.2 ⟨l, hl, hs⟩))
    exact kept_of std_b32 hp hl hr hs (by norm_num at h1 h1' ⊢; linarith) (C109_grey_f32 (r, t) hm (s, t') hm')
  · intro l hl r hr s hs
    have tol := fun {r} => any_tol (f := Fmt.b64) (a := 1.75e-4) (b := 2.8e-5) (c := 1.4e-6) (d := 2.5e-10) (e := 3e-15)
      (T := 1.75e-4) (by norm_num) (by norm_num) (by norm_num) (by norm_num) (by norm_num) (r := r)
    obtain ⟨t, h1, hm⟩ := tol (curve_any (List.mem_flatten.2 ⟨l, hl, hr⟩))
    obtain ⟨t', h1', hm'⟩ := tol (curve_any (List.mem_flatten.2 ⟨l, hl, hs⟩))
    exact kept_of std_b64 hp' hl hr hs (by norm_num at h1 h1' ⊢; linarith) (C109_grey_f64 (r, t) hm (s, t') hm')

/-- C111 [F]: between any two of the nine spaces, 8-bit white is white and black is black, in f32 and in f64,
although the transfer curves differ. -/
theorem C111_white_black [Libm Fmt.b32] [Libm Fmt.b64] (hp : PowAccurate Fmt.b32) (hp' : PowAccurate Fmt.b64) :
    (∀ r ∈ (Spec.sameCurve Fmt.b32).flatten, ∀ s ∈ (Spec.sameCurve Fmt.b32).flatten, Spec.WhiteBlack8 r s) ∧
    (∀ r ∈ (Spec.sameCurve Fmt.b64).flatten, ∀ s ∈ (Spec.sameCurve Fmt.b64).flatten, Spec.WhiteBlack8 r s) := by
  constructor
  · intro r hr s hs
    have tol := fun {r} => any_tol (f := Fmt.b32) (a := 1.75e-4) (b := 2.8e-5) (c := 1.5e-6) (d := 7e-7) (e := 8e-7)
      (T := 1.75e-4) (by norm_num) (by norm_num) (by norm_num) (by norm_num) (by norm_num) (r := r)
    obtain ⟨t, h1, hm⟩ := tol (curve_any hr)
    obtain ⟨t', h1', hm'⟩ := tol (curve_any hs)
    exact white_of std_b32 hp hr hs (by norm_num at h1 h1' ⊢; linarith)
      (C109_grey_f32 (r, t) hm (s, t') hm')
  · intro r hr s hs
    have tol := fun {r} => any_tol (f := Fmt.b64) (a := 1.75e-4) (b := 2.8e-5) (c := 1.4e-6) (d := 2.5e-10) (e := 3e-15)
      (T := 1.75e-4) (by norm_num) (by norm_num) (by norm_num) (by norm_num) (by norm_num) (r := r)
    obtain ⟨t, h1, hm⟩ := tol (curve_any hr)
    obtain ⟨t', h1', hm'⟩ := tol (curve_any hs)
    exact white_of std_b64 hp' hr hs (by norm_num at h1 h1' ⊢; linarith)
      (C109_grey_f64 (r, t) hm (s, t') hm')

/-- Not vacuous: with the library that rounds the exact power, the grey 100 of DCI-P3 is the grey 100 of
DCI-P3 D65, and the white of Adobe RGB is the white of BT.709. -/
example : letI := idealLibm Fmt.b32
    (∃ a b m, Shipped.dciP3 (FP.ofQ Fmt.b32 false) = .ok a ∧ Shipped.dciP3D65 (FP.ofQ Fmt.b32 false) = .ok b ∧
      rgbToRgbMatrix a b = .ok m ∧ (b.encode (m * a.decode (RGBu8.toF ⟨100, 100, 100⟩))).toU8 = ⟨100, 100, 100⟩) ∧
    (∃ b m, Shipped.bt709 (FP.ofQ Fmt.b32 false) = .ok b ∧
      rgbToRgbMatrix (Shipped.adobeRgb1998 (FP.ofQ Fmt.b32 false)) b = .ok m ∧
      (b.encode (m * (Shipped.adobeRgb1998 (FP.ofQ Fmt.b32 false)).decode (RGBu8.toF ⟨255, 255, 255⟩))).toU8
        = ⟨255, 255, 255⟩) := by
  let := idealLibm Fmt.b32
  let := idealLibm Fmt.b64
  constructor
  · obtain ⟨a, b, m, e1, e2, e3, h⟩ := (C111_grey_kept (ideal_pow std_b32) (ideal_pow std_b64)).1
      [Shipped.dciP3 (FP.ofQ Fmt.b32 false), Shipped.dciP3D65 (FP.ofQ Fmt.b32 false)] (by simp [Spec.sameCurve])
      _ (List.mem_cons_self ..) _ (List.mem_cons_of_mem _ (List.mem_cons_self ..))
    exact ⟨a, b, m, e1, e2, e3, h 100⟩
  · obtain ⟨a, b, m, e1, e2, e3, h, _⟩ := (C111_white_black (ideal_pow std_b32) (ideal_pow std_b64)).1
      (.ok (Shipped.adobeRgb1998 (FP.ofQ Fmt.b32 false))) (by simp [Spec.sameCurve])
      (Shipped.bt709 (FP.ofQ Fmt.b32 false)) (by simp [Spec.sameCurve])
    cases e1
    exact ⟨b, m, e2, e3, h⟩

end CS

import Verif.Props.CurvesF
import Verif.Props.Image
import Verif.Lemmas.FPMono

/-!
# C102: brighter light is never encoded darker, and codes are decoded in order
-/

namespace CS

/-! ### specification -/

/-- every 8-bit and every 16-bit component of `p` is at most that of `q` -/
def Spec.CodesLe {f : Fmt} [Libm f] (p q : RGBf (FP f)) : Prop :=
  (p.toU8.r ≤ q.toU8.r ∧ p.toU8.g ≤ q.toU8.g ∧ p.toU8.b ≤ q.toU8.b) ∧
  (p.toU16.r ≤ q.toU16.r ∧ p.toU16.g ≤ q.toU16.g ∧ p.toU16.b ≤ q.toU16.b)

/-- every component of `p` is at most that of `q` -/
def Spec.DarkerEq {f : Fmt} [Libm f] (p q : RGBf (FP f)) : Prop :=
  Flt.le p.r q.r = true ∧ Flt.le p.g q.g = true ∧ Flt.le p.b q.b = true

/-- no component is below zero (or NaN) -/
def Spec.NonNegative {f : Fmt} [Libm f] (p : RGBf (FP f)) : Prop :=
  Flt.le (FP.lit 0) p.r = true ∧ Flt.le (FP.lit 0) p.g = true ∧ Flt.le (FP.lit 0) p.b = true

/-- greater 8-bit codes are decoded to greater light -/
def Spec.Separates8 {f : Fmt} [Libm f] (cs : ColorSpaceRGB (FP f)) : Prop :=
  ∀ c d : RGBu8, (c.r < d.r → Flt.lt (cs.decode c.toF).r (cs.decode d.toF).r = true) ∧
    (c.g < d.g → Flt.lt (cs.decode c.toF).g (cs.decode d.toF).g = true) ∧
    (c.b < d.b → Flt.lt (cs.decode c.toF).b (cs.decode d.toF).b = true)

/-- greater 16-bit codes are decoded to greater light -/
def Spec.Separates16 {f : Fmt} [Libm f] (cs : ColorSpaceRGB (FP f)) : Prop :=
  ∀ c d : RGBu16, (c.r < d.r → Flt.lt (cs.decode c.toF).r (cs.decode d.toF).r = true) ∧
    (c.g < d.g → Flt.lt (cs.decode c.toF).g (cs.decode d.toF).g = true) ∧
    (c.b < d.b → Flt.lt (cs.decode c.toF).b (cs.decode d.toF).b = true)

section
variable {f : Fmt} [Libm f]

/-! ### curves in two pieces -/

omit [Libm f] in
theorem pieces {R : FP f → FP f → Prop} (tr : ∀ a b c, R a b → R b c → R a c) {c : FP f → Bool}
    {lo hi : FP f → FP f} {t : FP f} (ct : ∀ x, x.isNaN = false → c x = true → FP.le x t = true)
    (anti : ∀ x y, FP.le x y = true → c y = true → c x = true)
    (hlo : ∀ x y, FP.le x y = true → R (lo x) (lo y))
    (hhi : ∀ x y, c x = false → FP.le x y = true → R (hi x) (hi y))
    (seam : ∀ y : FP f, y.isNaN = false → c y = false → R (lo t) (hi y)) {x y : FP f}
    (h : FP.le x y = true) : R (if c x then lo x else hi x) (if c y then lo y else hi y) := by
  cases hy : c y with
  | true =>
    rw [anti x y h hy]
    exact hlo x y h
  | false =>
    cases hx : c x with
    | true => exact tr _ _ _ (hlo x t (ct x (FP.not_nan_left h) hx)) (seam y (FP.not_nan_right h) hy)
    | false => exact hhi x y hx h

/-- both codes of `a` are at most those of `b` -/
def codeLe (a b : FP f) : Prop := quant8 a ≤ quant8 b ∧ quant16 a ≤ quant16 b

theorem codeLe_trans (a b c : FP f) (h1 : codeLe a b) (h2 : codeLe b c) : codeLe a c :=
  ⟨UInt8.le_trans h1.1 h2.1, UInt16.le_trans h1.2 h2.2⟩

theorem codeLe_of_le (hf : Std f) {a b : FP f} (h : FP.le a b = true) : codeLe a b := by
  have := hf.p24
  exact ⟨C03_quant8_monotone a b (by omega) h, C03_quant16_monotone a b (by omega) h⟩

theorem codesLe_mapc {enc : FP f → FP f} {p q : RGBf (FP f)} (hr : codeLe (enc p.r) (enc q.r))
    (hg : codeLe (enc p.g) (enc q.g)) (hb : codeLe (enc p.b) (enc q.b)) :
    Spec.CodesLe (p.mapc enc) (q.mapc enc) :=
  ⟨⟨hr.1, hg.1, hb.1⟩, hr.2, hg.2, hb.2⟩

/-- two literals with the same codes -/
theorem codeLe_lits (hf : Std f) {p q : ℚ} (m : UInt8) (n : UInt16) {M N : ℕ}
    (hM : m.toNat = M) (hN : n.toNat = N) (hp : 1 / 64 ≤ p) (hp1 : p ≤ 1)
    (hq : 1 / 64 ≤ q) (hq1 : q ≤ 1) (a1 : |p - M / 255| ≤ 1 / 700) (a2 : |q - M / 255| ≤ 1 / 700)
    (b1 : |p - N / 65535| ≤ 1 / 190000) (b2 : |q - N / 65535| ≤ 1 / 190000) :
    codeLe (FP.lit p : FP f) (FP.lit q) := by
  subst hM hN
  have key : ∀ r : ℚ, 1 / 64 ≤ r → r ≤ 1 → |r - m.toNat / 255| ≤ 1 / 700 → |r - n.toNat / 65535| ≤ 1 / 190000 →
      quant8 (FP.lit r : FP f) = m ∧ quant16 (FP.lit r : FP f) = n := by
    intro r r1 r2 h8 h16
    have l := thr_near hf (q := r) (le_trans (by norm_num) r1) (le_trans r2 (by norm_num))
    have fin := (RelF.litE hf (q := r) (le_trans (by norm_num) r1) (le_trans r2 (by norm_num))).fin
    obtain ⟨u0, u1, _⟩ := u_facts hf
    have r0 : (0:ℝ) ≤ r := by exact_mod_cast le_trans (by norm_num) r1
    have r1' : (r:ℝ) ≤ 1 := by exact_mod_cast r2
    have lr : |((FP.lit r : FP f).val : ℝ) - r| ≤ 4 / 2 ^ 24 := by
      have : (r:ℝ) * (4 * f.u) ≤ 1 * (4 / 2 ^ 24) := mul_le_mul r1' (by norm_num at u1 ⊢; linarith)
        (by positivity) (by norm_num)
      rw [abs_le]; constructor <;> linarith [l.1, l.2]
    obtain ⟨_, _, _, e8, _⟩ := unquant8_spec (f := f) hf m
    obtain ⟨_, _, _, e16, _⟩ := unquant16_spec (f := f) hf n
    have e8r : |((unquant8 m : FP f).val : ℝ) - m.toNat / 255| ≤ 1 / 2 ^ 24 := by qcast e8
    have e16r : |((unquant16 n : FP f).val : ℝ) - n.toNat / 65535| ≤ 1 / 2 ^ 24 := by qcast e16
    have h8r : |(r : ℝ) - m.toNat / 255| ≤ 1 / 700 := by qcast h8
    have h16r : |(r : ℝ) - n.toNat / 65535| ≤ 1 / 190000 := by qcast h16
    constructor
    · refine quant8_of_near hf fin m ?_
      rw [abs_le] at *
      norm_num at *
      constructor <;> linarith [lr.1, lr.2, e8r.1, e8r.2, h8r.1, h8r.2]
    · refine quant16_of_near hf fin n ?_
      rw [abs_le] at *
      norm_num at *
      constructor <;> linarith [lr.1, lr.2, e16r.1, e16r.2, h16r.1, h16r.2]
  obtain ⟨p8, p16⟩ := key p hp hp1 a1 b1
  obtain ⟨q8, q16⟩ := key q hq hq1 a2 b2
  exact ⟨by rw [p8, q8]; exact UInt8.le_refl _, by rw [p16, q16]; exact UInt16.le_refl _⟩

theorem lit_fp (hf : Std f) {q : ℚ} (h1 : 1 / 2 ^ 20 ≤ q) (h2 : q ≤ 2 ^ 20) :
    (FP.lit q : FP f).isFinite = true ∧ 0 < (FP.lit q : FP f).val :=
  ⟨(RelF.litE hf h1 h2).fin, lit_pos (RelF.litE hf h1 h2)⟩

theorem zero_le_lit (hf : Std f) {q : ℚ} (h1 : 1 / 2 ^ 20 ≤ q) (h2 : q ≤ 2 ^ 20) :
    FP.le (FP.lit 0) (FP.lit q : FP f) = true := by
  obtain ⟨a, b⟩ := lit_fp hf h1 h2
  refine FP.le_val (by rw [FP.lit_zero]; rfl) a ?_
  rw [FP.lit_zero]
  exact b.le

/-! ### sRGB -/

theorem srgb_exp (hf : Std f) : (FP.lit 1.0 / FP.lit 2.4 : FP f).isFinite = true ∧
    0 < (FP.lit 1.0 / FP.lit 2.4 : FP f).val := by
  have a1 := (RelF.one (f := f)).div hf (RelF.litE hf (q := 2.4) (by norm_num) (by norm_num))
    (by norm_num) (by norm_num) (by norm_num) (by norm_num) (by norm_num)
  exact ⟨a1.fin, by exact_mod_cast a1.err.xpos⟩

theorem srgb_amp (hf : Std f) : (FP.lit 1.0 + FP.lit 0.055 : FP f).isFinite = true ∧
    0 < (FP.lit 1.0 + FP.lit 0.055 : FP f).val := by
  have a3 := ((RelF.one (f := f)).mono (n := 1) (by norm_num)).add hf
    (RelF.litE hf (q := 0.055) (by norm_num) (by norm_num)) (by norm_num) (by norm_num)
    (by norm_num)
  exact ⟨a3.fin, by exact_mod_cast a3.err.xpos⟩

theorem srgb_hi_mono (hf : Std f) (hm : PowMonotone f) {x y : FP f} (h0 : FP.le (FP.lit 0) x = true)
    (h : FP.le x y = true) :
    FP.le ((FP.lit 1.0 + FP.lit 0.055) * Flt.powf x (FP.lit 1.0 / FP.lit 2.4) - FP.lit 0.055)
      ((FP.lit 1.0 + FP.lit 0.055) * Flt.powf y (FP.lit 1.0 / FP.lit 2.4) - FP.lit 0.055) = true := by
  obtain ⟨e1, e2⟩ := srgb_exp hf
  obtain ⟨a1, a2⟩ := srgb_amp hf
  exact FP.sub_right_le (lit_fp hf (by norm_num) (by norm_num)).1
    (FP.mul_left_le a1 a2 (hm.mono x y _ e1 e2 h0 h))

theorem le_pow512 {c x : ℝ} (hc : 0 ≤ c) (hx : 0 ≤ x) (h : c ^ 12 ≤ x ^ 5) : c ≤ x ^ (1 / 2.4 : ℝ) := by
  refine le_of_pow_le_pow_left₀ (n := 12) (by norm_num) (Real.rpow_nonneg hx _) (h.trans ?_)
  rw [← Real.rpow_natCast, ← Real.rpow_natCast, ← Real.rpow_mul hx]
  norm_num

/-- past the threshold the sRGB encoder is above 0.040447 -/
theorem srgb_hi_ge (hf : Std f) (hp : PowAccurate f) (hm : PowMonotone f) {y : FP f} (hn : y.isNaN = false)
    (h : FP.le y (FP.lit 0.0031308) = false) :
    FP.le (FP.lit 0.040447)
      ((FP.lit 1.0 + FP.lit 0.055) * Flt.powf y (FP.lit 1.0 / FP.lit 2.4) - FP.lit 0.055) = true := by
  obtain ⟨u0, u1, _⟩ := u_facts hf
  obtain ⟨t1, t2⟩ := lit_fp hf (q := 0.0031308) (by norm_num) (by norm_num)
  obtain ⟨c1, c2⟩ := lit_fp hf (q := 0.040447) (by norm_num) (by norm_num)
  have tl := thr_near hf (q := 0.0031308) (by norm_num) (by norm_num)
  have cl := thr_near hf (q := 0.040447) (by norm_num) (by norm_num)
  -- for finite arguments up to one
  have key : ∀ z : FP f, z.isFinite = true → (FP.lit 0.0031308 : FP f).val < z.val → z.val ≤ 1 →
      FP.le (FP.lit 0.040447)
      ((FP.lit 1.0 + FP.lit 0.055) * Flt.powf z (FP.lit 1.0 / FP.lit 2.4) - FP.lit 0.055) = true := by
    intro z z1 z2 z3
    obtain ⟨a, b⟩ := srgb_enc_abs hf hp z1 z2 (by linarith)
    have e : encode.srgb_t z =
        (FP.lit 1.0 + FP.lit 0.055) * Flt.powf z (FP.lit 1.0 / FP.lit 2.4) - FP.lit 0.055 := by
      unfold encode.srgb_t
      have : Flt.le z (Flt.lit 0.0031308) = false := by
        show FP.le z (FP.lit 0.0031308) = false
        rw [FP.le_finite z1 t1]; simpa using z2
      rw [this]; rfl
    rw [e] at a b
    refine FP.le_val c1 a ?_
    have zr : ((FP.lit 0.0031308 : FP f).val : ℝ) ≤ z.val := by exact_mod_cast z2.le
    have zl : (0.0031307 : ℝ) ≤ z.val := by
      refine le_trans ?_ (tl.1.trans zr)
      norm_num at u1 ⊢; linarith
    have pw : (0.0904726 : ℝ) ≤ (z.val : ℝ) ^ (1 / 2.4 : ℝ) := by
      refine le_pow512 (by norm_num) (by linarith [show (0:ℝ) ≤ 0.0031307 by norm_num]) ?_
      calc (0.0904726:ℝ) ^ 12 ≤ 0.0031307 ^ 5 := by norm_num
        _ ≤ _ := pow_le_pow_left₀ (by norm_num) zl 5
    generalize (z.val : ℝ) ^ (1 / 2.4 : ℝ) = P at *
    have := (abs_le.1 b).1
    have hr : ((FP.lit 0.040447 : FP f).val : ℝ) ≤
        ((FP.lit 1.0 + FP.lit 0.055) * Flt.powf z (FP.lit 1.0 / FP.lit 2.4) - FP.lit 0.055 : FP f).val := by
      refine cl.2.trans ?_
      generalize (((FP.lit 1.0 + FP.lit 0.055) * Flt.powf z (FP.lit 1.0 / FP.lit 2.4)
        - FP.lit 0.055 : FP f).val : ℝ) = w at *
      norm_num at u1 pw this ⊢
      linarith
    exact_mod_cast hr
  have hty := FP.le_of_not_le hn (FP.isNaN_of_finite t1) h
  have h0 := FP.le_trans' (zero_le_lit hf (by norm_num) (by norm_num)) hty
  obtain ⟨o1, o2⟩ : (FP.lit 1 : FP f).isFinite = true ∧ (FP.lit 1 : FP f).val = 1 := by
    rw [FP.lit_one]; exact ⟨rfl, rfl⟩
  have hto : (FP.lit 0.0031308 : FP f).val < (FP.lit 1 : FP f).val := by
    have : ((FP.lit 0.0031308 : FP f).val : ℝ) < 1 := by
      refine lt_of_le_of_lt tl.2 ?_
      norm_num at u1 ⊢; linarith
    rw [o2]; exact_mod_cast this
  cases hy : FP.le y (FP.lit 1) with
  | true =>
    rcases fin_or_pinf h0 with rfl | ⟨y1, y2⟩
    · have := pinf_le hy
      rw [this] at o1; cases o1
    · refine key y y1 ?_ (by rw [← o2]; exact FP.val_le y1 o1 hy)
      rw [FP.le_finite y1 t1] at h
      simpa using h
  | false =>
    refine FP.le_trans' (key _ o1 hto o2.le) (srgb_hi_mono hf hm ?_ ?_)
    · exact FP.le_val (by rw [FP.lit_zero]; rfl) o1 (by rw [FP.lit_zero, o2]; norm_num)
    · exact FP.le_of_not_le hn (FP.isNaN_of_finite o1) hy

theorem srgb_codes (hf : Std f) (hp : PowAccurate f) (hm : PowMonotone f) {x y : FP f}
    (h : FP.le x y = true) : codeLe (encode.srgb_t x) (encode.srgb_t y) := by
  obtain ⟨u0, u1, _⟩ := u_facts hf
  obtain ⟨t1, t2⟩ := lit_fp hf (q := 0.0031308) (by norm_num) (by norm_num)
  obtain ⟨m1, m2⟩ := lit_fp hf (q := 12.92) (by norm_num) (by norm_num)
  have tl := thr_near hf (q := 0.0031308) (by norm_num) (by norm_num)
  refine pieces (c := fun x => FP.le x (FP.lit 0.0031308)) (lo := fun x => x * FP.lit 12.92)
    (hi := fun x => (FP.lit 1.0 + FP.lit 0.055) * Flt.powf x (FP.lit 1.0 / FP.lit 2.4) - FP.lit 0.055)
    (t := FP.lit 0.0031308) codeLe_trans (fun _ _ h => h) (fun _ _ h1 h2 => FP.le_trans' h1 h2)
    (fun x y h => codeLe_of_le hf (FP.mul_right_le m1 m2 h)) ?_ ?_ h
  · intro x y hx h
    refine codeLe_of_le hf (srgb_hi_mono hf hm ?_ h)
    exact FP.le_trans' (zero_le_lit hf (by norm_num) (by norm_num))
      (FP.le_of_not_le (FP.not_nan_left h) (FP.isNaN_of_finite t1) hx)
  · intro y hn hy
    have up : FP.le (FP.lit 0.0031308 * FP.lit 12.92) (FP.lit 0.0404505 : FP f) = true := by
      obtain ⟨a, b⟩ := srgb_enc_lin hf t1 (by linarith) le_rfl
      have e : encode.srgb_t (FP.lit 0.0031308 : FP f) = FP.lit 0.0031308 * FP.lit 12.92 := by
        unfold encode.srgb_t
        have : Flt.le (FP.lit 0.0031308 : FP f) (Flt.lit 0.0031308) = true :=
          FP.le_refl' (FP.isNaN_of_finite t1)
        rw [this]; rfl
      rw [e] at a b
      obtain ⟨c1, c2⟩ := lit_fp hf (q := 0.0404505) (by norm_num) (by norm_num)
      have cl := thr_near hf (q := 0.0404505) (by norm_num) (by norm_num)
      refine FP.le_val a c1 ?_
      have hr : ((FP.lit 0.0031308 * FP.lit 12.92 : FP f).val : ℝ) ≤ (FP.lit 0.0404505 : FP f).val := by
        refine le_trans ?_ cl.1
        have := (abs_le.1 b).2
        have := tl.2
        generalize ((FP.lit 0.0031308 * FP.lit 12.92 : FP f).val : ℝ) = w at *
        generalize ((FP.lit 0.0031308 : FP f).val : ℝ) = v at *
        norm_num at *
        linarith
      exact_mod_cast hr
    refine codeLe_trans _ _ _ (codeLe_of_le hf up) (codeLe_trans _ _ _ ?_
      (codeLe_of_le hf (srgb_hi_ge hf hp hm hn hy)))
    exact codeLe_lits hf 10 2651 (M := 10) (N := 2651) rfl rfl (by norm_num) (by norm_num) (by norm_num) (by norm_num)
      (by rw [abs_le]; norm_num) (by rw [abs_le]; norm_num) (by rw [abs_le]; norm_num)
      (by rw [abs_le]; norm_num)

/-! ### BT.709 and BT.2020 -/

theorem bt_hi_mono (hf : Std f) (hm : PowMonotone f) {A B x y : FP f} (hA : RelF 1 A 1.099)
    (hB : RelF 13 B 0.099) (h0 : FP.le (FP.lit 0) x = true) (h : FP.le x y = true) :
    FP.le (A * Flt.powf x (FP.lit 0.45) - B) (A * Flt.powf y (FP.lit 0.45) - B) = true := by
  obtain ⟨e1, e2⟩ := lit_fp hf (q := 0.45) (by norm_num) (by norm_num)
  exact FP.sub_right_le hB.fin (FP.mul_left_le hA.fin (by exact_mod_cast hA.err.xpos)
    (hm.mono x y _ e1 e2 h0 h))

theorem bt_seam (hf : Std f) (hp : PowAccurate f) {A B : FP f} (hA : RelF 1 A 1.099) (hB : RelF 13 B 0.099) :
    FP.le (FP.lit 0.018 * FP.lit 4.5) (A * Flt.powf (FP.lit 0.018) (FP.lit 0.45) - B) = true := by
  obtain ⟨u0, u1, _⟩ := u_facts hf
  obtain ⟨t1, t2⟩ := lit_fp hf (q := 0.018) (by norm_num) (by norm_num)
  have tl := thr_near hf (q := 0.018) (by norm_num) (by norm_num)
  obtain ⟨s1, _⟩ := bt_threshold hf
  have lo := (btthr_near hf).2
  have tlo : (0.01799 : ℝ) ≤ (FP.lit 0.018 : FP f).val := by
    refine le_trans ?_ tl.1
    norm_num at u1 ⊢; linarith
  have n := bt_enc_nr hf hp hA hB t1 (le_trans (by norm_num) tlo) (by
    refine tl.2.trans ?_
    norm_num at u1 ⊢; linarith)
  have b1 : (0.1639 : ℝ) ≤ ((FP.lit 0.018 : FP f).val : ℝ) ^ (0.45 : ℝ) := by
    apply le_pow45 (le_trans (by norm_num) tlo) (by norm_num)
    calc (0.1639:ℝ) ^ 20 ≤ (0.01799:ℝ) ^ 9 := by norm_num
      _ ≤ _ := pow_le_pow_left₀ (by norm_num) tlo 9
  refine FP.le_val s1 n.fin ?_
  have e := (abs_le.1 n.err).1
  have hr : ((FP.lit 0.018 * FP.lit 4.5 : FP f).val : ℝ) ≤
      (A * Flt.powf (FP.lit 0.018) (FP.lit 0.45) - B : FP f).val := by
    refine lo.trans ?_
    generalize ((FP.lit 0.018 : FP f).val : ℝ) ^ (0.45 : ℝ) = P at *
    generalize ((A * Flt.powf (FP.lit 0.018) (FP.lit 0.45) - B : FP f).val : ℝ) = w at *
    norm_num at u1 b1 e ⊢
    linarith
  exact_mod_cast hr

theorem FP.le_trans_bool (a b c : FP f) (h1 : FP.le a b = true) (h2 : FP.le b c = true) :
    FP.le a c = true := FP.le_trans' h1 h2

theorem bt709_mono (hf : Std f) (hp : PowAccurate f) (hm : PowMonotone f) {x y : FP f}
    (h : FP.le x y = true) : FP.le (encode.bt709_t x) (encode.bt709_t y) = true := by
  have hA := (RelF.litE hf (q := 1.099) (by norm_num) (by norm_num)).congr (Y := 1.099) (by norm_num)
  have hB := ((RelF.litE hf (q := 0.099) (by norm_num) (by norm_num)).mono (n := 13) (by norm_num)).congr
    (Y := 0.099) (by norm_num)
  obtain ⟨t1, t2⟩ := lit_fp hf (q := 0.018) (by norm_num) (by norm_num)
  obtain ⟨m1, m2⟩ := lit_fp hf (q := 4.5) (by norm_num) (by norm_num)
  have z := zero_le_lit hf (q := 0.018) (by norm_num) (by norm_num)
  refine pieces (R := fun a b => FP.le a b = true) (c := fun x => FP.le x (FP.lit 0.018))
    (lo := fun x => x * FP.lit 4.5)
    (hi := fun x => FP.lit 1.099 * Flt.powf x (FP.lit 0.45) - FP.lit 0.099)
    (t := FP.lit 0.018) FP.le_trans_bool (fun _ _ h => h) (fun _ _ h1 h2 => FP.le_trans' h1 h2)
    (fun x y h => FP.mul_right_le m1 m2 h) ?_ ?_ h
  · intro x y hx h
    exact bt_hi_mono hf hm hA hB (FP.le_trans' z
      (FP.le_of_not_le (FP.not_nan_left h) (FP.isNaN_of_finite t1) hx)) h
  · intro y hn hy
    exact FP.le_trans' (bt_seam hf hp hA hB)
      (bt_hi_mono hf hm hA hB z (FP.le_of_not_le hn (FP.isNaN_of_finite t1) hy))

theorem FP.lt_of_le_lt {a b c : FP f} (h1 : FP.le a b = true) (h2 : FP.lt b c = true) :
    FP.lt a c = true := by
  obtain ⟨x, y, ha, hb, h⟩ := (FP.le_iff a b).1 h1
  obtain ⟨y', z, hb', hc, h'⟩ := (FP.lt_iff b c).1 h2
  rw [hb] at hb'
  obtain rfl := Option.some.inj hb'
  exact (FP.lt_iff a c).2 ⟨x, z, ha, hc, lt_of_le_of_lt h h'⟩

theorem FP.lt_of_lt_le {a b c : FP f} (h1 : FP.lt a b = true) (h2 : FP.le b c = true) :
    FP.lt a c = true := by
  obtain ⟨x, y, ha, hb, h⟩ := (FP.lt_iff a b).1 h1
  obtain ⟨y', z, hb', hc, h'⟩ := (FP.le_iff b c).1 h2
  rw [hb] at hb'
  obtain rfl := Option.some.inj hb'
  exact (FP.lt_iff a c).2 ⟨x, z, ha, hc, lt_of_lt_of_le h h'⟩

theorem bt2020_mono (hf : Std f) (hp : PowAccurate f) (hm : PowMonotone f) {x y : FP f}
    (h : FP.le x y = true) : FP.le (encode.bt2020_t x) (encode.bt2020_t y) = true := by
  have hA := (RelF.litE hf (q := 1.099) (by norm_num) (by norm_num)).congr (Y := 1.099) (by norm_num)
  have hB := bt2020_beta hf
  obtain ⟨t1, t2⟩ := lit_fp hf (q := 0.018) (by norm_num) (by norm_num)
  obtain ⟨m1, m2⟩ := lit_fp hf (q := 4.5) (by norm_num) (by norm_num)
  have z := zero_le_lit hf (q := 0.018) (by norm_num) (by norm_num)
  refine pieces (R := fun a b => FP.le a b = true) (c := fun x => FP.lt x (FP.lit 0.018))
    (lo := fun x => x * FP.lit 4.5)
    (hi := fun x => FP.lit 1.099 * Flt.powf x (FP.lit 0.45) - (FP.lit 1.099 - FP.lit 1.0))
    (t := FP.lit 0.018) FP.le_trans_bool (fun _ _ h => FP.le_of_lt h) (fun _ _ h1 h2 => FP.lt_of_le_lt h1 h2)
    (fun x y h => FP.mul_right_le m1 m2 h) ?_ ?_ h
  · intro x y hx h
    exact bt_hi_mono hf hm hA hB (FP.le_trans' z
      (FP.le_of_not_lt (FP.not_nan_left h) (FP.isNaN_of_finite t1) hx)) h
  · intro y hn hy
    exact FP.le_trans' (bt_seam hf hp hA hB)
      (bt_hi_mono hf hm hA hB z (FP.le_of_not_lt hn (FP.isNaN_of_finite t1) hy))

/-! ### LogC -/

theorem logc_hi_mono (hf : Std f) (hm : LogMonotone f) {x y : FP f} (h0 : FP.le (FP.lit 0.010591) x = true)
    (h : FP.le x y = true) :
    FP.le (FP.lit 0.247190 * Flt.log10 (FP.lit 5.555556 * x + FP.lit 0.052272) + FP.lit 0.385537)
      (FP.lit 0.247190 * Flt.log10 (FP.lit 5.555556 * y + FP.lit 0.052272) + FP.lit 0.385537) = true := by
  obtain ⟨a1, a2⟩ := lit_fp hf (q := 5.555556) (by norm_num) (by norm_num)
  obtain ⟨b1, b2⟩ := lit_fp hf (q := 0.052272) (by norm_num) (by norm_num)
  obtain ⟨c1, c2⟩ := lit_fp hf (q := 0.247190) (by norm_num) (by norm_num)
  obtain ⟨d1, d2⟩ := lit_fp hf (q := 0.385537) (by norm_num) (by norm_num)
  have inner : ∀ {p q : FP f}, FP.le p q = true →
      FP.le (FP.lit 5.555556 * p + FP.lit 0.052272) (FP.lit 5.555556 * q + FP.lit 0.052272) = true :=
    fun h => FP.add_right_le b1 (FP.mul_left_le a1 a2 h)
  refine FP.add_right_le d1 (FP.mul_left_le c1 c2 (hm.mono _ _ ?_ (inner h)))
  refine FP.lt_of_lt_le ?_ (inner h0)
  have m := (RelF.litE hf (q := 5.555556) (by norm_num) (by norm_num)).mul hf
    (RelF.litE hf (q := 0.010591) (by norm_num) (by norm_num)) (by norm_num) (by norm_num) (by norm_num)
    (by norm_num) (by norm_num)
  have p := (m.mono (n := 4) (by norm_num)).add hf
    ((RelF.litE hf (q := 0.052272) (by norm_num) (by norm_num)).mono (n := 4) (by norm_num)) (by norm_num)
    (by norm_num) (by norm_num)
  show FP.lt _ _ = true
  rw [FP.lt_finite (by rw [FP.lit_zero]; rfl) p.fin, FP.lit_zero]
  refine decide_eq_true ?_
  exact_mod_cast p.err.xpos

set_option exponentiation.threshold 20000 in
theorem logc_seam_log : -(1439 / 1508 : ℝ) < Real.logb 10 0.1111108 := by
  have h : (10:ℕ) ^ (7 * 1508 - 1439) < 1111108 ^ 1508 := by decide +kernel
  have h' : (10:ℝ) ^ (7 * 1508 - 1439) < 1111108 ^ 1508 := by exact_mod_cast h
  have key := lt_log10 (y := 0.1111108) (by norm_num) 1439 1508 (by norm_num) (by
    rw [show (0.1111108 : ℝ) = 1111108 / 10 ^ 7 by norm_num, div_pow, ← pow_mul, mul_div_assoc', lt_div_iff₀
      (by positivity), one_mul]
    calc (10:ℝ) ^ (7 * 1508) = 10 ^ 1439 * 10 ^ (7 * 1508 - 1439) := by rw [← pow_add]
      _ < _ := mul_lt_mul_of_pos_left h' (by positivity))
  exact_mod_cast key

theorem logc_codes (hf : Std f) (hl : LogAccurate f) (hm : LogMonotone f) {x y : FP f}
    (h : FP.le x y = true) : codeLe (encode.alexa_logc_v3_t x) (encode.alexa_logc_v3_t y) := by
  obtain ⟨u0, u1, _⟩ := u_facts hf
  obtain ⟨t1, t2⟩ := lit_fp hf (q := 0.010591) (by norm_num) (by norm_num)
  have tl := thr_near hf (q := 0.010591) (by norm_num) (by norm_num)
  obtain ⟨m1, m2⟩ := lit_fp hf (q := 5.367655) (by norm_num) (by norm_num)
  obtain ⟨d1, d2⟩ := lit_fp hf (q := 0.092809) (by norm_num) (by norm_num)
  have e : ∀ z : FP f, encode.alexa_logc_v3_t z = if !FP.lt (FP.lit 0.010591) z then
      FP.lit 5.367655 * z + FP.lit 0.092809 else
      FP.lit 0.247190 * Flt.log10 (FP.lit 5.555556 * z + FP.lit 0.052272) + FP.lit 0.385537 := by
    intro z
    show (if FP.lt (FP.lit 0.010591) z then _ else _) = _
    cases FP.lt (FP.lit 0.010591) z <;> rfl
  rw [e, e]
  refine pieces (R := codeLe) (c := fun x => !FP.lt (FP.lit 0.010591) x)
    (lo := fun x => FP.lit 5.367655 * x + FP.lit 0.092809)
    (hi := fun x => FP.lit 0.247190 * Flt.log10 (FP.lit 5.555556 * x + FP.lit 0.052272) + FP.lit 0.385537)
    (t := FP.lit 0.010591) codeLe_trans ?_ ?_ ?_ ?_ ?_ h
  · intro x hn hx
    exact FP.le_of_not_lt (FP.isNaN_of_finite t1) hn (by simpa using hx)
  · intro x y h hy
    simp only [Bool.not_eq_true'] at hy ⊢
    by_contra hx
    rw [FP.lt_of_lt_le (by simpa using hx) h] at hy
    cases hy
  · intro x y h
    exact codeLe_of_le hf (FP.add_right_le d1 (FP.mul_left_le m1 m2 h))
  · intro x y hx h
    exact codeLe_of_le hf (logc_hi_mono hf hm (FP.le_of_lt (by simpa using hx)) h)
  · intro y hn hy
    have hi := logc_hi_mono hf hm (FP.le_refl' (FP.isNaN_of_finite t1)) (FP.le_of_lt (by simpa using hy) :
      FP.le (FP.lit 0.010591) y = true)
    have up : FP.le (FP.lit 5.367655 * FP.lit 0.010591 + FP.lit 0.092809) (FP.lit 0.14966 : FP f) = true := by
      have a := logc_enc_lin hf (AbsF.exact t1)
        (by
          rw [abs_of_nonneg (by exact_mod_cast t2.le)]
          have := tl.2
          norm_num at this u1 ⊢; linarith) (by norm_num)
      obtain ⟨c1, c2⟩ := lit_fp hf (q := 0.14966) (by norm_num) (by norm_num)
      have cl := thr_near hf (q := 0.14966) (by norm_num) (by norm_num)
      refine FP.le_val a.fin c1 ?_
      have hr : ((FP.lit 5.367655 * FP.lit 0.010591 + FP.lit 0.092809 : FP f).val : ℝ) ≤
          (FP.lit 0.14966 : FP f).val := by
        refine le_trans ?_ cl.1
        have := (abs_le.1 a.err).2
        have := tl.2
        generalize ((FP.lit 5.367655 * FP.lit 0.010591 + FP.lit 0.092809 : FP f).val : ℝ) = w at *
        generalize ((FP.lit 0.010591 : FP f).val : ℝ) = v at *
        norm_num at *
        linarith
      exact_mod_cast hr
    have down : FP.le (FP.lit 0.1496555 : FP f) (FP.lit 0.247190 *
        Flt.log10 (FP.lit 5.555556 * FP.lit 0.010591 + FP.lit 0.052272) + FP.lit 0.385537) = true := by
      have a := logc_enc_log hf hl (AbsF.exact t1) (P := 5.555556 * (FP.lit 0.010591 : FP f).val + 0.052272) rfl
        (by
          have := tl.1
          norm_num at this u1 ⊢; linarith)
        (by
          have := tl.2
          norm_num at this u1 ⊢; linarith) (by
          have : (0:ℝ) ≤ (FP.lit 0.010591 : FP f).val := by exact_mod_cast t2.le
          positivity)
      obtain ⟨c1, c2⟩ := lit_fp hf (q := 0.1496555) (by norm_num) (by norm_num)
      have cl := thr_near hf (q := 0.1496555) (by norm_num) (by norm_num)
      refine FP.le_val c1 a.fin ?_
      have hr : ((FP.lit 0.1496555 : FP f).val : ℝ) ≤ (FP.lit 0.247190 *
          Flt.log10 (FP.lit 5.555556 * FP.lit 0.010591 + FP.lit 0.052272) + FP.lit 0.385537 : FP f).val := by
        refine cl.2.trans ?_
        have q0 : (0:ℝ) < 0.1111108 := by norm_num
        have l1 := logc_seam_log
        have m1 : Real.logb 10 0.1111108 ≤
            Real.logb 10 (5.555556 * (FP.lit 0.010591 : FP f).val + 0.052272) :=
          Real.logb_le_logb_of_le (by norm_num) q0 (by
            have := tl.1
            norm_num at this u1 ⊢; linarith)
        have := (abs_le.1 a.err).1
        generalize Real.logb 10 (5.555556 * ((FP.lit 0.010591 : FP f).val : ℝ) + 0.052272) = L at *
        generalize Real.logb 10 0.1111108 = L1 at l1 m1
        generalize ((FP.lit 0.247190 * Flt.log10 (FP.lit 5.555556 * FP.lit 0.010591 + FP.lit 0.052272)
          + FP.lit 0.385537 : FP f).val : ℝ) = w at *
        norm_num at *
        linarith
      exact_mod_cast hr
    refine codeLe_trans _ _ _ (codeLe_of_le hf up) (codeLe_trans _ _ _ ?_
      (codeLe_of_le hf (FP.le_trans' down hi)))
    exact codeLe_lits hf 38 9808 (M := 38) (N := 9808) rfl rfl (by norm_num) (by norm_num) (by norm_num)
      (by norm_num) (by rw [abs_le]; norm_num) (by rw [abs_le]; norm_num) (by rw [abs_le]; norm_num)
      (by rw [abs_le]; norm_num)

/-! ### decoding keeps codes apart -/

/-- light decoded from values at least `δ` apart is in order -/
def Sep (δ : ℝ) (dec : FP f → FP f) : Prop :=
  ∀ x y : FP f, x.isFinite = true → y.isFinite = true → 0 ≤ x.val → y.val ≤ 1 →
    (x.val = 0 ∨ 1 / 2 ^ 17 ≤ x.val) → (x.val : ℝ) + δ ≤ y.val → Flt.lt (dec x) (dec y) = true

omit [Libm f] in
theorem Sep.weaken {δ δ' : ℝ} {dec : FP f → FP f} [Libm f] (h : Sep δ dec) (hd : δ ≤ δ') : Sep δ' dec :=
  fun x y a b c d e g => h x y a b c d e (by linarith)

theorem Sep.u16 (hf : Std f) {dec : FP f → FP f} (h : Sep 1.5e-5 dec) {m n : UInt16} (hmn : m < n) :
    Flt.lt (dec (unquant16 m)) (dec (unquant16 n)) = true := by
  obtain ⟨a1, a2, a3, a4, a5⟩ := unquant16_spec (f := f) hf m
  obtain ⟨b1, b2, b3, b4, _⟩ := unquant16_spec (f := f) hf n
  refine h _ _ a1 b1 a2 b3 a5 ?_
  have a4r : |((unquant16 m : FP f).val : ℝ) - m.toNat / 65535| ≤ 1 / 2 ^ 24 := by qcast a4
  have b4r : |((unquant16 n : FP f).val : ℝ) - n.toNat / 65535| ≤ 1 / 2 ^ 24 := by qcast b4
  have hn : (m.toNat : ℝ) + 1 ≤ n.toNat := by exact_mod_cast (UInt16.lt_iff_toNat_lt.1 hmn)
  have := (abs_le.1 a4r).2
  have := (abs_le.1 b4r).1
  norm_num at *
  linarith

theorem Sep.u8 (hf : Std f) {dec : FP f → FP f} (h : Sep 0.0039 dec) {m n : UInt8} (hmn : m < n) :
    Flt.lt (dec (unquant8 m)) (dec (unquant8 n)) = true := by
  obtain ⟨a1, a2, a3, a4, a5⟩ := unquant8_spec (f := f) hf m
  obtain ⟨b1, b2, b3, b4, _⟩ := unquant8_spec (f := f) hf n
  refine h _ _ a1 b1 a2 b3 a5 ?_
  have a4r : |((unquant8 m : FP f).val : ℝ) - m.toNat / 255| ≤ 1 / 2 ^ 24 := by qcast a4
  have b4r : |((unquant8 n : FP f).val : ℝ) - n.toNat / 255| ≤ 1 / 2 ^ 24 := by qcast b4
  have hn : (m.toNat : ℝ) + 1 ≤ n.toNat := by exact_mod_cast (UInt8.lt_iff_toNat_lt.1 hmn)
  have := (abs_le.1 a4r).2
  have := (abs_le.1 b4r).1
  norm_num at *
  linarith

theorem lt_of_val {a b : FP f} (ha : a.isFinite = true) (hb : b.isFinite = true)
    (h : (a.val : ℝ) < b.val) : Flt.lt a b = true := by
  rw [FP.flt_lt, FP.lt_finite ha hb]
  exact decide_eq_true (by exact_mod_cast h)

omit [Libm f] in
theorem rel_bounds (hf : Std f) {n : ℝ} {a : FP f} {X : ℝ} (h : RelF n a X) (hn : 0 ≤ n) (hn2 : n ≤ 50) :
    X * (1 - 31e-7) ≤ a.val ∧ (a.val : ℝ) ≤ X * (1 + 31e-7) := by
  obtain ⟨u0, u1, _⟩ := u_facts hf
  obtain ⟨s1, s2⟩ := RelF.small hf (n := n) hn (by linarith)
  have e : n * kap f * (1 + n * kap f) ≤ n * kap f * (1 + 1 / 1000) :=
    mul_le_mul_of_nonneg_left (by linarith [s2.trans (by norm_num : _ ≤ (1:ℝ) / 1000)]) s1
  have e2 : n * kap f * (1 + 1 / 1000) ≤ 31e-7 := by
    have : n * kap f ≤ 50 * kap f := mul_le_mul_of_nonneg_right hn2 (kap_pos f).le
    unfold kap at *
    norm_num at *; linarith
  have h' := h.err.to_abs s1 (le_trans s2 (by norm_num))
  have p := h.err.pos
  have h2 := abs_le.1 (h'.trans (mul_le_mul_of_nonneg_left (e.trans e2) p.le))
  constructor <;> linarith [h2.1, h2.2]

omit [Libm f] in
theorem rel_lt (hf : Std f) {n m : ℝ} {a b : FP f} {X Y : ℝ} (ha : RelF n a X) (hb : RelF m b Y)
    (hn : 0 ≤ n) (hn2 : n ≤ 50) (hm : 0 ≤ m) (hm2 : m ≤ 50) (h : X * (1 + 2e-5) ≤ Y) :
    (a.val : ℝ) < b.val := by
  have h1 := (rel_bounds hf ha hn hn2).2
  have h2 := (rel_bounds hf hb hm hm2).1
  have p := ha.err.pos
  have q := hb.err.pos
  generalize (a.val : ℝ) = v at *
  generalize (b.val : ℝ) = w at *
  norm_num at *
  linarith

theorem rpow_grow {a b δ p : ℝ} (ha : 0 < a) (hp : 1 ≤ p) (hδ : 0 ≤ δ) (h : a * (1 + δ) ≤ b) :
    a ^ p * (1 + p * δ) ≤ b ^ p := by
  calc a ^ p * (1 + p * δ) ≤ a ^ p * (1 + δ) ^ p :=
        mul_le_mul_of_nonneg_left (one_add_mul_self_le_rpow_one_add (by linarith) hp)
          (Real.rpow_nonneg ha.le _)
    _ = (a * (1 + δ)) ^ p := (Real.mul_rpow ha.le (by linarith)).symm
    _ ≤ b ^ p := Real.rpow_le_rpow (by positivity) h (by linarith)

theorem srgb_sep (hf : Std f) (hp : PowAccurate f) : Sep (f := f) 1.5e-5 decode.srgb_t := by
  intro x y hx hy h0 h1 _ hd
  obtain ⟨u0, u1, _⟩ := u_facts hf
  have tl := thr_near hf (q := 0.040449936) (by norm_num) (by norm_num)
  have x0 : (0:ℝ) ≤ x.val := by exact_mod_cast h0
  have y1 : (y.val : ℝ) ≤ 1 := by exact_mod_cast h1
  have x1 : x.val ≤ 1 := by
    have : (x.val : ℝ) ≤ 1 := by norm_num at hd; linarith
    exact_mod_cast this
  have y0 : 0 ≤ y.val := by
    have : (0:ℝ) ≤ y.val := by norm_num at hd; linarith
    exact_mod_cast this
  by_cases cx : x.val ≤ (FP.lit 0.040449936 : FP f).val
  · obtain ⟨_, a, _, b⟩ := srgb_dec_lin hf hx h0 cx
    by_cases cy : y.val ≤ (FP.lit 0.040449936 : FP f).val
    · obtain ⟨_, a', _, b'⟩ := srgb_dec_lin hf hy y0 cy
      refine lt_of_val a a' ?_
      have := (abs_le.1 b).2
      have := (abs_le.1 b').1
      generalize ((decode.srgb_t x).val : ℝ) = v at *
      generalize ((decode.srgb_t y).val : ℝ) = w at *
      norm_num at *
      linarith
    · push Not at cy
      have a' := srgb_dec_pow hf hp hy cy h1
      refine lt_of_val a a'.fin ?_
      have hy0 : (0.04044 : ℝ) ≤ y.val := by
        have : ((FP.lit 0.040449936 : FP f).val : ℝ) ≤ y.val := by exact_mod_cast cy.le
        refine le_trans ?_ (tl.1.trans this)
        norm_num at u1 ⊢; linarith
      have c0 : (0.00313 : ℝ) ≤ ((0.04044 + 0.055) / 1.055 : ℝ) ^ (2.4 : ℝ) := by
        refine le_of_pow_le_pow_left₀ (n := 5) (by norm_num) (by positivity) ?_
        rw [← Real.rpow_natCast (_ ^ (2.4:ℝ)), ← Real.rpow_mul (by norm_num),
          show (2.4 : ℝ) * (5 : ℕ) = (12 : ℕ) by norm_num, Real.rpow_natCast]
        norm_num
      have g := rpow_grow (a := (0.04044 + 0.055) / 1.055) (b := ((y.val : ℝ) + 0.055) / 1.055) (p := 2.4)
        (δ := ((y.val : ℝ) - 0.04044) / 0.09544) (by norm_num) (by norm_num)
        (div_nonneg (by linarith) (by norm_num)) (le_of_eq (by field_simp; ring))
      have r := (rel_bounds hf a' (by norm_num) (by norm_num)).1
      have := (abs_le.1 b).2
      generalize (((y.val : ℝ) + 0.055) / 1.055) ^ (2.4 : ℝ) = Y at *
      generalize ((0.04044 + 0.055) / 1.055 : ℝ) ^ (2.4 : ℝ) = A at *
      have g2 : (0.00313 : ℝ) * (1 + 2.4 * (((y.val : ℝ) - 0.04044) / 0.09544)) ≤ Y := by
        refine le_trans (mul_le_mul_of_nonneg_right c0 ?_) g
        have : (0:ℝ) ≤ ((y.val : ℝ) - 0.04044) / 0.09544 := div_nonneg (by linarith) (by norm_num)
        linarith
      generalize ((decode.srgb_t x).val : ℝ) = v at *
      generalize ((decode.srgb_t y).val : ℝ) = w at *
      norm_num at *
      linarith
  · push Not at cx
    have hxy : x.val < y.val := by
      have : (x.val : ℝ) < y.val := by norm_num at hd; linarith
      exact_mod_cast this
    have a := srgb_dec_pow hf hp hx cx x1
    have a' := srgb_dec_pow hf hp hy (cx.trans hxy) h1
    refine lt_of_val a.fin a'.fin (rel_lt hf a a' (by norm_num) (by norm_num) (by norm_num) (by norm_num) ?_)
    have x1r : (x.val : ℝ) ≤ 1 := by exact_mod_cast x1
    have g := rpow_grow (a := ((x.val : ℝ) + 0.055) / 1.055) (b := ((y.val : ℝ) + 0.055) / 1.055) (p := 2.4)
      (δ := 1.42e-5) (by positivity) (by norm_num) (by norm_num) (by
        rw [div_mul_eq_mul_div]
        refine div_le_div_of_nonneg_right ?_ (by norm_num)
        norm_num at *
        linarith)
    refine le_trans (mul_le_mul_of_nonneg_left ?_ (by positivity)) g
    norm_num

theorem le_pow209 {x s : ℝ} (hx : 0 ≤ x) (h : s ^ 9 ≤ x ^ 20) : s ≤ x ^ (1 / 0.45 : ℝ) := by
  refine le_of_pow_le_pow_left₀ (n := 9) (by norm_num) (by positivity) (h.trans ?_)
  rw [← Real.rpow_natCast (_ ^ (1 / 0.45:ℝ)), ← Real.rpow_mul hx,
    show (1 / 0.45 : ℝ) * (9 : ℕ) = (20 : ℕ) by norm_num, Real.rpow_natCast]

theorem pow209_le {x s : ℝ} (hx : 0 ≤ x) (hs : 0 ≤ s) (h : x ^ 20 ≤ s ^ 9) : x ^ (1 / 0.45 : ℝ) ≤ s := by
  refine le_of_pow_le_pow_left₀ (n := 9) (by norm_num) hs (le_trans ?_ h)
  rw [← Real.rpow_natCast (_ ^ (1 / 0.45:ℝ)), ← Real.rpow_mul hx,
    show (1 / 0.45 : ℝ) * (9 : ℕ) = (20 : ℕ) by norm_num, Real.rpow_natCast]

/-- BT decoding of 8-bit codes -/
theorem bt_sep (hf : Std f) (hp : PowAccurate f) {A B : FP f} (hA : RelF 1 A 1.099) (hB : RelF 13 B 0.099)
    {dec : FP f → FP f} (hdec : ∀ x : FP f, x.isFinite = true →
      (x.val ≤ (FP.lit 0.018 * FP.lit 4.5 : FP f).val ∧ dec x = x / FP.lit 4.5) ∨
      ((FP.lit 0.018 * FP.lit 4.5 : FP f).val ≤ x.val ∧
        dec x = Flt.powf ((x + B) / A) (FP.lit 1.0 / FP.lit 0.45))) : Sep 0.0039 dec := by
  intro x y hx hy h0 h1 _ hd
  obtain ⟨u0, u1, _⟩ := u_facts hf
  have tl := btthr_near hf
  have x0 : (0:ℝ) ≤ x.val := by exact_mod_cast h0
  have y1 : (y.val : ℝ) ≤ 1 := by exact_mod_cast h1
  have x1 : (x.val : ℝ) ≤ 1 := by norm_num at hd; linarith
  have y0 : (0:ℝ) ≤ y.val := by norm_num at hd; linarith
  have lin : ∀ z : FP f, z.isFinite = true → (0:ℝ) ≤ z.val → (z.val : ℝ) ≤ 1 →
      Nr (z / FP.lit 4.5) ((z.val : ℝ) / 4.5) 51 := by
    intro z hz z0 z1
    have b := (Nr.exact hz).div hf (Nr.lit hf (q := 4.5) (by norm_num) (by norm_num)) (b0 := 4.5) (Q := 1)
      (K := 51) (by norm_num) (by norm_num) (by
        rw [abs_of_nonneg (by positivity), div_le_one (by norm_num)]; norm_num; linarith) (by norm_num)
      (by norm_num) (by norm_num) (by norm_num)
    rwa [show ((4.5 : ℚ) : ℝ) = 4.5 by norm_num] at b
  have thr : ∀ z : FP f, (FP.lit 0.018 * FP.lit 4.5 : FP f).val ≤ z.val → (0.0809 : ℝ) ≤ z.val := by
    intro z hz
    have : ((FP.lit 0.018 * FP.lit 4.5 : FP f).val : ℝ) ≤ z.val := by exact_mod_cast hz
    refine le_trans ?_ (tl.1.trans this)
    norm_num at u1 ⊢; linarith
  have thr' : ∀ z : FP f, z.val ≤ (FP.lit 0.018 * FP.lit 4.5 : FP f).val → (z.val : ℝ) ≤ 0.0811 := by
    intro z hz
    have : (z.val : ℝ) ≤ (FP.lit 0.018 * FP.lit 4.5 : FP f).val := by exact_mod_cast hz
    refine (this.trans tl.2).trans ?_
    norm_num at u1 ⊢; linarith
  rcases hdec x hx with ⟨cx, ex⟩ | ⟨cx, ex⟩ <;> rcases hdec y hy with ⟨cy, ey⟩ | ⟨cy, ey⟩ <;> rw [ex, ey]
  · have a := lin x hx x0 x1
    have a' := lin y hy y0 y1
    refine lt_of_val a.fin a'.fin ?_
    have := (abs_le.1 a.err).2
    have := (abs_le.1 a'.err).1
    generalize ((x / FP.lit 4.5 : FP f).val : ℝ) = v at *
    generalize ((y / FP.lit 4.5 : FP f).val : ℝ) = w at *
    norm_num at *
    linarith
  · have a := lin x hx x0 x1
    have a' := bt_dec' hf hp hA hB hy (by have := thr y cy; norm_num at this ⊢; linarith) (y1.trans (by norm_num))
    refine lt_of_val a.fin a'.fin ?_
    have ty := thr y cy
    have tx := thr' x cx
    have c0 : (0.0179 : ℝ) ≤ ((0.0809 + 0.099) / 1.099 : ℝ) ^ (1 / 0.45 : ℝ) :=
      le_pow209 (by norm_num) (by norm_num)
    have g := rpow_grow (a := (0.0809 + 0.099) / 1.099) (b := ((y.val : ℝ) + 0.099) / 1.099) (p := 1 / 0.45)
      (δ := ((y.val : ℝ) - 0.0809) / 0.1799) (by norm_num) (by norm_num)
      (div_nonneg (by linarith) (by norm_num)) (le_of_eq (by field_simp; ring))
    have r := (rel_bounds hf a' (by norm_num) (by norm_num)).1
    have := (abs_le.1 a.err).2
    generalize (((y.val : ℝ) + 0.099) / 1.099) ^ (1 / 0.45 : ℝ) = Y at *
    generalize ((0.0809 + 0.099) / 1.099 : ℝ) ^ (1 / 0.45 : ℝ) = C at *
    have g2 : (0.0179 : ℝ) * (1 + 1 / 0.45 * (((y.val : ℝ) - 0.0809) / 0.1799)) ≤ Y := by
      refine le_trans (mul_le_mul_of_nonneg_right c0 ?_) g
      have : (0:ℝ) ≤ ((y.val : ℝ) - 0.0809) / 0.1799 := div_nonneg (by linarith) (by norm_num)
      positivity
    generalize (((x / FP.lit 4.5 : FP f)).val : ℝ) = w at *
    generalize ((Flt.powf ((y + B) / A) (FP.lit 1.0 / FP.lit 0.45) : FP f).val : ℝ) = w' at *
    norm_num at *
    linarith
  · exfalso
    have ty : (y.val : ℝ) ≤ (FP.lit 0.018 * FP.lit 4.5 : FP f).val := by exact_mod_cast cy
    have tx : ((FP.lit 0.018 * FP.lit 4.5 : FP f).val : ℝ) ≤ x.val := by exact_mod_cast cx
    norm_num at hd
    linarith
  · have a := bt_dec' hf hp hA hB hx (by have := thr x cx; norm_num at this ⊢; linarith) (x1.trans (by norm_num))
    have a' := bt_dec' hf hp hA hB hy (by have := thr y cy; norm_num at this ⊢; linarith) (y1.trans (by norm_num))
    refine lt_of_val a.fin a'.fin (rel_lt hf a a' (by norm_num) (by norm_num) (by norm_num) (by norm_num) ?_)
    have g := rpow_grow (a := ((x.val : ℝ) + 0.099) / 1.099) (b := ((y.val : ℝ) + 0.099) / 1.099)
      (p := 1 / 0.45) (δ := 1.42e-5) (by positivity) (by norm_num) (by norm_num) (by
        rw [div_mul_eq_mul_div]
        refine div_le_div_of_nonneg_right ?_ (by norm_num)
        norm_num at *
        linarith)
    refine le_trans (mul_le_mul_of_nonneg_left ?_ (by positivity)) g
    norm_num

theorem bt709_pieces (hf : Std f) (x : FP f) (hx : x.isFinite = true) :
    (x.val ≤ (FP.lit 0.018 * FP.lit 4.5 : FP f).val ∧ decode.bt709_t x = x / FP.lit 4.5) ∨
      ((FP.lit 0.018 * FP.lit 4.5 : FP f).val ≤ x.val ∧
        decode.bt709_t x = Flt.powf ((x + FP.lit 0.099) / FP.lit 1.099) (FP.lit 1.0 / FP.lit 0.45)) := by
  obtain ⟨s1, _⟩ := bt_threshold hf
  have hle : Flt.le x (FP.lit 0.018 * FP.lit 4.5) =
      decide (x.val ≤ (FP.lit 0.018 * FP.lit 4.5 : FP f).val) := by rw [FP.flt_le, FP.le_finite hx s1]
  unfold decode.bt709_t
  by_cases h : x.val ≤ (FP.lit 0.018 * FP.lit 4.5 : FP f).val
  · left
    refine ⟨h, ?_⟩
    simp only [FP.flt_lit, hle, h, decide_true, if_true]
  · right
    refine ⟨(not_le.1 h).le, ?_⟩
    simp only [FP.flt_lit, hle, h, decide_false, if_false, Bool.false_eq_true]

theorem bt2020_pieces (hf : Std f) (x : FP f) (hx : x.isFinite = true) :
    (x.val ≤ (FP.lit 0.018 * FP.lit 4.5 : FP f).val ∧ decode.bt2020_t x = x / FP.lit 4.5) ∨
      ((FP.lit 0.018 * FP.lit 4.5 : FP f).val ≤ x.val ∧
        decode.bt2020_t x =
          Flt.powf ((x + (FP.lit 1.099 - FP.lit 1.0)) / FP.lit 1.099) (FP.lit 1.0 / FP.lit 0.45)) := by
  obtain ⟨s1, _⟩ := bt_threshold hf
  have hle : Flt.lt x (FP.lit 0.018 * FP.lit 4.5) =
      decide (x.val < (FP.lit 0.018 * FP.lit 4.5 : FP f).val) := by rw [FP.flt_lt, FP.lt_finite hx s1]
  unfold decode.bt2020_t
  by_cases h : x.val < (FP.lit 0.018 * FP.lit 4.5 : FP f).val
  · left
    refine ⟨h.le, ?_⟩
    simp only [FP.flt_lit, hle, h, decide_true, if_true]
  · right
    refine ⟨not_lt.1 h, ?_⟩
    simp only [FP.flt_lit, hle, h, decide_false, if_false, Bool.false_eq_true]

theorem log_ten_gt : (2.3 : ℝ) ≤ Real.log 10 := by
  have h := Real.log_two_gt_d9
  have h' : Real.log ((2:ℝ) ^ 93) ≤ Real.log ((10:ℝ) ^ 28) := Real.log_le_log (by norm_num) (by norm_num)
  rw [Real.log_pow, Real.log_pow] at h'
  norm_num at h' h ⊢
  linarith

theorem ten_grow {s : ℝ} (h : 0 ≤ s) : 1 + 2.3 * s + (2.3 * s) ^ 2 / 2 ≤ (10:ℝ) ^ s := by
  rw [Real.rpow_def_of_pos (by norm_num)]
  have h1 : 2.3 * s ≤ Real.log 10 * s := mul_le_mul_of_nonneg_right log_ten_gt h
  exact (Real.quadratic_le_exp_of_nonneg (by positivity)).trans (Real.exp_le_exp.2 h1)

set_option exponentiation.threshold 20000 in
theorem logc_seam_pow : (10:ℝ) ^ 629 * 0.111045 ^ 659 < 1 := by
  have h : (111045:ℕ) ^ 659 < 10 ^ (6 * 659 - 629) := by decide +kernel
  have h' : (111045:ℝ) ^ 659 < 10 ^ (6 * 659 - 629) := by exact_mod_cast h
  rw [show (0.111045 : ℝ) = 111045 / 10 ^ 6 by norm_num, div_pow, ← pow_mul, mul_div_assoc', div_lt_one
    (by positivity)]
  calc (10:ℝ) ^ 629 * 111045 ^ 659 < 10 ^ 629 * 10 ^ (6 * 659 - 629) :=
        mul_lt_mul_of_pos_left h' (by positivity)
    _ = _ := by rw [← pow_add]

theorem logc_sep (hf : Std f) (hp : PowAccurate f) : Sep (f := f) 1.5e-5 decode.alexa_logc_v3_t := by
  intro x y hx hy h0 h1 _ hd
  obtain ⟨u0, u1, _⟩ := u_facts hf
  have tl := thr_near hf (q := 0.149658) (by norm_num) (by norm_num)
  have s1 := (AbsF.lit hf (q := 0.149658) (by norm_num) (by norm_num)).fin
  have x0 : (0:ℝ) ≤ x.val := by exact_mod_cast h0
  have y1 : (y.val : ℝ) ≤ 1 := by exact_mod_cast h1
  have x1 : (x.val : ℝ) ≤ 1 := by norm_num at hd; linarith
  have y0 : (0:ℝ) ≤ y.val := by norm_num at hd; linarith
  have hxy : x.val ≤ y.val := by
    have : (x.val : ℝ) ≤ y.val := by norm_num at hd; linarith
    exact_mod_cast this
  have hgt : ∀ z : FP f, z.isFinite = true →
      Flt.gt z (FP.lit 0.149658) = decide ((FP.lit 0.149658 : FP f).val < z.val) := by
    intro z hz
    show Flt.lt (FP.lit 0.149658) z = _
    rw [FP.flt_lt, FP.lt_finite s1 hz]
  have low : ∀ z : FP f, z.isFinite = true → (0:ℝ) ≤ z.val → ¬ (FP.lit 0.149658 : FP f).val < z.val →
      AbsF (1 / 10 ^ 8) (decode.alexa_logc_v3_t z) (((z.val : ℝ) - 0.092809) / 5.367655) := by
    intro z hz z0 h
    have hr : (z.val : ℝ) ≤ (FP.lit 0.149658 : FP f).val := by exact_mod_cast (not_lt.1 h)
    have a := logc_dec_lin hf hz z0 (by
        have := hr.trans tl.2
        norm_num at this u1 ⊢; linarith)
    unfold decode.alexa_logc_v3_t
    simp only [FP.flt_lit, hgt z hz, h, decide_false, if_false, Bool.false_eq_true]
    exact a
  have high : ∀ z : FP f, z.isFinite = true → (z.val : ℝ) ≤ 1 → (FP.lit 0.149658 : FP f).val < z.val →
      0.1496 ≤ (z.val : ℝ) ∧ 0 < (10:ℝ) ^ (((z.val : ℝ) - 0.385537) / 0.247190) ∧
      AbsF (63 / 10 ^ 8 * (10:ℝ) ^ (((z.val : ℝ) - 0.385537) / 0.247190)) (decode.alexa_logc_v3_t z)
        (((10:ℝ) ^ (((z.val : ℝ) - 0.385537) / 0.247190) - 0.052272) / 5.555556) := by
    intro z hz z1 h
    have hr : ((FP.lit 0.149658 : FP f).val : ℝ) ≤ z.val := by exact_mod_cast h.le
    have hz0 : (0.1496 : ℝ) ≤ z.val := by
      have := tl.1.trans hr
      norm_num at this u1 ⊢; linarith
    obtain ⟨p1, p2, a⟩ := logc_dec_log hf hp hz (le_trans (by norm_num) hz0) z1
      (P := (10:ℝ) ^ (((z.val : ℝ) - 0.385537) / 0.247190)) rfl
    refine ⟨hz0, by positivity, ?_⟩
    unfold decode.alexa_logc_v3_t
    simp only [FP.flt_lit, hgt z hz, h, decide_true, if_true]
    exact a
  by_cases cx : (FP.lit 0.149658 : FP f).val < x.val
  · obtain ⟨_, p, a⟩ := high x hx x1 cx
    obtain ⟨_, p', a'⟩ := high y hy y1 (lt_of_lt_of_le cx hxy)
    refine lt_of_val a.fin a'.fin ?_
    have e : (10:ℝ) ^ (((y.val : ℝ) - 0.385537) / 0.247190) =
        (10:ℝ) ^ (((x.val : ℝ) - 0.385537) / 0.247190) * (10:ℝ) ^ (((y.val : ℝ) - x.val) / 0.247190) := by
      rw [← Real.rpow_add (by norm_num)]
      congr 1
      ring
    have hs : (6e-5 : ℝ) ≤ ((y.val : ℝ) - x.val) / 0.247190 := by
      rw [le_div_iff₀ (by norm_num)]
      norm_num at hd ⊢; linarith
    have g := ten_grow (s := ((y.val : ℝ) - x.val) / 0.247190) (le_trans (by norm_num) hs)
    have g2 : (1.0001 : ℝ) ≤ (10:ℝ) ^ (((y.val : ℝ) - x.val) / 0.247190) := by
      have := sq_nonneg (2.3 * (((y.val : ℝ) - x.val) / 0.247190))
      generalize ((y.val : ℝ) - x.val) / 0.247190 = s at *
      norm_num at *
      linarith
    have g3 : (10:ℝ) ^ (((x.val : ℝ) - 0.385537) / 0.247190) * 1.0001 ≤
        (10:ℝ) ^ (((y.val : ℝ) - 0.385537) / 0.247190) := by
      rw [e]; exact mul_le_mul_of_nonneg_left g2 p.le
    have b := (abs_le.1 a.err).2
    have b' := (abs_le.1 a'.err).1
    generalize (10:ℝ) ^ (((x.val : ℝ) - 0.385537) / 0.247190) = P at *
    generalize (10:ℝ) ^ (((y.val : ℝ) - 0.385537) / 0.247190) = Q at *
    generalize ((decode.alexa_logc_v3_t x).val : ℝ) = v at *
    generalize ((decode.alexa_logc_v3_t y).val : ℝ) = w at *
    norm_num at b b' g3 p p' ⊢
    linarith
  · have a := low x hx x0 cx
    by_cases cy : (FP.lit 0.149658 : FP f).val < y.val
    · obtain ⟨q, p', a'⟩ := high y hy y1 cy
      refine lt_of_val a.fin a'.fin ?_
      have c0 : (0.111045 : ℝ) ≤ (10:ℝ) ^ ((0.1496 - 0.385537) / 0.247190 : ℝ) := by
        have l := log10_lt (y := 0.111045) (by norm_num) 629 659 (by norm_num) logc_seam_pow
        rw [← Real.logb_le_iff_le_rpow (by norm_num) (by norm_num)]
        refine l.le.trans ?_
        norm_num
      have e : (10:ℝ) ^ (((y.val : ℝ) - 0.385537) / 0.247190) =
          (10:ℝ) ^ ((0.1496 - 0.385537) / 0.247190 : ℝ) * (10:ℝ) ^ (((y.val : ℝ) - 0.1496) / 0.247190) := by
        rw [← Real.rpow_add (by norm_num)]
        congr 1
        ring
      have hs : (0 : ℝ) ≤ ((y.val : ℝ) - 0.1496) / 0.247190 := div_nonneg (by linarith) (by norm_num)
      have g := ten_grow hs
      have g3 : 0.111045 * (1 + 2.3 * (((y.val : ℝ) - 0.1496) / 0.247190)
          + (2.3 * (((y.val : ℝ) - 0.1496) / 0.247190)) ^ 2 / 2) ≤
          (10:ℝ) ^ (((y.val : ℝ) - 0.385537) / 0.247190) := by
        rw [e]
        exact mul_le_mul c0 g (by positivity) (le_trans (by norm_num) c0)
      have b := (abs_le.1 a.err).2
      have b' := (abs_le.1 a'.err).1
      generalize (10:ℝ) ^ (((y.val : ℝ) - 0.385537) / 0.247190) = Q at *
      generalize ((decode.alexa_logc_v3_t x).val : ℝ) = v at *
      generalize ((decode.alexa_logc_v3_t y).val : ℝ) = w at *
      generalize (x.val : ℝ) = X at *
      generalize (y.val : ℝ) = Y at *
      have sq := sq_nonneg (Y - 0.1498)
      ring_nf at g3 sq
      norm_num at b b' g3 p' hd sq ⊢
      linarith
    · have a' := low y hy y0 cy
      refine lt_of_val a.fin a'.fin ?_
      have b := (abs_le.1 a.err).2
      have b' := (abs_le.1 a'.err).1
      generalize ((decode.alexa_logc_v3_t x).val : ℝ) = v at *
      generalize ((decode.alexa_logc_v3_t y).val : ℝ) = w at *
      norm_num at b b' hd ⊢
      linarith

theorem gamma_sep (hf : Std f) (hp : PowAccurate f) {g : ℚ} (hg1 : 2 ≤ g) (hg2 : g ≤ 27 / 10) :
    Sep 1.5e-5 (fun y : FP f => Flt.powf y (FP.ofQ f false g)) := by
  intro x y hx hy h0 h1 hx2 hd
  obtain ⟨u0, u1, _⟩ := u_facts hf
  have g1 : (2:ℝ) ≤ g := by exact_mod_cast hg1
  have x0 : (0:ℝ) ≤ x.val := by exact_mod_cast h0
  have y1 : (y.val : ℝ) ≤ 1 := by exact_mod_cast h1
  have x1 : (x.val : ℝ) ≤ 1 := by norm_num at hd; linarith
  have yq : 1 / 2 ^ 17 ≤ y.val := by
    have : (1:ℝ) / 2 ^ 17 ≤ y.val := by norm_num at hd ⊢; linarith
    qcast this
  obtain ⟨a1, a2⟩ := (gamma_follows hf hp hg1 hg2 hx hx2 (by exact_mod_cast x1)).2
  obtain ⟨b1, b2⟩ := (gamma_follows hf hp hg1 hg2 hy (Or.inr yq) h1).2
  refine lt_of_val a1 b1 ?_
  have yp : (0:ℝ) < y.val := by norm_num at hd; linarith
  have py : 0 < (y.val : ℝ) ^ (g:ℝ) := Real.rpow_pos_of_pos yp _
  have grow : (x.val : ℝ) ^ (g:ℝ) * (1 + 2e-5) ≤ (y.val : ℝ) ^ (g:ℝ) := by
    rcases x0.eq_or_lt with h | h
    · rw [← h, Real.zero_rpow (by linarith), zero_mul]; exact py.le
    · refine le_trans (mul_le_mul_of_nonneg_left ?_ (by positivity)) (rpow_grow (δ := 1.5e-5) h (by linarith)
        (by norm_num) (by norm_num at hd ⊢; linarith))
      norm_num; linarith
  have c := (abs_le.1 a2).2
  have d := (abs_le.1 b2).1
  have px : 0 ≤ (x.val : ℝ) ^ (g:ℝ) := Real.rpow_nonneg x0 _
  generalize (x.val : ℝ) ^ (g:ℝ) = P at *
  generalize (y.val : ℝ) ^ (g:ℝ) = Q at *
  have c2 : 37 * (f.u : ℝ) * P ≤ 37 / 2 ^ 24 * P := mul_le_mul_of_nonneg_right (by norm_num at u1 ⊢; linarith) px
  have d2 : 37 * (f.u : ℝ) * Q ≤ 37 / 2 ^ 24 * Q :=
    mul_le_mul_of_nonneg_right (by norm_num at u1 ⊢; linarith) py.le
  generalize ((Flt.powf x (FP.ofQ f false g) : FP f).val : ℝ) = v at *
  generalize ((Flt.powf y (FP.ofQ f false g) : FP f).val : ℝ) = w at *
  norm_num at *
  linarith

theorem linear_sep : Sep (f := f) 1.5e-5 decode.linear_t := by
  intro x y hx hy _ _ _ hd
  refine lt_of_val hx hy ?_
  show (x.val : ℝ) < y.val
  norm_num at hd
  generalize (x.val : ℝ) = v at *
  generalize (y.val : ℝ) = w at *
  linarith

/-! ### shipped spaces -/

theorem shipped_codes (hf : Std f) (hp : PowAccurate f) (hm : PowMonotone f) (hl : LogAccurate f)
    (hlm : LogMonotone f) : ∀ r ∈ Spec.gapless f ++ Spec.gapped f, ∀ cs, r = .ok cs →
      ∃ enc : FP f → FP f, cs.oetf = RGBf.mapc enc ∧
        ∀ x y : FP f, FP.le (FP.lit 0) x = true → FP.le x y = true → codeLe (enc x) (enc y) := by
  have gm : ∀ g : ℚ, 2 ≤ g → g ≤ 27 / 10 → ∀ x y : FP f, FP.le (FP.lit 0) x = true → FP.le x y = true →
      codeLe (Flt.powf x (FP.ofQ f false 1.0 / FP.ofQ f false g))
        (Flt.powf y (FP.ofQ f false 1.0 / FP.ofQ f false g)) := by
    intro g hg1 hg2 x y h0 h
    have g1 : (2:ℝ) ≤ g := by exact_mod_cast hg1
    have g2 : (g:ℝ) ≤ 27 / 10 := by qcast hg2
    have hgi : (1:ℝ) / g ≤ 1 / 2 := one_div_le_one_div_of_le (by norm_num) g1
    have hgi2 : (10:ℝ) / 27 ≤ 1 / g := by
      rw [le_div_iff₀ (by linarith)]; linarith
    have a0 := RelF.ofQ hf (q := g) (le_trans (by norm_num) hg1) (le_trans hg2 (by norm_num))
    have a2 := (RelF.ofQ_one (f := f)).div hf a0
      (by norm_num) (by norm_num) (by norm_num) (le_trans (by norm_num) hgi2) (le_trans hgi (by norm_num))
    exact codeLe_of_le hf (hm.mono x y _ a2.fin (by exact_mod_cast a2.err.xpos) h0 h)
  have sr : ∀ cs : ColorSpaceRGB (FP f), cs.oetf = encode.srgb → ∃ enc : FP f → FP f,
      cs.oetf = RGBf.mapc enc ∧ ∀ x y : FP f, FP.le (FP.lit 0) x = true → FP.le x y = true →
        codeLe (enc x) (enc y) := fun cs h => ⟨_, h, fun x y _ h => srgb_codes hf hp hm h⟩
  have ln : ∀ cs : ColorSpaceRGB (FP f), cs.oetf = encode.linear → ∃ enc : FP f → FP f,
      cs.oetf = RGBf.mapc enc ∧ ∀ x y : FP f, FP.le (FP.lit 0) x = true → FP.le x y = true →
        codeLe (enc x) (enc y) := fun cs h => ⟨_, h, fun x y _ h => codeLe_of_le hf h⟩
  intro r hr cs e
  simp only [Spec.gapless, Spec.gapped, List.cons_append, List.nil_append, List.mem_cons, List.not_mem_nil,
    or_false] at hr
  rcases hr with rfl | rfl | rfl | rfl | rfl | rfl | rfl | rfl | rfl | rfl
  · cases e; exact sr _ rfl
  · cases e; exact ⟨_, rfl, gm 2.19921875 (by norm_num) (by norm_num)⟩
  · cases e; exact ⟨_, rfl, fun x y _ h => logc_codes hf hl hlm h⟩
  · cases e; exact ln _ rfl
  · exact sr _ (new_curves e).1
  · exact ⟨fun x => Flt.powf x (FP.ofQ f false 1.0 / FP.ofQ f false 2.6), (new_curves e).1,
      gm 2.6 (by norm_num) (by norm_num)⟩
  · exact ⟨fun x => Flt.powf x (FP.ofQ f false 1.0 / FP.ofQ f false 2.6), (new_curves e).1,
      gm 2.6 (by norm_num) (by norm_num)⟩
  · exact ln _ (new_curves e).1
  · exact ⟨_, (new_curves e).1, fun x y _ h => codeLe_of_le hf (bt709_mono hf hp hm h)⟩
  · exact ⟨_, (new_curves e).1, fun x y _ h => codeLe_of_le hf (bt2020_mono hf hp hm h)⟩

theorem gapless_sep (hf : Std f) (hp : PowAccurate f) : ∀ r ∈ Spec.gapless f, ∀ cs, r = .ok cs →
      ∃ dec : FP f → FP f, cs.eotf = RGBf.mapc dec ∧ Sep 1.5e-5 dec := by
  intro r hr cs e
  simp only [Spec.gapless, List.mem_cons, List.not_mem_nil, or_false] at hr
  rcases hr with rfl | rfl | rfl | rfl | rfl | rfl | rfl | rfl
  · cases e; exact ⟨_, rfl, srgb_sep hf hp⟩
  · cases e; exact ⟨_, rfl, gamma_sep hf hp (g := 2.19921875) (by norm_num) (by norm_num)⟩
  · cases e; exact ⟨_, rfl, logc_sep hf hp⟩
  · cases e; exact ⟨_, rfl, linear_sep⟩
  · exact ⟨_, (new_curves e).2, srgb_sep hf hp⟩
  · exact ⟨fun x => Flt.powf x (FP.ofQ f false 2.6), (new_curves e).2,
      gamma_sep hf hp (g := 2.6) (by norm_num) (by norm_num)⟩
  · exact ⟨fun x => Flt.powf x (FP.ofQ f false 2.6), (new_curves e).2,
      gamma_sep hf hp (g := 2.6) (by norm_num) (by norm_num)⟩
  · exact ⟨_, (new_curves e).2, linear_sep⟩

/-- the two codes on either side of the step of the BT decoders -/
theorem bt_step (hf : Std f) (hp : PowAccurate f) {A B : FP f} (hA : RelF 1 A 1.099) (hB : RelF 13 B 0.099)
    {dec : FP f → FP f} (hdec : ∀ x : FP f, x.isFinite = true →
      (x.val ≤ (FP.lit 0.018 * FP.lit 4.5 : FP f).val ∧ dec x = x / FP.lit 4.5) ∨
      ((FP.lit 0.018 * FP.lit 4.5 : FP f).val ≤ x.val ∧
        dec x = Flt.powf ((x + B) / A) (FP.lit 1.0 / FP.lit 0.45))) :
    Flt.lt (dec (unquant16 5309)) (dec (unquant16 5308)) = true := by
  obtain ⟨u0, u1, _⟩ := u_facts hf
  have tl := btthr_near hf
  obtain ⟨a1, a2, a3, a4, _⟩ := unquant16_spec (f := f) hf 5308
  obtain ⟨b1, b2, b3, b4, _⟩ := unquant16_spec (f := f) hf 5309
  have n1 : (5308 : UInt16).toNat = 5308 := rfl
  have n2 : (5309 : UInt16).toNat = 5309 := rfl
  rw [n1] at a4
  rw [n2] at b4
  have a4r : |((unquant16 5308 : FP f).val : ℝ) - (5308 : ℕ) / 65535| ≤ 1 / 2 ^ 24 := by qcast a4
  have b4r : |((unquant16 5309 : FP f).val : ℝ) - (5309 : ℕ) / 65535| ≤ 1 / 2 ^ 24 := by qcast b4
  have b1r : ((unquant16 5309 : FP f).val : ℝ) ≤ 1 := by exact_mod_cast b3
  have a1r : ((unquant16 5308 : FP f).val : ℝ) ≤ 1 := by exact_mod_cast a3
  have a0r : 0 ≤ ((unquant16 5308 : FP f).val : ℝ) := by exact_mod_cast a2
  have lo : ((unquant16 5308 : FP f).val : ℝ) < (FP.lit 0.018 * FP.lit 4.5 : FP f).val := by
    have h1 := (abs_le.1 a4r).2
    refine lt_of_lt_of_le ?_ tl.1
    generalize ((unquant16 5308 : FP f).val : ℝ) = v at *
    norm_num at h1 u1 ⊢
    linarith
  have hi : ((FP.lit 0.018 * FP.lit 4.5 : FP f).val : ℝ) < (unquant16 5309 : FP f).val := by
    have h1 := (abs_le.1 b4r).1
    refine lt_of_le_of_lt tl.2 ?_
    generalize ((unquant16 5309 : FP f).val : ℝ) = v at *
    norm_num at h1 u1 ⊢
    linarith
  have ea : dec (unquant16 5308) = unquant16 5308 / FP.lit 4.5 := by
    rcases hdec _ a1 with ⟨_, h⟩ | ⟨h, _⟩
    · exact h
    · exact absurd lo (not_lt.2 (by exact_mod_cast h))
  have eb : dec (unquant16 5309) =
      Flt.powf ((unquant16 5309 + B) / A) (FP.lit 1.0 / FP.lit 0.45) := by
    rcases hdec _ b1 with ⟨h, _⟩ | ⟨_, h⟩
    · exact absurd hi (not_lt.2 (by exact_mod_cast h))
    · exact h
  rw [ea, eb]
  have p := bt_dec' hf hp hA hB b1 (by
    refine le_trans ?_ (tl.1.trans hi.le)
    norm_num at u1 ⊢; linarith) (b1r.trans (by norm_num))
  have q := (Nr.exact a1).div hf (Nr.lit hf (q := 4.5) (by norm_num) (by norm_num)) (b0 := 4.5) (Q := 1)
    (K := 51) (by norm_num) (by norm_num) (by
      rw [abs_of_nonneg (by positivity), div_le_one (by norm_num)]; norm_num; linarith) (by norm_num)
    (by norm_num) (by norm_num) (by norm_num)
  refine lt_of_val p.fin q.fin ?_
  have hP : (((unquant16 5309 : FP f).val + 0.099) / 1.099 : ℝ) ^ (1 / 0.45 : ℝ) ≤ 0.01796 := by
    have h1 := (abs_le.1 b4r).2
    have h2 := (abs_le.1 b4r).1
    have le : (((unquant16 5309 : FP f).val : ℝ) + 0.099) / 1.099 ≤ 0.1638 := by
      rw [div_le_iff₀ (by norm_num)]
      norm_num at h1 ⊢; linarith
    have ge : (0:ℝ) ≤ (((unquant16 5309 : FP f).val : ℝ) + 0.099) / 1.099 := by
      refine div_nonneg ?_ (by norm_num)
      norm_num at h2 ⊢; linarith
    refine pow209_le ge (by norm_num) ((pow_le_pow_left₀ ge le 20).trans (by norm_num))
  have r := (rel_bounds hf p (by norm_num) (by norm_num)).2
  have s := (abs_le.1 q.err).1
  have t := (abs_le.1 a4r).1
  generalize (((unquant16 5309 : FP f).val + 0.099) / 1.099 : ℝ) ^ (1 / 0.45 : ℝ) = P at *
  generalize ((unquant16 5308 : FP f).val : ℝ) = v at *
  generalize ((Flt.powf ((unquant16 5309 + B) / A) (FP.lit 1.0 / FP.lit 0.45) : FP f).val : ℝ) = w at *
  generalize ((unquant16 5308 / FP.lit 4.5 : FP f).val : ℝ) = w' at *
  norm_num at u1 r s t hP ⊢
  linarith

theorem gapped_sep (hf : Std f) (hp : PowAccurate f) : ∀ r ∈ Spec.gapped f, ∀ cs, r = .ok cs →
      ∃ dec : FP f → FP f, cs.eotf = RGBf.mapc dec ∧ Sep 0.0039 dec ∧
        Flt.lt (dec (unquant16 5309)) (dec (unquant16 5308)) = true := by
  have hA := (RelF.litE hf (q := 1.099) (by norm_num) (by norm_num)).congr (Y := 1.099) (by norm_num)
  have hB := ((RelF.litE hf (q := 0.099) (by norm_num) (by norm_num)).mono (n := 13) (by norm_num)).congr
    (Y := 0.099) (by norm_num)
  intro r hr cs e
  simp only [Spec.gapped, List.mem_cons, List.not_mem_nil, or_false] at hr
  rcases hr with rfl | rfl
  · exact ⟨_, (new_curves e).2, bt_sep hf hp hA hB (bt709_pieces hf), bt_step hf hp hA hB (bt709_pieces hf)⟩
  · exact ⟨_, (new_curves e).2, bt_sep hf hp hA (bt2020_beta hf) (bt2020_pieces hf),
      bt_step hf hp hA (bt2020_beta hf) (bt2020_pieces hf)⟩

theorem separates8 (hf : Std f) {cs : ColorSpaceRGB (FP f)} {dec : FP f → FP f}
    (h : cs.eotf = RGBf.mapc dec) (hs : Sep 0.0039 dec) : Spec.Separates8 cs := by
  intro c d
  unfold ColorSpaceRGB.decode
  rw [h]
  exact ⟨fun h => hs.u8 hf h, fun h => hs.u8 hf h, fun h => hs.u8 hf h⟩

theorem separates16 (hf : Std f) {cs : ColorSpaceRGB (FP f)} {dec : FP f → FP f}
    (h : cs.eotf = RGBf.mapc dec) (hs : Sep 1.5e-5 dec) : Spec.Separates16 cs := by
  intro c d
  unfold ColorSpaceRGB.decode
  rw [h]
  exact ⟨fun h => hs.u16 hf h, fun h => hs.u16 hf h, fun h => hs.u16 hf h⟩

end

/-! ## C102 -/

/-- a space of the list exists -/
theorem shipped_exists {f : Fmt} (hb : f = Fmt.b32 ∨ f = Fmt.b64) [Libm f] {r}
    (h : r ∈ Spec.gapless f ++ Spec.gapped f) : ∃ cs, r = .ok cs := by
  have h' := List.mem_append.1 h
  rcases hb with rfl | rfl
  · exact exists32 h'
  · exact exists64 h'

theorem std_fmt {f : Fmt} (hb : f = Fmt.b32 ∨ f = Fmt.b64) : Std f := by
  rcases hb with rfl | rfl
  · exact std_b32
  · exact std_b64

/-- C102 [F]: in every shipped space, of two colours with no negative component, the one that is at least as
bright in every component is never given a smaller 8-bit or 16-bit code, however bright they are (infinite
components included). -/
theorem C102_codes_in_order {f : Fmt} (hb : f = Fmt.b32 ∨ f = Fmt.b64) [Libm f] (hp : PowAccurate f)
    (hm : PowMonotone f) (hl : LogAccurate f) (hlm : LogMonotone f) :
    ∀ r ∈ Spec.gapless f ++ Spec.gapped f, ∃ cs, r = .ok cs ∧
      ∀ c d : RGBf (FP f), Spec.NonNegative c → Spec.DarkerEq c d →
        Spec.CodesLe (cs.encode c) (cs.encode d) := by
  intro r hr
  obtain ⟨cs, e⟩ := shipped_exists hb hr
  obtain ⟨enc, h1, h2⟩ := shipped_codes (std_fmt hb) hp hm hl hlm r hr cs e
  refine ⟨cs, e, fun c d hc hd => ?_⟩
  unfold ColorSpaceRGB.encode
  rw [h1]
  exact codesLe_mapc (h2 _ _ hc.1 hd.1) (h2 _ _ hc.2.1 hd.2.1) (h2 _ _ hc.2.2 hd.2.2)

/-- C102 [F]: the sRGB and LogC codes are in order for negative components too. -/
theorem C102_negative_codes {f : Fmt} (hf : Std f) [Libm f] (hp : PowAccurate f) (hm : PowMonotone f)
    (hl : LogAccurate f) (hlm : LogMonotone f) (c d : RGBf (FP f)) (h : Spec.DarkerEq c d) :
    Spec.CodesLe (encode.srgb c) (encode.srgb d) ∧
    Spec.CodesLe (encode.alexa_logc_v3 c) (encode.alexa_logc_v3 d) :=
  ⟨codesLe_mapc (srgb_codes hf hp hm h.1) (srgb_codes hf hp hm h.2.1) (srgb_codes hf hp hm h.2.2),
   codesLe_mapc (logc_codes hf hl hlm h.1) (logc_codes hf hl hlm h.2.1) (logc_codes hf hl hlm h.2.2)⟩

/-- C102 [F]: BT.709 and BT.2020 encoding keeps the order of all numbers exactly, before any quantisation. -/
theorem C102_bt_in_order {f : Fmt} (hf : Std f) [Libm f] (hp : PowAccurate f) (hm : PowMonotone f)
    (c d : RGBf (FP f)) (h : Spec.DarkerEq c d) :
    Spec.DarkerEq (encode.bt709 c) (encode.bt709 d) ∧ Spec.DarkerEq (encode.bt2020 c) (encode.bt2020 d) :=
  ⟨⟨bt709_mono hf hp hm h.1, bt709_mono hf hp hm h.2.1, bt709_mono hf hp hm h.2.2⟩,
   ⟨bt2020_mono hf hp hm h.1, bt2020_mono hf hp hm h.2.1, bt2020_mono hf hp hm h.2.2⟩⟩

/-- C102 [F]: in every shipped space, of two different 8-bit codes the greater is decoded to more light. Only
the accuracy of the power is assumed, not that it keeps the order. -/
theorem C102_decode_8bit {f : Fmt} (hb : f = Fmt.b32 ∨ f = Fmt.b64) [Libm f] (hp : PowAccurate f) :
    ∀ r ∈ Spec.gapless f ++ Spec.gapped f, ∃ cs, r = .ok cs ∧ Spec.Separates8 cs := by
  intro r hr
  obtain ⟨cs, e⟩ := shipped_exists hb hr
  refine ⟨cs, e, ?_⟩
  rcases List.mem_append.1 hr with h | h
  · obtain ⟨dec, h1, h2⟩ := gapless_sep (std_fmt hb) hp r h cs e
    exact separates8 (std_fmt hb) h1 (h2.weaken (by norm_num))
  · obtain ⟨dec, h1, h2, _⟩ := gapped_sep (std_fmt hb) hp r h cs e
    exact separates8 (std_fmt hb) h1 h2

/-- C102 [F]: the same for 16-bit codes, in every space but BT.709 and BT.2020. -/
theorem C102_decode_16bit {f : Fmt} (hb : f = Fmt.b32 ∨ f = Fmt.b64) [Libm f] (hp : PowAccurate f) :
    ∀ r ∈ Spec.gapless f, ∃ cs, r = .ok cs ∧ Spec.Separates16 cs := by
  intro r hr
  obtain ⟨cs, e⟩ := shipped_exists hb (List.mem_append_left _ hr)
  obtain ⟨dec, h1, h2⟩ := gapless_sep (std_fmt hb) hp r hr cs e
  exact ⟨cs, e, separates16 (std_fmt hb) h1 h2⟩

/-- C102 [F]: in BT.709 and BT.2020 it fails at the step between the branches: the 16-bit code 5309 is decoded
to less light than 5308. -/
theorem C102_bt_decode_step {f : Fmt} (hb : f = Fmt.b32 ∨ f = Fmt.b64) [Libm f] (hp : PowAccurate f) :
    ∀ r ∈ Spec.gapped f, ∃ cs, r = .ok cs ∧
      Flt.lt (cs.decode (RGBu16.toF ⟨5309, 5309, 5309⟩)).r (cs.decode (RGBu16.toF ⟨5308, 5308, 5308⟩)).r
        = true := by
  intro r hr
  obtain ⟨cs, e⟩ := shipped_exists hb (List.mem_append_right _ hr)
  obtain ⟨dec, h1, _, h3⟩ := gapped_sep (std_fmt hb) hp r hr cs e
  refine ⟨cs, e, ?_⟩
  unfold ColorSpaceRGB.decode
  rw [h1]
  exact h3

/-- there is a library that meets all four assumptions -/
example : ∃ _ : Libm Fmt.b32, PowAccurate Fmt.b32 ∧ PowMonotone Fmt.b32 ∧ LogAccurate Fmt.b32 ∧
    LogMonotone Fmt.b32 :=
  ⟨orderedLibm Fmt.b32, ordered_pow std_b32, ordered_pow_mono, ordered_log std_b32, ordered_log_mono⟩

/-- a dark and a bright colour, the second with an infinite component -/
example [Libm Fmt.b64] : Spec.NonNegative (⟨FP.lit 0, FP.lit 0.25, FP.lit 1⟩ : RGBf (FP Fmt.b64)) ∧
    Spec.DarkerEq (⟨FP.lit 0, FP.lit 0.25, FP.lit 1⟩ : RGBf (FP Fmt.b64)) ⟨FP.lit 0.5, .pinf, FP.lit 1⟩ := by
  refine ⟨⟨?_, ?_, ?_⟩, ?_, ?_, ?_⟩ <;> krefl

end CS

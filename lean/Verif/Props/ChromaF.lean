import Verif.Lemmas.FPNear
import Verif.Props.Cat

/-!
# xyY and XYZ in floating point (C96)
-/

namespace CS
section
variable {f : Fmt}

/-- `a` is finite and within `k` units of rounding, relative to `s`, of `s x` -/
structure Ns (s : ℝ) (a : FP f) (x k : ℝ) : Prop where
  fin : a.isFinite = true
  err : |(a.val : ℝ) - s * x| ≤ k * f.u * s

/-- scales within which nothing overflows or underflows -/
def MidScale (s : ℝ) : Prop := 1 / 2 ^ 40 ≤ s ∧ s ≤ 2 ^ 40

theorem MidScale.pos {s : ℝ} (h : MidScale s) : 0 < s := lt_of_lt_of_le (by norm_num) h.1

theorem MidScale.eta (hf : Std f) {s : ℝ} (h : MidScale s) : (f.eta : ℝ) ≤ 1 / 1000 * (f.u * s) := by
  obtain ⟨u0, _, e1, _⟩ := u_facts hf
  have := mul_le_mul_of_nonneg_left h.1 u0.le
  norm_num at this e1 ⊢
  linarith

namespace Ns
variable {s : ℝ} {a b : FP f} {x y k l A B K : ℝ}

theorem nonneg (h : Ns s a x k) (hs : 0 < s) : 0 ≤ k := by
  have h1 := le_trans (abs_nonneg _) h.err
  have u0 : (0:ℝ) < f.u := by exact_mod_cast f.u_pos
  have : 0 < (f.u : ℝ) * s := by positivity
  rw [mul_assoc] at h1
  exact nonneg_of_mul_nonneg_left h1 this

theorem fits (hf : Std f) {q : ℚ} (h : |(q : ℝ)| ≤ 2 ^ 100) : |q| ≤ 2 ^ f.emax := by
  have h1 : |q| ≤ 2 ^ 100 := by
    have : ((|q| : ℚ) : ℝ) ≤ ((2 ^ 100 : ℚ) : ℝ) := by push_cast; exact h
    exact_mod_cast this
  have := hf.wide.hmax
  norm_num at this h1 ⊢
  linarith

theorem size (hf : Std f) (h : Ns s a x k) (hs : 0 < s) (hA : |x| ≤ A) (hk : k ≤ 2 ^ 10) :
    |(a.val : ℝ)| ≤ (A + 1 / 10000) * s := by
  obtain ⟨u0, u1, _, _⟩ := u_facts hf
  have h1 := abs_add_le ((a.val : ℝ) - s * x) (s * x)
  rw [sub_add_cancel] at h1
  have h2 : k * f.u ≤ 1 / 10000 := by
    calc k * f.u ≤ 2 ^ 10 * (1 / 2 ^ 24) := mul_le_mul hk u1 u0.le (by norm_num)
      _ ≤ _ := by norm_num
  have h3 := mul_le_mul_of_nonneg_right h2 hs.le
  have h4 : |s * x| ≤ s * A := by
    rw [abs_mul, abs_of_pos hs]; exact mul_le_mul_of_nonneg_left hA hs.le
  have h5 := h.err
  linarith

theorem add (hf : Std f) (hs : MidScale s) (ha : Ns s a x k) (hb : Ns s b y l) (hB : |x + y| ≤ B)
    (hB' : B ≤ 2 ^ 10) (hkl : k + l ≤ 2 ^ 10) (hK : k + l + B + 1 / 1000 ≤ K) : Ns s (a + b) (x + y) K := by
  obtain ⟨u0, u1, _, _⟩ := u_facts hf
  have s0 := hs.pos
  have d : |((a.val : ℝ) + b.val) - s * (x + y)| ≤ (k + l) * f.u * s := by
    have := abs_add_le ((a.val : ℝ) - s * x) (b.val - s * y)
    rw [show (a.val : ℝ) + b.val - s * (x + y) = (a.val - s * x) + (b.val - s * y) by ring]
    linarith [ha.err, hb.err]
  have sm : (k + l) * f.u ≤ 1 / 2000 := by
    calc (k + l) * f.u ≤ 2 ^ 10 * (1 / 2 ^ 24) := mul_le_mul hkl u1 u0.le (by norm_num)
      _ ≤ _ := by norm_num
  have sz : |(a.val : ℝ) + b.val| ≤ (B + 1 / 2000) * s := by
    have h1 := abs_add_le ((a.val : ℝ) + b.val - s * (x + y)) (s * (x + y))
    rw [sub_add_cancel] at h1
    have h2 := mul_le_mul_of_nonneg_right sm s0.le
    have h3 : |s * (x + y)| ≤ s * B := by
      rw [abs_mul, abs_of_pos s0]; exact mul_le_mul_of_nonneg_left hB s0.le
    linarith
  have top : (B + 1 / 2000) * s ≤ 2 ^ 100 := by
    calc _ ≤ (2 ^ 10 + 1 / 2000) * 2 ^ 40 := mul_le_mul (by linarith) hs.2 s0.le (by norm_num)
      _ ≤ _ := by norm_num
  obtain ⟨h1, h2⟩ := FP.add_err ha.fin hb.fin (fits hf (by push_cast; exact le_trans sz top))
  refine ⟨h1, ?_⟩
  have h3 : |((a + b).val : ℝ) - ((a.val : ℝ) + b.val)| ≤ |(a.val : ℝ) + b.val| * f.u := by qcast h2
  have h4 := mul_le_mul_of_nonneg_right sz u0.le
  have h5 := mul_le_mul_of_nonneg_right hK (by positivity : 0 ≤ (f.u : ℝ) * s)
  have h6 := abs_sub_le ((a + b).val : ℝ) ((a.val : ℝ) + b.val) (s * (x + y))
  have h7 : 0 < (f.u : ℝ) * s := by positivity
  linarith

/-- multiplying by an exact positive number -/
theorem scale (hf : Std f) (hs : 0 < s) (ha : Ns s a x k) (hb : b.isFinite = true) (b0 : (0:ℝ) < b.val)
    (hsb : MidScale (s * b.val)) (hA : |x| ≤ A) (hA' : A ≤ 2 ^ 10) (hk : k ≤ 2 ^ 10)
    (hK : k + A + 1 / 500 ≤ K) : Ns (s * b.val) (a * b) x K := by
  obtain ⟨u0, u1, _, _⟩ := u_facts hf
  have s0 := hsb.pos
  have eta := hsb.eta hf
  have sz' := ha.size hf hs hA hk
  have sz : |(a.val : ℝ) * b.val| ≤ (A + 1 / 10000) * (s * b.val) := by
    rw [abs_mul, abs_of_pos b0, ← mul_assoc]
    exact mul_le_mul_of_nonneg_right sz' b0.le
  have A0 : 0 ≤ A := le_trans (abs_nonneg _) hA
  have top : (A + 1 / 10000) * (s * b.val) ≤ 2 ^ 100 := by
    calc _ ≤ (2 ^ 10 + 1 / 10000) * 2 ^ 40 := mul_le_mul (by linarith) hsb.2 s0.le (by norm_num)
      _ ≤ _ := by norm_num
  obtain ⟨h1, h2⟩ := FP.mul_err ha.fin hb (fits hf (by push_cast; exact le_trans sz top))
  refine ⟨h1, ?_⟩
  have h3 : |((a * b).val : ℝ) - ((a.val : ℝ) * b.val)| ≤ |(a.val : ℝ) * b.val| * f.u + f.eta := by qcast h2
  have d : |(a.val : ℝ) * b.val - s * b.val * x| ≤ k * f.u * (s * b.val) := by
    rw [show (a.val : ℝ) * b.val - s * b.val * x = (a.val - s * x) * b.val by ring, abs_mul,
      abs_of_pos b0, ← mul_assoc]
    exact mul_le_mul_of_nonneg_right ha.err b0.le
  have h4 := mul_le_mul_of_nonneg_right sz u0.le
  have h5 := mul_le_mul_of_nonneg_right hK (by positivity : 0 ≤ (f.u : ℝ) * (s * b.val))
  have h6 := abs_sub_le ((a * b).val : ℝ) ((a.val : ℝ) * b.val) (s * b.val * x)
  have h7 : 0 < (f.u : ℝ) * (s * b.val) := by positivity
  generalize s * (b.val : ℝ) = t at *
  linarith

/-- dividing by an exact positive number -/
theorem unscale [Libm f] (hf : Std f) (hs : 0 < s) (ha : Ns s a x k) (hb : b.isFinite = true)
    (b0 : (0:ℝ) < b.val) (hsb : MidScale (s / b.val)) (hA : |x| ≤ A) (hA' : A ≤ 2 ^ 10) (hk : k ≤ 2 ^ 10)
    (hK : k + A + 1 / 500 ≤ K) : Ns (s / b.val) (a / b) x K := by
  obtain ⟨u0, u1, _, _⟩ := u_facts hf
  have s0 := hsb.pos
  have eta := hsb.eta hf
  have sz' := ha.size hf hs hA hk
  have sz : |(a.val : ℝ) / b.val| ≤ (A + 1 / 10000) * (s / b.val) := by
    rw [abs_div, abs_of_pos b0, ← mul_div_assoc]
    exact div_le_div_of_nonneg_right sz' b0.le
  have A0 : 0 ≤ A := le_trans (abs_nonneg _) hA
  have top : (A + 1 / 10000) * (s / b.val) ≤ 2 ^ 100 := by
    calc _ ≤ (2 ^ 10 + 1 / 10000) * 2 ^ 40 := mul_le_mul (by linarith) hsb.2 s0.le (by norm_num)
      _ ≤ _ := by norm_num
  have bne : b.val ≠ 0 := by
    intro h; rw [h] at b0; norm_num at b0
  obtain ⟨h1, h2⟩ := FP.div_err ha.fin hb bne (fits hf (by push_cast; exact le_trans sz top))
  refine ⟨h1, ?_⟩
  have h3 : |((a / b).val : ℝ) - ((a.val : ℝ) / b.val)| ≤ |(a.val : ℝ) / b.val| * f.u + f.eta := by qcast h2
  have d : |(a.val : ℝ) / b.val - s / b.val * x| ≤ k * f.u * (s / b.val) := by
    rw [show (a.val : ℝ) / b.val - s / b.val * x = (a.val - s * x) / b.val by ring, abs_div,
      abs_of_pos b0, ← mul_div_assoc]
    exact div_le_div_of_nonneg_right ha.err b0.le
  have h4 := mul_le_mul_of_nonneg_right sz u0.le
  have h5 := mul_le_mul_of_nonneg_right hK (by positivity : 0 ≤ (f.u : ℝ) * (s / b.val))
  have h6 := abs_sub_le ((a / b).val : ℝ) ((a.val : ℝ) / b.val) (s / b.val * x)
  have h7 : 0 < (f.u : ℝ) * (s / b.val) := by positivity
  generalize s / (b.val : ℝ) = t at *
  linarith

/-- a share of the whole -/
theorem share [Libm f] (hf : Std f) (hs : 0 < s) (ha : Ns s a x k) (hb : Ns s b 1 l) (hA : |x| ≤ A)
    (hA' : A ≤ 2 ^ 4) (hk : k ≤ 2 ^ 7) (hl : l ≤ 2 ^ 7) (hK : 1.001 * (k + A * l) + A + 1 / 1000 ≤ K) :
    Nr (a / b) x K := by
  obtain ⟨u0, u1, e1, _⟩ := u_facts hf
  have k0 := ha.nonneg hs
  have l0 := hb.nonneg hs
  have A0 : 0 ≤ A := le_trans (abs_nonneg _) hA
  have lu : l * f.u ≤ 1 / 100000 := by
    calc l * f.u ≤ 2 ^ 7 * (1 / 2 ^ 24) := mul_le_mul hl u1 u0.le (by norm_num)
      _ ≤ _ := by norm_num
  have bv : (1 - 1 / 100000) * s ≤ (b.val : ℝ) := by
    have h1 := (_root_.abs_le.1 hb.err).1
    have h2 := mul_le_mul_of_nonneg_right lu hs.le
    linarith
  have b0 : (0:ℝ) < b.val := lt_of_lt_of_le (by positivity : (0:ℝ) < s / 2) (by linarith)
  have bne : b.val ≠ 0 := by
    intro h; rw [h] at b0; norm_num at b0
  have d : |(a.val : ℝ) / b.val - x| ≤ 1.0005 * (k + A * l) * f.u := by
    have e : (a.val : ℝ) / b.val - x = ((a.val - s * x) - x * (b.val - s * 1)) / b.val := by
      field_simp; ring
    rw [e, abs_div, abs_of_pos b0, div_le_iff₀ b0]
    have t1 : |x * ((b.val : ℝ) - s * 1)| ≤ A * (l * f.u * s) := by
      rw [abs_mul]; exact mul_le_mul hA hb.err (abs_nonneg _) A0
    have t2 := abs_sub_le ((a.val : ℝ) - s * x) 0 (x * ((b.val : ℝ) - s * 1))
    simp only [sub_zero, zero_sub, abs_neg] at t2
    have g0 : 0 ≤ (k + A * l) * f.u := by positivity
    have t4 : 1.0005 * (k + A * l) * f.u * ((1 - 1 / 100000) * s) ≤ 1.0005 * (k + A * l) * f.u * b.val :=
      mul_le_mul_of_nonneg_left bv (by positivity)
    have t5 : 0 ≤ (k + A * l) * f.u * s := by positivity
    have t6 : |(a.val : ℝ) - s * x - x * ((b.val : ℝ) - s * 1)| ≤ (k + A * l) * f.u * s := by
      linarith [ha.err]
    refine le_trans t6 (le_trans ?_ t4)
    have : 1.0005 * (k + A * l) * f.u * ((1 - 1 / 100000) * s)
      = (1.0005 * (1 - 1 / 100000)) * ((k + A * l) * f.u * s) := by ring
    rw [this]
    norm_num
    linarith
  have kl : k + A * l ≤ 2 ^ 12 := by
    have : A * l ≤ 2 ^ 4 * 2 ^ 7 := mul_le_mul hA' hl l0 (by norm_num)
    norm_num at this hk ⊢; linarith
  have sm : 1.0005 * (k + A * l) * f.u ≤ 1 / 2000 := by
    calc _ ≤ (1.0005 * 2 ^ 12) * (1 / 2 ^ 24) := mul_le_mul (by linarith) u1 u0.le (by norm_num)
      _ ≤ _ := by norm_num
  have sz : |(a.val : ℝ) / b.val| ≤ A + 1 / 2000 := by
    have := abs_add_le ((a.val : ℝ) / b.val - x) x
    rw [sub_add_cancel] at this
    linarith
  obtain ⟨h1, h2⟩ := FP.div_err ha.fin hb.fin bne (fits hf (by
    push_cast; refine le_trans sz ?_; norm_num at hA' ⊢; linarith))
  refine ⟨h1, ?_⟩
  have h3 : |((a / b).val : ℝ) - ((a.val : ℝ) / b.val)| ≤ |(a.val : ℝ) / b.val| * f.u + f.eta := by qcast h2
  have h4 := mul_le_mul_of_nonneg_right sz u0.le
  have h5 := mul_le_mul_of_nonneg_right hK u0.le
  have h6 := abs_sub_le ((a / b).val : ℝ) ((a.val : ℝ) / b.val) x
  have h8 : (f.eta : ℝ) ≤ 1 / 5000 * f.u := by norm_num at e1 ⊢; linarith
  have h9 : 0 ≤ (k + A * l) * f.u := by positivity
  linarith

theorem congr (h : Ns s a x k) (e : x = y) : Ns s a y k := e ▸ h

end Ns

variable [Libm f]

/-- dividing by the sum of three components -/
theorem shares (hf : Std f) {a b c : FP f} {s x y z k l m : ℝ} (hs : MidScale s) (ha : Ns s a x k)
    (hb : Ns s b y l) (hc : Ns s c z m) (x0 : 0 ≤ x) (y0 : 0 ≤ y) (z0 : 0 ≤ z) (e : x + y + z = 1)
    (hk : k ≤ 10) (hl : l ≤ 10) (hm : m ≤ 10) :
    Ns s (a + b + c) 1 (k + l + m + 2.002) ∧
    Nr (a / (a + b + c)) x (1.001 * (k + (k + l + m + 2.002)) + 1.001) ∧
    Nr (b / (a + b + c)) y (1.001 * (l + (k + l + m + 2.002)) + 1.001) := by
  have s1 := ha.add hf hs hb (B := 1) (K := k + l + 1.001)
    (by rw [_root_.abs_le]; constructor <;> linarith) (by norm_num) (by norm_num; linarith)
    (by norm_num; linarith)
  have s2 := (s1.add hf hs hc (B := 1) (K := k + l + m + 2.002)
    (by rw [_root_.abs_le]; constructor <;> linarith) (by norm_num) (by norm_num; linarith)
    (by norm_num; linarith)).congr e
  refine ⟨s2, ha.share hf hs.pos s2 (A := 1) ?_ (by norm_num) (by norm_num; linarith)
    (by norm_num; linarith) (by norm_num; linarith),
    hb.share hf hs.pos s2 (A := 1) ?_ (by norm_num) (by norm_num; linarith)
    (by norm_num; linarith) (by norm_num; linarith)⟩
  · rw [_root_.abs_le]; constructor <;> linarith
  · rw [_root_.abs_le]; constructor <;> linarith

theorem hundred (hf : Std f) : (Flt.lit 100 : FP f).isFinite = true ∧ ((Flt.lit 100 : FP f).val : ℝ) = 100 := by
  obtain ⟨h1, h2⟩ := lit_natural (f := f) hf 100 (by norm_num) (by norm_num) 100 (by norm_num)
  refine ⟨h1, ?_⟩
  show ((FP.lit 100 : FP f).val : ℝ) = 100
  rw [h2]; norm_num

/-- C96 [F]: XYZ to xyY, for every colour with non-negative finite components and a sum between
`2^-20` and `2^20`: chromaticities within 7.1 units of rounding, luminance within 1.1 units of its
size plus the sum's. -/
theorem C96_from_xyz (hf : f = Fmt.b32 ∨ f = Fmt.b64) (c : XYZ (FP f)) (hx : c.x.isFinite = true)
    (hy : c.y.isFinite = true) (hz : c.z.isFinite = true) (x0 : 0 ≤ c.x.val) (y0 : 0 ≤ c.y.val)
    (z0 : 0 ≤ c.z.val) (h1 : 1 / 2 ^ 20 ≤ c.x.val + c.y.val + c.z.val)
    (h2 : c.x.val + c.y.val + c.z.val ≤ 2 ^ 20) :
    let r := XYY.fromXyz c
    let S : ℝ := c.x.val + c.y.val + c.z.val
    (r.x.isFinite = true ∧ |(r.x.val : ℝ) - c.x.val / S| ≤ (7.1:ℝ) * f.u) ∧
    (r.y.isFinite = true ∧ |(r.y.val : ℝ) - c.y.val / S| ≤ (7.1:ℝ) * f.u) ∧
    (r.Y.isFinite = true ∧ |(r.Y.val : ℝ) - c.y.val / 100| ≤ (1.01:ℝ) * f.u * (S / 100)) := by
  have hs : Std f := by
    rcases hf with rfl | rfl
    · exact std_b32
    · exact std_b64
  intro r S
  obtain ⟨b1, b2⟩ := hundred (f := f) hs
  have S1 : 1 / 2 ^ 20 ≤ S := by
    have : ((1 / 2 ^ 20 : ℚ) : ℝ) ≤ ((c.x.val + c.y.val + c.z.val : ℚ) : ℝ) := Rat.cast_le.2 h1
    push_cast at this
    norm_num at this ⊢; exact this
  have S2 : S ≤ 2 ^ 20 := by
    have : ((c.x.val + c.y.val + c.z.val : ℚ) : ℝ) ≤ ((2 ^ 20 : ℚ) : ℝ) := Rat.cast_le.2 h2
    push_cast at this
    norm_num at this ⊢; exact this
  have S0 : 0 < S := lt_of_lt_of_le (by norm_num) S1
  have sc : MidScale (S / (Flt.lit 100 : FP f).val) := by
    rw [b2]
    constructor
    · rw [le_div_iff₀ (by norm_num)]; norm_num at S1 ⊢; linarith
    · rw [div_le_iff₀ (by norm_num)]; norm_num at S2 ⊢; linarith
  have hx0 : (0:ℝ) ≤ c.x.val := by exact_mod_cast x0
  have hy0 : (0:ℝ) ≤ c.y.val := by exact_mod_cast y0
  have hz0 : (0:ℝ) ≤ c.z.val := by exact_mod_cast z0
  have key : ∀ a : FP f, a.isFinite = true → (0:ℝ) ≤ a.val → (a.val : ℝ) ≤ S →
      Ns (S / (Flt.lit 100 : FP f).val) (a / (Flt.lit 100 : FP f)) (a.val / S) 1.002 := by
    intro a ha a0 a1
    have n : Ns S a (a.val / S) 0 := ⟨ha, by rw [mul_div_cancel₀ _ S0.ne']; simp⟩
    refine n.unscale hs S0 b1 (by rw [b2]; norm_num) sc (A := 1) ?_ (by norm_num) (by norm_num) (by norm_num)
    rw [abs_of_nonneg (by positivity), div_le_one S0]; exact a1
  have nx := key _ hx hx0 (by show (c.x.val : ℝ) ≤ c.x.val + c.y.val + c.z.val; linarith)
  have ny := key _ hy hy0 (by show (c.y.val : ℝ) ≤ c.x.val + c.y.val + c.z.val; linarith)
  have nz := key _ hz hz0 (by show (c.z.val : ℝ) ≤ c.x.val + c.y.val + c.z.val; linarith)
  obtain ⟨_, p1, p2⟩ := shares hs sc nx ny nz (by positivity) (by positivity) (by positivity)
    (by rw [← add_div, ← add_div]; exact div_self S0.ne') (by norm_num) (by norm_num) (by norm_num)
  have q1 := p1.mono (l := 7.1) (by norm_num)
  have q2 := p2.mono (l := 7.1) (by norm_num)
  refine ⟨⟨q1.fin, q1.err⟩, ⟨q2.fin, q2.err⟩, ny.fin, ?_⟩
  have h := ny.err
  have u0 : (0:ℝ) < f.u := by exact_mod_cast f.u_pos
  have e : S / ((Flt.lit 100 : FP f).val : ℝ) * (c.y.val / S) = c.y.val / 100 := by
    rw [b2]; field_simp
  rw [e, b2] at h
  refine le_trans h ?_
  have : 0 < f.u * (S / 100) := by positivity
  norm_num; nlinarith

/-- A chromaticity with a luminance for which the conversion to XYZ is well scaled. -/
def Spec.Chromatic (c : XYY (FP f)) : Prop :=
  c.x.isFinite = true ∧ c.y.isFinite = true ∧ c.Y.isFinite = true ∧ 0 ≤ c.x.val ∧
    1 / 2 ^ 10 ≤ c.y.val ∧ c.x.val + c.y.val ≤ 1 ∧ 1 / 2 ^ 20 ≤ c.Y.val ∧ c.Y.val ≤ 2 ^ 20

/-- all components of the conversion -/
theorem to_xyz_ns (hs : Std f) {c : XYY (FP f)} (h : Spec.Chromatic c) :
    MidScale ((c.Y.val : ℝ) / c.y.val * 100) ∧
    Ns ((c.Y.val : ℝ) / c.y.val * 100) (XYZ.fromChromaticity c).x (c.x.val : ℝ) 3.006 ∧
    Ns ((c.Y.val : ℝ) / c.y.val * 100) (XYZ.fromChromaticity c).y (c.y.val : ℝ) 1.002 ∧
    Ns ((c.Y.val : ℝ) / c.y.val * 100) (XYZ.fromChromaticity c).z (1 - c.x.val - c.y.val : ℝ) 5.008 := by
  obtain ⟨fx, fy, fY, q1, q2, q3, q4, q5⟩ := h
  obtain ⟨b1, b2⟩ := hundred (f := f) hs
  have x0 : (0:ℝ) ≤ c.x.val := by exact_mod_cast q1
  have y1 : (1:ℝ) / 2 ^ 10 ≤ c.y.val := by qcast q2
  have xy : (c.x.val : ℝ) + c.y.val ≤ 1 := by exact_mod_cast q3
  have Y1 : (1:ℝ) / 2 ^ 20 ≤ c.Y.val := by qcast q4
  have Y2 : (c.Y.val : ℝ) ≤ 2 ^ 20 := by exact_mod_cast q5
  norm_num at y1 Y1 Y2
  have y0 : (0:ℝ) < c.y.val := by linarith
  have Y0 : (0:ℝ) < c.Y.val := by linarith
  have r1 : (1:ℝ) / 2 ^ 20 ≤ c.Y.val / c.y.val := by
    rw [le_div_iff₀ y0]; norm_num; linarith
  have r2 : (c.Y.val : ℝ) / c.y.val ≤ 2 ^ 30 := by
    rw [div_le_iff₀ y0]; norm_num; linarith
  norm_num at r1 r2
  have m1 : MidScale (1 * (c.Y.val : ℝ)) := by constructor <;> norm_num <;> linarith
  have m2 : MidScale (1 * (c.Y.val : ℝ) / c.y.val) := by
    rw [one_mul]; constructor <;> norm_num <;> linarith
  have m3 : MidScale (1 * (c.Y.val : ℝ) / c.y.val * (Flt.lit 100 : FP f).val) := by
    rw [one_mul, b2]; constructor <;> norm_num <;> linarith
  have m4 : MidScale ((c.Y.val : ℝ) / c.y.val * (Flt.lit 100 : FP f).val) := by
    rw [one_mul] at m3; exact m3
  have b0 : (0:ℝ) < (Flt.lit 100 : FP f).val := by rw [b2]; norm_num
  -- a share `p` of the total, scaled
  have key : ∀ (a : FP f) (p k : ℝ), Nr a p k → |p| ≤ 1 → k ≤ 3 →
      Ns ((c.Y.val : ℝ) / c.y.val * 100) (a * c.Y / c.y * (Flt.lit 100 : FP f)) p (k + 3.006) := by
    intro a p k ha hp hk
    have n0 : Ns 1 a p k := ⟨ha.fin, by rw [one_mul, mul_one]; exact ha.err⟩
    have n1 := n0.scale hs one_pos fY Y0 m1 hp (by norm_num) (by norm_num; linarith)
      (K := k + 1.002) (by norm_num; linarith)
    have n2 := n1.unscale hs m1.pos fy y0 m2 hp (by norm_num) (by norm_num; linarith)
      (K := k + 2.004) (by norm_num; linarith)
    have n3 := n2.scale hs m2.pos b1 b0 m3 hp (by norm_num) (by norm_num; linarith)
      (K := k + 3.006) (by norm_num; linarith)
    rw [one_mul, b2] at n3
    exact n3
  obtain ⟨o1, o2⟩ : (Flt.one : FP f).isFinite = true ∧ ((Flt.one : FP f).val : ℝ) = 1 := by
    obtain ⟨h1, h2⟩ := lit_natural (f := f) hs 1 (by norm_num) (by norm_num) 1 (by norm_num)
    refine ⟨h1, ?_⟩
    show ((FP.lit 1 : FP f).val : ℝ) = 1
    rw [h2]; norm_num
  have w1 := (((Nr.exact o1).congr o2).sub hs (Nr.exact fx) (B := 1) (K := 1.001)
    (by rw [_root_.abs_le]; constructor <;> linarith) (by norm_num) (by norm_num) (by norm_num)).sub hs
    (Nr.exact fy) (B := 1) (K := 2.002)
    (by rw [_root_.abs_le]; constructor <;> linarith) (by norm_num) (by norm_num) (by norm_num)
  have kx := key _ _ _ (Nr.exact fx) (by rw [abs_of_nonneg x0]; linarith) (by norm_num)
  have kz := key _ _ _ w1 (by rw [_root_.abs_le]; constructor <;> linarith) (by norm_num)
  have ky : Ns ((c.Y.val : ℝ) / c.y.val) c.Y (c.y.val : ℝ) 0 :=
    ⟨fY, by rw [div_mul_cancel₀ _ y0.ne']; simp⟩
  have ky' := ky.scale hs (by positivity) b1 b0 m4 (A := 1) (by rw [abs_of_pos y0]; linarith)
    (by norm_num) (by norm_num) (K := 1.002) (by norm_num)
  rw [b2] at ky' m4
  refine ⟨m4, ?_, ky', ?_⟩
  · rw [zero_add] at kx; exact kx
  · norm_num at kz ⊢; exact kz

/-- C96 [F]: xyY to XYZ: every component is within a few units of rounding, relative to the sum
`100 Y / y` of the three. -/
theorem C96_to_xyz (hf : f = Fmt.b32 ∨ f = Fmt.b64) (c : XYY (FP f)) (h : Spec.Chromatic c) :
    let r := XYZ.fromChromaticity c
    let S : ℝ := 100 * c.Y.val / c.y.val
    (r.x.isFinite = true ∧ |(r.x.val : ℝ) - c.x.val * S| ≤ (3.01:ℝ) * f.u * S) ∧
    (r.y.isFinite = true ∧ |(r.y.val : ℝ) - 100 * c.Y.val| ≤ (1.01:ℝ) * f.u * S) ∧
    (r.z.isFinite = true ∧ |(r.z.val : ℝ) - (1 - c.x.val - c.y.val) * S| ≤ (5.01:ℝ) * f.u * S) := by
  have hs : Std f := by
    rcases hf with rfl | rfl
    · exact std_b32
    · exact std_b64
  intro r S
  obtain ⟨m, n1, n2, n3⟩ := to_xyz_ns hs h
  have eS : (c.Y.val : ℝ) / c.y.val * 100 = S := by show _ = 100 * (c.Y.val : ℝ) / c.y.val; ring
  rw [eS] at m n1 n2 n3
  have S0 := m.pos
  have u0 : (0:ℝ) < f.u := by exact_mod_cast f.u_pos
  have p : 0 < (f.u : ℝ) * S := by positivity
  have y0 : (c.y.val : ℝ) ≠ 0 := by
    have : (0:ℚ) < c.y.val := lt_of_lt_of_le (by norm_num) h.2.2.2.2.1
    exact_mod_cast this.ne'
  have eY : S * c.y.val = 100 * c.Y.val := by
    show 100 * (c.Y.val : ℝ) / c.y.val * c.y.val = _
    field_simp
  have e1 := n1.err
  have e2 := n2.err
  have e3 := n3.err
  rw [eY] at e2
  rw [mul_comm S] at e1 e3
  refine ⟨⟨n1.fin, le_trans e1 ?_⟩, ⟨n2.fin, le_trans e2 ?_⟩, ⟨n3.fin, le_trans e3 ?_⟩⟩ <;>
    norm_num <;> nlinarith

/-- C96 [F]: xyY to XYZ and back: chromaticities return within 20 units of rounding. -/
theorem C96_round_trip (hf : f = Fmt.b32 ∨ f = Fmt.b64) (c : XYY (FP f)) (h : Spec.Chromatic c) :
    let r := XYY.fromXyz (XYZ.fromChromaticity c)
    (r.x.isFinite = true ∧ |(r.x.val : ℝ) - c.x.val| ≤ (20:ℝ) * f.u) ∧
    (r.y.isFinite = true ∧ |(r.y.val : ℝ) - c.y.val| ≤ (18:ℝ) * f.u) ∧
    (r.Y.isFinite = true ∧ |(r.Y.val : ℝ) - c.Y.val| ≤ (2.01:ℝ) * f.u * (c.Y.val / c.y.val)) := by
  have hs : Std f := by
    rcases hf with rfl | rfl
    · exact std_b32
    · exact std_b64
  intro r
  obtain ⟨m, n1, n2, n3⟩ := to_xyz_ns hs h
  obtain ⟨b1, b2⟩ := hundred (f := f) hs
  have b0 : (0:ℝ) < (Flt.lit 100 : FP f).val := by rw [b2]; norm_num
  obtain ⟨fx, fy, fY, q1, q2, q3, q4, q5⟩ := h
  have x0 : (0:ℝ) ≤ c.x.val := by exact_mod_cast q1
  have y1 : (1:ℝ) / 2 ^ 10 ≤ c.y.val := by qcast q2
  have xy : (c.x.val : ℝ) + c.y.val ≤ 1 := by exact_mod_cast q3
  have Y1 : (1:ℝ) / 2 ^ 20 ≤ c.Y.val := by qcast q4
  have Y2 : (c.Y.val : ℝ) ≤ 2 ^ 20 := by exact_mod_cast q5
  norm_num at y1 Y1 Y2
  have y0 : (0:ℝ) < c.y.val := by linarith
  have r1 : (1:ℝ) / 2 ^ 20 ≤ c.Y.val / c.y.val := by
    rw [le_div_iff₀ y0]; norm_num; linarith
  have r2 : (c.Y.val : ℝ) / c.y.val ≤ 2 ^ 30 := by
    rw [div_le_iff₀ y0]; norm_num; linarith
  norm_num at r1 r2
  have es : (c.Y.val : ℝ) / c.y.val * 100 / ((Flt.lit 100 : FP f).val : ℝ) = c.Y.val / c.y.val := by
    rw [b2]; field_simp
  have m' : MidScale ((c.Y.val : ℝ) / c.y.val * 100 / ((Flt.lit 100 : FP f).val : ℝ)) := by
    rw [es]; constructor <;> norm_num <;> linarith
  have k1 := n1.unscale hs m.pos b1 b0 m' (A := 1) (by rw [_root_.abs_le]; constructor <;> linarith)
    (by norm_num) (by norm_num) (K := 4.008) (by norm_num)
  have k2 := n2.unscale hs m.pos b1 b0 m' (A := 1) (by rw [_root_.abs_le]; constructor <;> linarith)
    (by norm_num) (by norm_num) (K := 2.004) (by norm_num)
  have k3 := n3.unscale hs m.pos b1 b0 m' (A := 1) (by rw [_root_.abs_le]; constructor <;> linarith)
    (by norm_num) (by norm_num) (K := 6.01) (by norm_num)
  obtain ⟨_, p1, p2⟩ := shares hs m' k1 k2 k3 x0 y0.le (by linarith) (by ring) (by norm_num)
    (by norm_num) (by norm_num)
  have g1 := p1.mono (l := 20) (by norm_num)
  have g2 := p2.mono (l := 18) (by norm_num)
  refine ⟨⟨g1.fin, g1.err⟩, ⟨g2.fin, g2.err⟩, k2.fin, ?_⟩
  have e := k2.err
  rw [es, div_mul_cancel₀ _ y0.ne'] at e
  refine le_trans e ?_
  have u0 : (0:ℝ) < f.u := by exact_mod_cast f.u_pos
  have : 0 < (f.u : ℝ) * (c.Y.val / c.y.val) := by positivity
  norm_num; nlinarith

/-- Not vacuous: a saturated green, and its XYZ colour. -/
example : ∃ (c : XYY (FP Fmt.b32)) (v : XYZ (FP Fmt.b32)), Spec.Chromatic c ∧
    v.x.isFinite = true ∧ v.y.isFinite = true ∧ v.z.isFinite = true ∧ 0 ≤ v.x.val ∧ 0 ≤ v.y.val ∧
    0 ≤ v.z.val ∧ 1 / 2 ^ 20 ≤ v.x.val + v.y.val + v.z.val ∧ v.x.val + v.y.val + v.z.val ≤ 2 ^ 20 := by
  refine ⟨⟨FP.fin (1 / 4) (by decide +kernel), FP.fin (5 / 8) (by decide +kernel),
      FP.fin (3 / 4) (by decide +kernel)⟩,
    ⟨FP.fin 30 (by decide +kernel), FP.fin 75 (by decide +kernel),
      FP.fin 15 (by decide +kernel)⟩, ?_⟩
  simp only [Spec.Chromatic, FP.isFinite, FP.val]
  norm_num

end
end CS

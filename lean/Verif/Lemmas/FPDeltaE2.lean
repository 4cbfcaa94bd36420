import Verif.Lemmas.FPDeltaE
import Verif.Props.Lab

/-!
# The hues of `delta_E_2000` in floating point
-/

namespace CS
variable {f : Fmt}

namespace Nr
variable {a b : FP f} {x y k l A B K P : ℝ}

/-- addition, for errors of any size -/
theorem add₂ (hf : Std f) (ha : Nr a x k) (hb : Nr b y l) (hB : |x + y| ≤ B) (hB' : B ≤ 2 ^ 30)
    (hkl : k + l ≤ 2 ^ 24) (hK : 1.0001 * (k + l) + B ≤ K) : Nr (a + b) (x + y) K := by
  obtain ⟨u0, u1, _, _⟩ := u_facts hf
  have k0 := ha.nonneg
  have l0 := hb.nonneg
  have d : |((a.val : ℝ) + b.val) - (x + y)| ≤ (k + l) * f.u := by
    have := abs_add_le ((a.val : ℝ) - x) (b.val - y)
    rw [show (a.val : ℝ) + b.val - (x + y) = (a.val - x) + (b.val - y) by ring]
    linarith [ha.err, hb.err]
  have sz : |(a.val : ℝ) + b.val| ≤ B + (k + l) * f.u := by
    have := abs_add_le ((a.val : ℝ) + b.val - (x + y)) (x + y)
    rw [sub_add_cancel] at this
    linarith
  have s : (k + l) * f.u ≤ 1 := by
    calc (k + l) * f.u ≤ 2 ^ 24 * (1 / 2 ^ 24) := mul_le_mul hkl u1 u0.le (by norm_num)
      _ ≤ _ := by norm_num
  obtain ⟨h1, h2⟩ := FP.add_err ha.fin hb.fin (small_abs hf (by push_cast; refine le_trans sz ?_; norm_num at hB' ⊢; linarith))
  refine ⟨h1, ?_⟩
  have h3 : |((a + b).val : ℝ) - ((a.val : ℝ) + b.val)| ≤ |(a.val : ℝ) + b.val| * f.u := by qcast h2
  have h4 := mul_le_mul_of_nonneg_right sz u0.le
  have h5 := mul_le_mul_of_nonneg_right hK u0.le
  have h6 := abs_sub_le ((a + b).val : ℝ) ((a.val : ℝ) + b.val) (x + y)
  have h9 : 0 ≤ (k + l) * f.u := by positivity
  have h7 : (k + l) * f.u * f.u ≤ (k + l) * f.u * (1 / 2 ^ 24) := mul_le_mul_of_nonneg_left u1 (by positivity)
  norm_num at h7
  linarith

theorem sub₂ (hf : Std f) (ha : Nr a x k) (hb : Nr b y l) (hB : |x - y| ≤ B) (hB' : B ≤ 2 ^ 30)
    (hkl : k + l ≤ 2 ^ 24) (hK : 1.0001 * (k + l) + B ≤ K) : Nr (a - b) (x - y) K := by
  have := add₂ hf ha hb.neg (B := B) (by rwa [← sub_eq_add_neg]) hB' hkl hK
  rw [← sub_eq_add_neg] at this
  exact this

theorem mul₂ (hf : Std f) (ha : Nr a x k) (hb : Nr b y l) (hA : |x| ≤ A) (hB : |y| ≤ B)
    (hP : |x * y| ≤ P) (hP' : P ≤ 2 ^ 30) (hs : k * B + l * A + k * l / 2 ^ 24 ≤ 2 ^ 24)
    (hK : 1.0001 * (k * B + l * A + k * l / 2 ^ 24) + P + 1 / 1000 ≤ K) : Nr (a * b) (x * y) K := by
  obtain ⟨u0, u1, e1, e0⟩ := u_facts hf
  have k0 := ha.nonneg
  have l0 := hb.nonneg
  have A0 : 0 ≤ A := le_trans (abs_nonneg _) hA
  have B0 : 0 ≤ B := le_trans (abs_nonneg _) hB
  have P0 : 0 ≤ P := le_trans (abs_nonneg _) hP
  set E := k * B + l * A + k * l / 2 ^ 24 with hE
  have E0 : 0 ≤ E := by positivity
  have d : |((a.val : ℝ) * b.val) - x * y| ≤ E * f.u := by
    rw [show (a.val : ℝ) * b.val - x * y = (a.val - x) * y + (b.val - y) * x
      + (a.val - x) * (b.val - y) by ring]
    have t1 : |((a.val : ℝ) - x) * y| ≤ k * f.u * B := by
      rw [abs_mul]; exact mul_le_mul ha.err hB (abs_nonneg _) (by positivity)
    have t2 : |((b.val : ℝ) - y) * x| ≤ l * f.u * A := by
      rw [abs_mul]; exact mul_le_mul hb.err hA (abs_nonneg _) (by positivity)
    have t3 : |((a.val : ℝ) - x) * (b.val - y)| ≤ k * f.u * (l * f.u) := by
      rw [abs_mul]; exact mul_le_mul ha.err hb.err (abs_nonneg _) (by positivity)
    have t4 : k * f.u * (l * f.u) ≤ k * l * f.u * (1 / 2 ^ 24) := by
      have := mul_le_mul_of_nonneg_left u1 (by positivity : 0 ≤ k * l * f.u)
      linarith
    have s1 := abs_add_le (((a.val : ℝ) - x) * y + ((b.val : ℝ) - y) * x) (((a.val : ℝ) - x) * (b.val - y))
    have s2 := abs_add_le (((a.val : ℝ) - x) * y) (((b.val : ℝ) - y) * x)
    rw [hE]
    linarith
  clear_value E
  have s : E * f.u ≤ 1 := by
    calc E * f.u ≤ 2 ^ 24 * (1 / 2 ^ 24) := mul_le_mul hs u1 u0.le (by norm_num)
      _ ≤ _ := by norm_num
  have sz : |(a.val : ℝ) * b.val| ≤ P + E * f.u := by
    have := abs_add_le ((a.val : ℝ) * b.val - x * y) (x * y)
    rw [sub_add_cancel] at this
    linarith
  obtain ⟨h1, h2⟩ := FP.mul_err ha.fin hb.fin (small_abs hf (by push_cast; refine le_trans sz ?_; norm_num at hP' ⊢; linarith))
  refine ⟨h1, ?_⟩
  have h3 : |((a * b).val : ℝ) - ((a.val : ℝ) * b.val)| ≤ |(a.val : ℝ) * b.val| * f.u + f.eta := by qcast h2
  have h4 := mul_le_mul_of_nonneg_right sz u0.le
  have h5 := mul_le_mul_of_nonneg_right hK u0.le
  have h6 := abs_sub_le ((a * b).val : ℝ) ((a.val : ℝ) * b.val) (x * y)
  have h9 : 0 ≤ E * f.u := by positivity
  have h7 : E * f.u * f.u ≤ E * f.u * (1 / 2 ^ 24) := mul_le_mul_of_nonneg_left u1 (by positivity)
  have h8 : (f.eta : ℝ) ≤ 1 / 1000 * f.u := by norm_num at e1 ⊢; linarith
  norm_num at h7
  linarith

/-- division, for errors of any size -/
theorem div₂ [Libm f] {b0 Q : ℝ} (hf : Std f) (ha : Nr a x k) (hb : Nr b y l) (h0 : 0 < b0) (hy : b0 ≤ y)
    (hQ : |x / y| ≤ Q) (hQ' : Q ≤ 2 ^ 30) (hl : l ≤ 2 ^ 17 * b0) (hs : (k + Q * l) / b0 ≤ 2 ^ 23)
    (hK : 1.01 * ((k + Q * l) / b0) + Q + 1 / 1000 ≤ K) : Nr (a / b) (x / y) K := by
  obtain ⟨u0, u1, e1, e0⟩ := u_facts hf
  have k0 := ha.nonneg
  have l0 := hb.nonneg
  have Q0 : 0 ≤ Q := le_trans (abs_nonneg _) hQ
  have y0 : 0 < y := by linarith
  have lu : l * f.u ≤ b0 / 2 ^ 7 := by
    calc l * f.u ≤ 2 ^ 17 * b0 * (1 / 2 ^ 24) := mul_le_mul hl u1 u0.le (by positivity)
      _ = _ := by ring
  have bv : (1 - 1 / 2 ^ 7) * b0 ≤ (b.val : ℝ) := by
    have := (_root_.abs_le.1 hb.err).1
    linarith
  have bpos : (0:ℝ) < b.val := lt_of_lt_of_le (by positivity) (le_trans (by norm_num; linarith) bv : b0 / 2 ≤ _)
  have bne : b.val ≠ 0 := by
    intro h; rw [h] at bpos; norm_num at bpos
  set q := (k + Q * l) / b0 with hq
  have q0 : 0 ≤ q := by positivity
  have d : |((a.val : ℝ) / b.val) - x / y| ≤ 1.009 * q * f.u := by
    have e : (a.val : ℝ) / b.val - x / y = ((a.val - x) - (x / y) * (b.val - y)) / b.val := by
      field_simp; ring
    rw [e, abs_div, abs_of_pos bpos, div_le_iff₀ bpos]
    have t1 : |x / y * ((b.val : ℝ) - y)| ≤ Q * (l * f.u) := by
      rw [abs_mul]; exact mul_le_mul hQ hb.err (abs_nonneg _) Q0
    have t2 := abs_sub_le ((a.val : ℝ) - x) 0 (x / y * ((b.val : ℝ) - y))
    simp only [sub_zero, zero_sub, abs_neg] at t2
    have t3 : (k + Q * l) = q * b0 := by rw [hq]; field_simp
    have t4 : 1.009 * q * f.u * ((1 - 1 / 2 ^ 7) * b0) ≤ 1.009 * q * f.u * b.val :=
      mul_le_mul_of_nonneg_left bv (by positivity)
    have t5 : 0 ≤ q * b0 * f.u := by positivity
    have t6 : |(a.val : ℝ) - x - x / y * ((b.val : ℝ) - y)| ≤ (k + Q * l) * f.u := by
      linarith [ha.err]
    rw [t3] at t6
    refine le_trans t6 (le_trans ?_ t4)
    have : 1.009 * q * f.u * ((1 - 1 / 2 ^ 7) * b0) = (1.009 * (1 - 1 / 2 ^ 7)) * (q * b0 * f.u) := by ring
    rw [this]
    norm_num
    linarith
  have s : q * f.u ≤ 1 / 2 := by
    calc _ ≤ (2 ^ 23 : ℝ) * (1 / 2 ^ 24) := mul_le_mul hs u1 u0.le (by norm_num)
      _ ≤ _ := by norm_num
  have sz : |(a.val : ℝ) / b.val| ≤ Q + 1.009 * q * f.u := by
    have := abs_add_le ((a.val : ℝ) / b.val - x / y) (x / y)
    rw [sub_add_cancel] at this
    linarith
  obtain ⟨h1, h2⟩ := FP.div_err ha.fin hb.fin bne (small_abs hf (by push_cast; refine le_trans sz ?_; norm_num at hQ' ⊢; linarith))
  refine ⟨h1, ?_⟩
  have h3 : |((a / b).val : ℝ) - ((a.val : ℝ) / b.val)| ≤ |(a.val : ℝ) / b.val| * f.u + f.eta := by qcast h2
  have h4 := mul_le_mul_of_nonneg_right sz u0.le
  have h5 := mul_le_mul_of_nonneg_right hK u0.le
  have h6 := abs_sub_le ((a / b).val : ℝ) ((a.val : ℝ) / b.val) (x / y)
  have h8 : (f.eta : ℝ) ≤ 1 / 1000 * f.u := by norm_num at e1 ⊢; linarith
  have h9 : 0 ≤ q * f.u := by positivity
  have h7 : q * f.u * f.u ≤ q * f.u * (1 / 2 ^ 24) := mul_le_mul_of_nonneg_left u1 (by positivity)
  norm_num at h7
  linarith

/-- an integer constant is exact -/
theorem whole [Libm f] (hf : Std f) (q : ℚ) (hs : Short q) : Nr (Flt.lit q : FP f) q 0 := by
  have h := in_lit (f := f) hf hs hs le_rfl le_rfl
  refine ⟨h.1, ?_⟩
  have : (Flt.lit q : FP f).val = q := le_antisymm h.2.2 h.2.1
  rw [this]; simp

end Nr

variable [Libm f]

section
variable (hf : Std f) (hm : Spec.MathAccurate f)
include hf hm

/-- the factor `1 + G` -/
theorem stretch_near (he : f.eta ≤ f.u ^ 2 / 2 ^ 30) {c : FP f} {C : ℝ} (hc : Rz 6.2 c C) (hC : C ≤ 256) :
    Nr (Flt.lit 1.0 + ciedeG c) (1 + (ciedeG C : ℝ)) 79 ∧ 1 ≤ 1 + (ciedeG C : ℝ) ∧ 1 + (ciedeG C : ℝ) ≤ 3 / 2 := by
  have hr := seventh_ratio_near hf hm he (by norm_num) (by norm_num) hc hC
  have e : (ciedeG C : ℝ) = 0.5 * (1 - Real.sqrt (C ^ 7 / (C ^ 7 + 25 ^ 7))) := by
    simp only [ciedeG, flt_lit, flt_powi, flt_sqrt]
    norm_num only [Rat.cast_ofNat, Rat.cast_div, Rat.cast_one]
  have C0 := hc.pos
  have s0 := Real.sqrt_nonneg (C ^ 7 / (C ^ 7 + 25 ^ 7))
  have s1 : Real.sqrt (C ^ 7 / (C ^ 7 + 25 ^ 7)) ≤ 1 := by
    rw [Real.sqrt_le_one, div_le_one (by positivity)]
    linarith [pow_nonneg C0 7]
  unfold ciedeG at hr ⊢
  have l1 : Nr (Flt.lit 1.0 : FP f) 1 0 := (Nr.whole hf 1.0 (by short)).congr (by norm_num)
  have l5 : Nr (Flt.lit 0.5 : FP f) 0.5 0 := (Nr.whole hf 0.5 (by short)).congr (by norm_num)
  have e' : (ciedeG C : ℝ) = Flt.lit 0.5 * (Flt.lit 1.0 - Flt.sqrt (Flt.powi C 7 / (Flt.powi C 7 + Flt.powi (Flt.lit 25.0) 7))) := rfl
  rw [← e', e]
  generalize Real.sqrt (C ^ 7 / (C ^ 7 + 25 ^ 7)) = s at *
  generalize (Flt.sqrt (Flt.powi c 7 / (Flt.powi c 7 + Flt.powi (Flt.lit 25.0) 7)) : FP f) = v at *
  have h1 := Nr.sub₂ hf l1 hr (B := 1) (K := 152) (abs_le.2 ⟨by linarith, by linarith⟩) (by norm_num) (by norm_num) (by norm_num)
  have h2 := Nr.mul₂ hf l5 h1 (A := 0.5) (B := 1) (P := 0.5) (K := 77) (by norm_num) (abs_le.2 ⟨by linarith, by linarith⟩)
    (abs_le.2 ⟨by linarith, by linarith⟩) (by norm_num) (by norm_num) (by norm_num)
  have h3 := Nr.add₂ hf l1 h2 (B := 1.5) (K := 79) (abs_le.2 ⟨by linarith, by linarith⟩) (by norm_num) (by norm_num) (by norm_num)
  exact ⟨h3, by linarith, by linarith⟩

omit hm in
/-- the stretched coordinate -/
theorem stretched {g a : FP f} {G : ℝ} (hg : Nr g G 79) (g1 : 1 ≤ G) (g2 : G ≤ 3 / 2) (ha : a.isFinite = true)
    (h : |(a.val : ℝ)| ≤ 128) (pa : Plain a.val) :
    (g * a).isFinite = true ∧ |((g * a).val : ℝ) - G * a.val| ≤ 80.1 * f.u * |G * (a.val : ℝ)| ∧
    |G * (a.val : ℝ)| ≤ 192 ∧ Plain (G * a.val) := by
  obtain ⟨u0, u1, e1, e0⟩ := u_facts hf
  have G0 : 0 < G := by linarith
  have aG : |(a.val : ℝ)| ≤ |G * (a.val : ℝ)| := by
    rw [abs_mul, abs_of_pos G0]; exact le_mul_of_one_le_left (abs_nonneg _) g1
  have Ga : |G * (a.val : ℝ)| ≤ 192 := by
    rw [abs_mul, abs_of_pos G0]
    exact (mul_le_mul g2 h (abs_nonneg _) (by norm_num)).trans (by norm_num)
  have d1 : |(g.val : ℝ) * a.val - G * a.val| ≤ 79 * (f.u * |G * (a.val : ℝ)|) := by
    rw [← sub_mul, abs_mul]
    calc _ ≤ 79 * f.u * |G * (a.val : ℝ)| := mul_le_mul hg.err aG (abs_nonneg _) (by positivity)
      _ = _ := by ring
  have uA : 0 ≤ f.u * |G * (a.val : ℝ)| := by positivity
  have uA' : f.u * |G * (a.val : ℝ)| ≤ 1 / 2 ^ 24 * |G * (a.val : ℝ)| := mul_le_mul_of_nonneg_right u1 (abs_nonneg _)
  have sz : |(g.val : ℝ) * a.val| ≤ 1.0001 * |G * (a.val : ℝ)| := by
    have := abs_add_le ((g.val : ℝ) * a.val - G * a.val) (G * a.val)
    rw [sub_add_cancel] at this
    generalize |G * (a.val : ℝ)| = Z at *
    norm_num at uA'
    linarith
  obtain ⟨hfin, he⟩ := FP.mul_err hg.fin ha (Nr.small_abs hf (by push_cast; exact (sz.trans (mul_le_mul_of_nonneg_left Ga (by norm_num))).trans (by norm_num)))
  have he' : |((g * a).val : ℝ) - (g.val : ℝ) * a.val| ≤ |(g.val : ℝ) * a.val| * f.u + f.eta := by qcast he
  have pG : Plain (G * a.val) := by
    rcases pa with h | h
    · left; rw [h, mul_zero]
    · right; exact h.trans aG
  refine ⟨hfin, ?_, Ga, pG⟩
  rcases pG with hz | hz
  · have a0 : a.val = 0 := by
      rcases mul_eq_zero.1 hz with h | h
      · exact absurd h G0.ne'
      · exact_mod_cast h
    have : (g * a).val = 0 := rep_zero (FP.round_val _) (by
      rw [a0] at he
      simpa using he)
    rw [this, a0]; simp
  · have ab := absorb hf (le_trans (by norm_num) hz)
    have t1 := abs_sub_le ((g * a).val : ℝ) ((g.val : ℝ) * a.val) (G * a.val)
    have t2 := mul_le_mul_of_nonneg_right sz u0.le
    rw [mul_assoc]
    generalize |G * (a.val : ℝ)| = Z at *
    norm_num at ab ⊢
    linarith


omit [Libm f] hf hm in
theorem hueDeg_real (b a : ℝ) : (hueDeg b a : ℝ) =
    if Complex.arg ⟨a, b⟩ * (180 / Real.pi) < 0 then Complex.arg ⟨a, b⟩ * (180 / Real.pi) + 360
    else Complex.arg ⟨a, b⟩ * (180 / Real.pi) := by
  have e : ∀ z : ℝ, Flt.toDeg z = z * (180 / Real.pi) := fun _ => rfl
  simp only [hueDeg, flt_lit, flt_lt, decide_eq_true_eq, flt_atan2, e]
  norm_num only [Rat.cast_ofNat, Rat.cast_zero]

omit hm in
/-- turning an angle in (-180, 180] into a hue -/
theorem hue_finish {h : FP f} {Y : ℝ} (hh : Nr h Y 3900) (hY : |Y| ≤ 180) (hs : h.val < 0 ↔ Y < 0) :
    Nr (if Flt.lt h (Flt.lit 0.0) then h + Flt.lit 360.0 else h) (if Y < 0 then Y + 360 else Y) 4300 := by
  have l0 : In (Flt.lit 0.0 : FP f) 0 0 := in_lit hf (by short) (by short) (by norm_num) (by norm_num)
  have z : (Flt.lit 0.0 : FP f).val = 0 := le_antisymm l0.2.2 l0.2.1
  have hlt : Flt.lt h (Flt.lit 0.0) = decide (h.val < (Flt.lit 0.0 : FP f).val) := FP.lt_finite hh.fin l0.1
  rw [z] at hlt
  by_cases hn : h.val < 0
  · rw [hlt, if_pos (by simpa using hn), if_pos (hs.1 hn)]
    have l360 : Nr (Flt.lit 360.0 : FP f) 360 0 := (Nr.whole hf 360.0 (by short)).congr (by norm_num)
    have := hs.1 hn
    have := (abs_le.1 hY).1
    exact Nr.add₂ hf hh l360 (B := 360) (abs_le.2 ⟨by linarith, by linarith⟩) (by norm_num) (by norm_num) (by norm_num)
  · rw [hlt, if_neg (by simpa using hn), if_neg (fun h' => hn (hs.2 h'))]
    exact hh.mono (by norm_num)

/-- an angle in degrees -/
theorem angle_deg {b x : FP f} {θ : ℝ} (hb : b.isFinite = true) (hx : x.isFinite = true) (hθ : |θ| ≤ Real.pi)
    (h : Spec.NearBy (4 * f.u * |θ| + 2 * f.eta) (Flt.atan2 b x) θ) :
    Nr (Flt.toDeg (Flt.atan2 b x)) (θ * (180 / Real.pi)) 1500 ∧
    (1 / 2 ^ 70 ≤ |θ| → ((Flt.toDeg (Flt.atan2 b x)).val < 0 ↔ θ < 0)) := by
  obtain ⟨u0, u1, e1, e0⟩ := u_facts hf
  have p1 := Real.pi_gt_d2
  have p2 := Real.pi_lt_d2
  have ηs : (f.eta : ℝ) ≤ 1 / 2 ^ 140 := by norm_num at e1 u1 ⊢; linarith
  obtain ⟨mf, me⟩ := h
  have im := in_atan2 hf hm (y := b) hx hb
  generalize (Flt.atan2 b x : FP f) = m at *
  obtain ⟨df, de⟩ := hm.toDeg m mf (im.abs_val.trans (by norm_num))
  generalize (Flt.toDeg m : FP f) = g at *
  set D := 180 / Real.pi with hD
  have D1 : 57 ≤ D := by rw [hD, le_div_iff₀ Real.pi_pos]; norm_num at p2; linarith
  have D2 : D ≤ 58 := by rw [hD, div_le_iff₀ Real.pi_pos]; norm_num at p1; linarith
  have Dπ : Real.pi * D = 180 := by rw [hD]; field_simp
  clear_value D
  have D0 : 0 ≤ D := by linarith
  set t := |θ| with ht
  have t0 : 0 ≤ t := abs_nonneg _
  have m1 : |(m.val : ℝ)| ≤ (1 + 1 / 2 ^ 22) * t + 2 * f.eta := by
    have h1 := abs_add_le ((m.val : ℝ) - θ) θ
    rw [sub_add_cancel] at h1
    have h2 : 4 * f.u * t ≤ 4 * (1 / 2 ^ 24) * t := mul_le_mul_of_nonneg_right (by linarith) t0
    norm_num at h2 ⊢
    linarith
  have m2 : |(m.val : ℝ) * D| ≤ (1 + 1 / 2 ^ 22) * (t * D) + 116 * f.eta := by
    rw [abs_mul, abs_of_nonneg D0]
    have h1 := mul_le_mul_of_nonneg_right m1 D0
    have h2 : 2 * f.eta * D ≤ 2 * f.eta * 58 := mul_le_mul_of_nonneg_left D2 (by linarith)
    linarith
  have m3 : |(m.val : ℝ) * D - θ * D| ≤ 4 * f.u * (t * D) + 116 * f.eta := by
    rw [← sub_mul, abs_mul, abs_of_nonneg D0]
    have h1 := mul_le_mul_of_nonneg_right me D0
    have h2 : 2 * f.eta * D ≤ 2 * f.eta * 58 := mul_le_mul_of_nonneg_left D2 (by linarith)
    linarith
  have tD : 0 ≤ t * D := mul_nonneg t0 D0
  have m4 : 4 * f.u * |(m.val : ℝ) * D| ≤ 4.01 * f.u * (t * D) + 116 * f.eta := by
    have h1 := mul_le_mul_of_nonneg_left m2 (by linarith : (0:ℝ) ≤ 4 * f.u)
    have h2 : 4 * (f.u : ℝ) * (116 * f.eta) ≤ 4 * (1 / 2 ^ 24) * (116 * f.eta) :=
      mul_le_mul_of_nonneg_right (by linarith) (by linarith)
    have h3 : 0 ≤ f.u * (t * D) := mul_nonneg u0.le tD
    norm_num at h2 h1 ⊢
    nlinarith
  have tot : |(g.val : ℝ) - θ * D| ≤ 8.01 * f.u * (t * D) + 233 * f.eta := by
    have := abs_sub_le (g.val : ℝ) (m.val * D) (θ * D)
    linarith
  constructor
  · refine ⟨df, tot.trans ?_⟩
    have h1 : t * D ≤ 180 := by rw [← Dπ]; exact mul_le_mul_of_nonneg_right hθ D0
    have h2 := mul_le_mul_of_nonneg_left h1 (by linarith : (0:ℝ) ≤ 8.01 * f.u)
    norm_num at h2 e1 ⊢
    linarith
  · intro big
    have h1 : 8.01 * f.u * (t * D) ≤ 8.01 * (1 / 2 ^ 24) * (t * D) := mul_le_mul_of_nonneg_right (by linarith) tD
    have h2 : 57 * t ≤ t * D := by nlinarith
    have h3 : |(g.val : ℝ) - θ * D| < t * D := by
      norm_num at h1 big ηs ⊢
      linarith
    have h4 := abs_lt.1 h3
    have neg : (g.val < 0) ↔ ((g.val : ℝ) < 0) := by constructor <;> intro h <;> exact_mod_cast h
    rw [neg]
    constructor
    · intro hg
      by_contra hc
      rw [ht, abs_of_nonneg (not_lt.1 hc)] at h4
      linarith [h4.1]
    · intro hc
      rw [ht, abs_of_neg hc] at h4
      linarith [h4.2]

omit [Libm f] hf hm in
/-- an angle off the axis is not tiny -/
theorem arg_big {x b : ℝ} (hx : |x| ≤ 256) (hb : |b| ≤ 256) (hb' : 1 / 2 ^ 60 ≤ |b|) : 1 / 2 ^ 70 ≤ |Complex.arg ⟨x, b⟩| := by
  have h1 : |Real.sin (Complex.arg ⟨x, b⟩)| ≤ |Complex.arg ⟨x, b⟩| := Real.abs_sin_le_abs
  refine le_trans ?_ h1
  rw [Complex.sin_arg, abs_div, abs_of_nonneg (norm_nonneg _)]
  have h2 : ‖(⟨x, b⟩ : ℂ)‖ ≤ 512 := by
    have := Complex.norm_le_abs_re_add_abs_im ⟨x, b⟩
    simp only at this
    linarith
  have bp : 0 < |b| := lt_of_lt_of_le (by norm_num) hb'
  have h3 : 0 < ‖(⟨x, b⟩ : ℂ)‖ := by
    rw [norm_pos_iff]
    intro h
    have : b = 0 := congrArg Complex.im h
    rw [this, abs_zero] at bp
    exact lt_irrefl _ bp
  rw [le_div_iff₀ h3]
  calc 1 / 2 ^ 70 * ‖(⟨x, b⟩ : ℂ)‖ ≤ 1 / 2 ^ 70 * 512 := mul_le_mul_of_nonneg_left h2 (by norm_num)
    _ ≤ 1 / 2 ^ 60 := by norm_num
    _ ≤ _ := hb'

theorem hue_near {b x : FP f} {A : ℝ} (hb : b.isFinite = true) (hx : x.isFinite = true)
    (h : |(x.val : ℝ) - A| ≤ 80.1 * f.u * |A|) (hA : |A| ≤ 192) (hB : |(b.val : ℝ)| ≤ 128) (pB : Plain b.val)
    (ne : ¬(A = 0 ∧ (b.val : ℝ) = 0)) : Nr (hueDeg b x) (hueDeg (b.val : ℝ) A) 4300 := by
  obtain ⟨u0, u1, e1, e0⟩ := u_facts hf
  obtain ⟨t, et, ht⟩ := rel_form h
  rw [abs_of_nonneg (by positivity : (0:ℝ) ≤ 80.1 * f.u)] at ht
  have ht' : |t| ≤ 1 / 1000 := ht.trans (by norm_num at u1 ⊢; linarith)
  have t1 : 0 < 1 + t := by have := (abs_le.1 ht').1; linarith
  have turn := arg_scale A t b.val (ht'.trans (by norm_num))
  rw [← et] at turn
  have p1 := Real.pi_gt_d2
  set D := 180 / Real.pi with hD
  have D0 : 0 < D := by rw [hD]; positivity
  have D2 : D ≤ 57.4 := by rw [hD, div_le_iff₀ Real.pi_pos]; norm_num at p1 ⊢; linarith
  have Dπ : Real.pi * D = 180 := by rw [hD]; field_simp
  have half : ∀ θ : ℝ, |θ| ≤ Real.pi → |θ * D| ≤ 180 := fun θ hθ => by
    rw [abs_mul, abs_of_pos D0, ← Dπ]; exact mul_le_mul_of_nonneg_right hθ D0.le
  have lift : ∀ {g : FP f} {θ φ : ℝ}, Nr g (θ * D) 1500 → |θ - φ| ≤ 0.51 * |t| → Nr g (φ * D) 3900 := by
    intro g θ φ hg hφ
    refine ⟨hg.fin, ?_⟩
    have h1 := abs_sub_le (g.val : ℝ) (θ * D) (φ * D)
    rw [← sub_mul, abs_mul, abs_of_pos D0] at h1
    have h2 : |θ - φ| * D ≤ (0.51 * (80.1 * f.u)) * 57.4 :=
      mul_le_mul (hφ.trans (mul_le_mul_of_nonneg_left ht (by norm_num))) D2 D0.le (by positivity)
    have := hg.err
    norm_num at h2 ⊢
    linarith
  rw [hueDeg_real, ← hD]
  unfold hueDeg
  dsimp only
  obtain ⟨θ, iθ, nθ⟩ := hm.atan2 b x hx hb
  obtain ⟨g1, g2⟩ := angle_deg hf hm hb hx iθ.abs_le nθ
  rw [← hD] at g1
  by_cases hb0 : b.val = 0
  · have hb0' : (b.val : ℝ) = 0 := by rw [hb0]; norm_num
    have hA0 : A ≠ 0 := fun h => ne ⟨h, hb0'⟩
    have ax : ∀ y : ℝ, (⟨y, (b.val : ℝ)⟩ : ℂ) = (y : ℂ) := fun y => by rw [hb0']; rfl
    rcases lt_or_gt_of_ne hA0 with hneg | hpos
    · -- the negative half of the axis: 180 degrees from either side
      have hxneg : (x.val : ℝ) < 0 := by rw [et]; exact mul_neg_of_neg_of_pos hneg t1
      have hxq : x.val < 0 := by exact_mod_cast hxneg
      have aA : Complex.arg ⟨A, (b.val : ℝ)⟩ = Real.pi := by rw [ax]; exact Complex.arg_ofReal_of_neg hneg
      rw [aA, Dπ, if_neg (by norm_num : ¬((180:ℝ) < 0))]
      have c : θ = Real.pi ∨ θ = -Real.pi := by
        rcases iθ with h' | ⟨-, -, h'⟩ | ⟨-, h', -⟩
        · left; rw [h', ax]; exact Complex.arg_ofReal_of_neg hxneg
        · right; exact h'
        · rw [h'] at hxq; exact absurd hxq (lt_irrefl _)
      have πb : (1:ℝ) / 2 ^ 70 ≤ Real.pi := by norm_num at p1 ⊢; linarith
      rcases c with c | c
      · rw [c, Dπ] at g1
        have s := g2 (by rw [c, abs_of_pos Real.pi_pos]; exact πb)
        have := hue_finish hf (Y := 180) (g1.mono (by norm_num)) (by norm_num) (by rw [s, c]; constructor <;> intro h' <;> linarith [Real.pi_pos])
        rwa [if_neg (by norm_num : ¬((180:ℝ) < 0))] at this
      · rw [c, neg_mul, Dπ] at g1
        have s := g2 (by rw [c, abs_neg, abs_of_pos Real.pi_pos]; exact πb)
        have := hue_finish hf (Y := -180) (g1.mono (by norm_num)) (by norm_num) (by rw [s, c]; constructor <;> intro h' <;> linarith [Real.pi_pos])
        rw [if_pos (by norm_num : ((-180:ℝ) < 0))] at this
        exact this.congr (by norm_num)
    · have hxpos : (0:ℝ) < x.val := by rw [et]; exact mul_pos hpos t1
      have hxq : 0 < x.val := by exact_mod_cast hxpos
      have z := hm.atan2_axis b x hx hb hb0 hxq
      have aA : Complex.arg ⟨A, (b.val : ℝ)⟩ = 0 := by rw [ax]; exact Complex.arg_ofReal_of_nonneg hpos.le
      obtain ⟨df, de⟩ := hm.toDeg (Flt.atan2 b x) nθ.1 (by rw [z]; norm_num)
      rw [z] at de
      simp only [Rat.cast_zero, zero_mul, abs_zero, mul_zero, zero_add, sub_zero] at de
      have z2 : (Flt.toDeg (Flt.atan2 b x) : FP f).val = 0 := rep_zero (FP.round_val _) (by
        have : ((|(Flt.toDeg (Flt.atan2 b x) : FP f).val| : ℚ) : ℝ) ≤ f.eta := by push_cast; exact de
        exact_mod_cast this)
      rw [aA, zero_mul]
      refine hue_finish hf ⟨df, ?_⟩ (by norm_num) (by rw [z2]; constructor <;> intro h' <;> exact absurd h' (lt_irrefl _))
      rw [z2, Rat.cast_zero, sub_zero, abs_zero]
      positivity
  · have hb0' : (b.val : ℝ) ≠ 0 := by exact_mod_cast hb0
    have bB : 1 / 2 ^ 60 ≤ |(b.val : ℝ)| := by
      rcases pB with h' | h'
      · exact absurd h' hb0'
      · exact h'
    have eθ : θ = Complex.arg ⟨x.val, b.val⟩ := by
      rcases iθ with h' | ⟨h', -⟩ | ⟨h', -⟩
      · exact h'
      · exact absurd h' hb0
      · exact absurd h' hb0
    have xb : |(x.val : ℝ)| ≤ 256 := by
      rw [et, abs_mul, abs_of_pos t1]
      have := (abs_le.1 ht').2
      calc |A| * (1 + t) ≤ 192 * (1 + 1 / 1000) := mul_le_mul hA (by linarith) t1.le (by norm_num)
        _ ≤ _ := by norm_num
    have s := g2 (by rw [eθ]; exact arg_big xb (hB.trans (by norm_num)) bB)
    rw [eθ] at g1 s
    have sgn : Complex.arg ⟨x.val, b.val⟩ < 0 ↔ Complex.arg ⟨A, b.val⟩ < 0 := by
      rw [Complex.arg_neg_iff, Complex.arg_neg_iff]
    refine hue_finish hf (lift g1 turn) (half _ (Complex.abs_arg_le_pi _)) ?_
    rw [s, sgn]
    constructor
    · intro h'; exact mul_neg_of_neg_of_pos h' D0
    · intro h'
      by_contra hc
      have := mul_nonneg (not_lt.1 hc) D0.le
      linarith


omit hm in
/-- comparing with a threshold that is not close -/
theorem near_le {a : FP f} {x k c : ℝ} {q : ℚ} (hs : Short q) (hc : (q : ℝ) = c) (ha : Nr a x k) (hk : k ≤ 2 ^ 14)
    (gap : 1 / 1000 ≤ |x - c|) : Flt.le a (Flt.lit q) = decide (x ≤ c) ∧ Flt.lt a (Flt.lit q) = decide (x < c) ∧
      Flt.lt (Flt.lit q) a = decide (c < x) := by
  obtain ⟨u0, u1, e1, e0⟩ := u_facts hf
  have lq := in_lit (f := f) hf hs hs le_rfl le_rfl
  have v : (Flt.lit q : FP f).val = q := le_antisymm lq.2.2 lq.2.1
  have e : |(a.val : ℝ) - x| < 1 / 1000 := by
    refine lt_of_le_of_lt ha.err ?_
    calc k * f.u ≤ 2 ^ 14 * (1 / 2 ^ 24) := mul_le_mul hk u1 u0.le (by norm_num)
      _ < _ := by norm_num
  have e' := abs_lt.1 e
  have hle : Flt.le a (Flt.lit q) = decide (a.val ≤ (Flt.lit q : FP f).val) := FP.le_finite ha.fin lq.1
  have hlt : Flt.lt a (Flt.lit q) = decide (a.val < (Flt.lit q : FP f).val) := FP.lt_finite ha.fin lq.1
  have hgt : Flt.lt (Flt.lit q) a = decide ((Flt.lit q : FP f).val < a.val) := FP.lt_finite lq.1 ha.fin
  rw [hle, hlt, hgt, v]
  have c1 : (a.val ≤ q) ↔ ((a.val : ℝ) ≤ c) := by rw [← hc]; constructor <;> intro h <;> exact_mod_cast h
  have c2 : (a.val < q) ↔ ((a.val : ℝ) < c) := by rw [← hc]; constructor <;> intro h <;> exact_mod_cast h
  have c3 : (q < a.val) ↔ (c < (a.val : ℝ)) := by rw [← hc]; constructor <;> intro h <;> exact_mod_cast h
  simp only [c1, c2, c3, decide_eq_decide]
  rcases le_abs.1 gap with h | h
  · refine ⟨⟨fun h' => by linarith, fun h' => by linarith⟩, ⟨fun h' => by linarith, fun h' => by linarith⟩,
      ⟨fun h' => by linarith, fun h' => by linarith⟩⟩
  · refine ⟨⟨fun h' => by linarith, fun h' => by linarith⟩, ⟨fun h' => by linarith, fun h' => by linarith⟩,
      ⟨fun h' => by linarith, fun h' => by linarith⟩⟩

omit [Libm f] hf hm in
theorem Nr.abs {a : FP f} {x k : ℝ} (h : Nr a x k) : Nr (FP.abs a) |x| k := by
  have e : (FP.abs a).isFinite = true ∧ (FP.abs a).val = |a.val| := by
    have := h.fin
    cases a with
    | nan => simp [FP.isFinite] at this
    | pinf => simp [FP.isFinite] at this
    | ninf => simp [FP.isFinite] at this
    | nzero => simp [FP.abs, FP.isFinite]
    | fin q hq =>
      have e : FP.abs (.fin q hq) = if q < 0 then FP.neg (.fin q hq) else .fin q hq := rfl
      rw [e]
      by_cases hn : q < 0
      · rw [if_pos hn]
        obtain ⟨h1, h2⟩ := FP.neg_finite (a := FP.fin q hq) rfl
        refine ⟨h1, ?_⟩
        have h3 : (FP.neg (.fin q hq)).val = -q := h2
        rw [h3]
        exact (abs_of_neg hn).symm
      · rw [if_neg hn]
        exact ⟨rfl, (abs_of_nonneg (not_lt.1 hn)).symm⟩
  refine ⟨e.1, ?_⟩
  rw [e.2]
  push_cast
  exact (abs_abs_sub_abs_le _ _).trans h.err

omit hm in
/-- the difference and the mean of two hues away from the seams -/
theorem hues_near {p q h k : FP f} {P Q H K : ℝ} (pq : Flt.eqb (p * q) (Flt.lit 0.0) = false) (PQ : P * Q ≠ 0)
    (hh : Nr h H 4300) (hk : Nr k K 4300) (h0 : 0 ≤ H ∧ H < 360) (k0 : 0 ≤ K ∧ K < 360)
    (gap : 1 / 1000 ≤ |(|H - K|) - 180|) (gap2 : 180 < |H - K| → 1 / 1000 ≤ |H + K - 360|) :
    Nr (deltaHue p q h k) (deltaHue P Q H K) 9400 ∧ Nr (meanHue p q h k) (meanHue P Q H K) 5600 ∧
    |deltaHue P Q H K| ≤ 180 ∧ 0 ≤ meanHue P Q H K ∧ meanHue P Q H K ≤ 360 := by
  have l360 : Nr (Flt.lit 360.0 : FP f) 360 0 := (Nr.whole hf 360.0 (by short)).congr (by norm_num)
  have l2 : Nr (Flt.lit 2.0 : FP f) 2 0 := (Nr.whole hf 2.0 (by short)).congr (by norm_num)
  have d1 := Nr.sub₂ hf hk hh (B := 360) (K := 8961) (abs_le.2 ⟨by linarith, by linarith⟩) (by norm_num) (by norm_num) (by norm_num)
  have d2 := Nr.sub₂ hf hh hk (B := 360) (K := 8961) (abs_le.2 ⟨by linarith, by linarith⟩) (by norm_num) (by norm_num) (by norm_num)
  have sm := Nr.add₂ hf hh hk (B := 720) (K := 9321) (abs_le.2 ⟨by linarith, by linarith⟩) (by norm_num) (by norm_num) (by norm_num)
  have gap' : 1 / 1000 ≤ |(|K - H|) - 180| := by rwa [abs_sub_comm K H]
  obtain ⟨b1, -, -⟩ := near_le hf (q := 180.0) (by short) (by norm_num) d1.abs (by norm_num) gap'
  obtain ⟨b2, -, -⟩ := near_le hf (q := 180.0) (by short) (by norm_num) d2.abs (by norm_num) gap
  have half : ∀ {x : FP f} {X k : ℝ}, Nr x X k → k ≤ 10500 → |X / 2| ≤ 360 → Nr (x / Flt.lit 2.0) (X / 2) (1.01 * (k / 2) + 361) := by
    intro x X k hx hk hX
    exact Nr.div₂ hf hx l2 (b0 := 2) (Q := 360) (by norm_num) le_rfl hX (by norm_num) (by norm_num) (by norm_num; linarith)
      (by norm_num; linarith)
  have B1 : Flt.le (Flt.abs (k - h)) (Flt.lit 180.0 : FP f) = decide (|K - H| ≤ 180) := b1
  have B2 : Flt.le (Flt.abs (h - k)) (Flt.lit 180.0 : FP f) = decide (|H - K| ≤ 180) := b2
  have eD : (deltaHue P Q H K : ℝ) = if |K - H| ≤ 180 then K - H else if 180 < K - H then K - H - 360 else K - H + 360 := by
    simp only [deltaHue, Flt.gt, flt_lit, flt_lt, flt_le, flt_eqb, flt_abs, decide_eq_true_eq]
    norm_num only [Rat.cast_ofNat, Rat.cast_zero]
    rw [if_neg PQ]
  have eM : (meanHue P Q H K : ℝ) = if |H - K| ≤ 180 then (H + K) / 2 else if H + K < 360 then (H + K + 360) / 2
      else (H + K - 360) / 2 := by
    simp only [meanHue, Flt.gt, flt_lit, flt_lt, flt_le, flt_eqb, flt_abs, decide_eq_true_eq]
    norm_num only [Rat.cast_ofNat, Rat.cast_zero]
    rw [if_neg PQ]
  rw [eD, eM]
  unfold deltaHue meanHue
  dsimp only
  rw [pq, B1, B2, abs_sub_comm H K]
  simp only [Bool.false_eq_true, if_false, decide_eq_true_eq]
  by_cases c : |K - H| ≤ 180
  · rw [if_pos c, if_pos c, if_pos c, if_pos c]
    refine ⟨d1.mono (by norm_num), ?_, c, by linarith, by linarith⟩
    exact (half sm (by norm_num) (abs_le.2 ⟨by linarith, by linarith⟩)).mono (by norm_num)
  · rw [if_neg c, if_neg c, if_neg c, if_neg c]
    rw [not_le] at c
    obtain ⟨-, c1, -⟩ := near_le hf (q := 360.0) (c := 360) (by short) (by norm_num) sm (by norm_num)
      (gap2 (by rwa [abs_sub_comm]))
    have far : 1 / 1000 ≤ |K - H - 180| := by
      rcases lt_abs.1 c with h' | h'
      · rwa [abs_of_pos (by linarith : 0 < K - H)] at gap'
      · rw [abs_of_neg (by linarith)]
        linarith
    obtain ⟨-, -, c2⟩ := near_le hf (q := 180.0) (c := 180) (by short) (by norm_num) d1 (by norm_num) far
    unfold Flt.gt
    rw [c1, c2]
    simp only [decide_eq_true_eq]
    have mean : Nr (if H + K < 360 then (h + k + Flt.lit 360.0) / Flt.lit 2.0 else (h + k - Flt.lit 360.0) / Flt.lit 2.0)
        (if H + K < 360 then (H + K + 360) / 2 else (H + K - 360) / 2) 5600 ∧
        0 ≤ (if H + K < 360 then (H + K + 360) / 2 else (H + K - 360) / 2) ∧
        (if H + K < 360 then (H + K + 360) / 2 else (H + K - 360) / 2) ≤ 360 := by
      by_cases s : H + K < 360
      · rw [if_pos s, if_pos s]
        have s1 := Nr.add₂ hf sm l360 (B := 720) (K := 10050) (abs_le.2 ⟨by linarith, by linarith⟩) (by norm_num) (by norm_num) (by norm_num)
        exact ⟨(half s1 (by norm_num) (abs_le.2 ⟨by linarith, by linarith⟩)).mono (by norm_num), by linarith, by linarith⟩
      · rw [if_neg s, if_neg s]
        rw [not_lt] at s
        have s1 := Nr.sub₂ hf sm l360 (B := 360) (K := 9700) (abs_le.2 ⟨by linarith, by linarith⟩) (by norm_num) (by norm_num) (by norm_num)
        exact ⟨(half s1 (by norm_num) (abs_le.2 ⟨by linarith, by linarith⟩)).mono (by norm_num), by linarith, by linarith⟩
    have diff : Nr (if 180 < K - H then k - h - Flt.lit 360.0 else k - h + Flt.lit 360.0)
        (if 180 < K - H then K - H - 360 else K - H + 360) 9400 ∧
        |if 180 < K - H then K - H - 360 else K - H + 360| ≤ 180 := by
      by_cases s : 180 < K - H
      · rw [if_pos s, if_pos s]
        have b : |K - H - 360| ≤ 180 := abs_le.2 ⟨by linarith, by linarith⟩
        exact ⟨Nr.sub₂ hf d1 l360 (B := 180) b (by norm_num) (by norm_num) (by norm_num), b⟩
      · rw [if_neg s, if_neg s]
        have s' : K - H < -180 := by
          rcases lt_abs.1 c with h' | h'
          · exact absurd h' s
          · linarith
        have b : |K - H + 360| ≤ 180 := abs_le.2 ⟨by linarith, by linarith⟩
        exact ⟨Nr.add₂ hf d1 l360 (B := 180) b (by norm_num) (by norm_num) (by norm_num), b⟩
    exact ⟨diff.1, mean.1, diff.2, mean.2.1, mean.2.2⟩

end
end CS

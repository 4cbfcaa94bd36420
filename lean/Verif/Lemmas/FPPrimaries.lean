import Verif.Lemmas.FPInverse
import Verif.Model.Space

/-! # Rounding errors of a colour space built from primaries -/

namespace CS
variable {f : Fmt} [Libm f]

/-- `z` computed from `x` and `y` -/
theorem zc_err (hf : Std f) {x y : FP f} (hx : x.isFinite = true) (hy : y.isFinite = true)
    (hz : |1 - x.val - y.val| ≤ 5 / 4) :
    (FP.lit 1.0 - (x + y) : FP f).isFinite = true ∧
    |(FP.lit 1.0 - (x + y) : FP f).val - (1 - x.val - y.val)| ≤ 3.6 * f.u ∧
    |(FP.lit 1.0 - (x + y) : FP f).val| ≤ 1.2501 := by
  have u0 := f.u_pos
  have u1 := hf.hu
  have l1 : (FP.lit 1.0 : FP f).isFinite = true ∧ (FP.lit 1.0 : FP f).val = 1 := by
    rw [show (1.0 : ℚ) = 1 by norm_num, FP.lit_one]; exact ⟨rfl, rfl⟩
  obtain ⟨z1, z2⟩ := abs_le.1 hz
  obtain ⟨s1, s2⟩ := add_b hf hx hy (A := 2.25) (by rw [abs_le]; constructor <;> norm_num <;> linarith) (by norm_num)
  obtain ⟨s3, s4⟩ := abs_le.1 s2
  obtain ⟨t1, t2⟩ := sub_b hf l1.1 s1 (A := 1.26) (by
    rw [l1.2, abs_le]; norm_num at u1 s3 s4 ⊢; constructor <;> linarith) (by norm_num)
  rw [l1.2] at t2
  obtain ⟨t3, t4⟩ := abs_le.1 t2
  generalize (FP.lit 1.0 - (x + y) : FP f).val = w at *
  generalize (x + y).val = s at *
  refine ⟨t1, ?_, ?_⟩
  · rw [abs_le]; norm_num at s3 s4 t3 t4 ⊢; constructor <;> linarith
  · rw [abs_le]; norm_num at u1 s3 s4 t3 t4 ⊢; constructor <;> linarith

/-- a component of the cross product of two chromaticities -/
theorem cross_err (hf : Std f) {a b c e : FP f} {B E : ℚ} (ha : a.isFinite = true) (hb : b.isFinite = true)
    (hc : c.isFinite = true) (he : e.isFinite = true) (ha' : |a.val| ≤ 5 / 4) (hb' : |b.val| ≤ 1.2501)
    (hc' : |c.val| ≤ 5 / 4) (he' : |e.val| ≤ 1.2501) (hB : |b.val - B| ≤ 3.6 * f.u)
    (hE : |e.val - E| ≤ 3.6 * f.u) :
    (a * b - c * e).isFinite = true ∧ |(a * b - c * e).val - (a.val * B - c.val * E)| ≤ 15.3 * f.u ∧
    |(a * b - c * e).val| ≤ 3.128 := by
  have u0 := f.u_pos
  obtain ⟨m1, m2, m3, m4⟩ := minor_err hf ha hb hc he (A := 1.2501) (ha'.trans (by norm_num)) hb'
    (hc'.trans (by norm_num)) he' (by norm_num) (by norm_num)
  refine ⟨m1, ?_, m4.trans (by norm_num)⟩
  have t : (a * b - c * e).val - (a.val * B - c.val * E) =
      ((a * b - c * e).val - (a.val * b.val - c.val * e.val)) + (a.val * (b.val - B) - c.val * (e.val - E)) := by
    ring
  have p : |a.val * (b.val - B)| ≤ 5 / 4 * (3.6 * f.u) := by
    rw [abs_mul]; exact mul_le_mul ha' hB (abs_nonneg _) (by norm_num)
  have q : |c.val * (e.val - E)| ≤ 5 / 4 * (3.6 * f.u) := by
    rw [abs_mul]; exact mul_le_mul hc' hE (abs_nonneg _) (by norm_num)
  rw [t]
  refine (abs_add_le _ _).trans ((add_le_add_right (abs_sub _ _) _).trans ?_)
  norm_num at m2 p q ⊢; linarith

/-- three products bounded -/
theorem dot3_bound {a b : Fin 3 → ℚ} {p q : ℚ} (ha : ∀ i, |a i| ≤ p) (hb : ∀ i, |b i| ≤ q) :
    |a 0 * b 0 + a 1 * b 1 + a 2 * b 2| ≤ 3 * (p * q) := by
  have h : ∀ i, |a i * b i| ≤ p * q := fun i => by
    rw [abs_mul]; exact mul_le_mul (ha i) (hb i) (abs_nonneg _) (le_trans (abs_nonneg _) (ha i))
  refine (abs_add_le _ _).trans ((add_le_add_left (abs_add_le _ _) _).trans ?_)
  linarith [h 0, h 1, h 2]

/-- one row of the matrix: the computed cross product `c` of two primaries, near the exact `C`, normalised
with the white point `w`, near the exact `W` -/
theorem prim_row_err (hf : Std f) {c w : Fin 3 → FP f} {C W P : Fin 3 → ℚ} {δ : ℚ}
    (hc : ∀ i, (c i).isFinite = true ∧ |(c i).val - C i| ≤ 15.3 * f.u ∧ |(c i).val| ≤ 3.128)
    (hw : ∀ i, (w i).isFinite = true ∧ |(w i).val - W i| ≤ 3.6 * f.u ∧ |(w i).val| ≤ 1.2501)
    (hW : ∀ i, |W i| ≤ 5 / 4) (hw0 : (w 0).val = W 0) (hw1 : (w 1).val = W 1) (hy : 1 / 2 ^ 20 ≤ |W 1|)
    (hδ : δ ≤ |C 0 * W 0 + C 1 * W 1 + C 2 * W 2|) (hu : 2 ^ 14 * f.u ≤ δ) (h20 : 1 / 2 ^ 60 ≤ δ)
    (hP : ∀ i, |P i| ≤ 5 / 4) (hPC : C 0 * P 0 + C 1 * P 1 + C 2 * P 2 = 0) :
    (∀ i, (c i / ((c 0 * w 0 + c 1 * w 1 + c 2 * w 2) / w 1)).isFinite = true) ∧
    |(c 0 / ((c 0 * w 0 + c 1 * w 1 + c 2 * w 2) / w 1)).val * (W 0 / W 1) +
      (c 1 / ((c 0 * w 0 + c 1 * w 1 + c 2 * w 2) / w 1)).val * (W 1 / W 1) +
      (c 2 / ((c 0 * w 0 + c 1 * w 1 + c 2 * w 2) / w 1)).val * (W 2 / W 1) - 1| ≤ 85 * f.u / δ ∧
    |(c 0 / ((c 0 * w 0 + c 1 * w 1 + c 2 * w 2) / w 1)).val * P 0 +
      (c 1 / ((c 0 * w 0 + c 1 * w 1 + c 2 * w 2) / w 1)).val * P 1 +
      (c 2 / ((c 0 * w 0 + c 1 * w 1 + c 2 * w 2) / w 1)).val * P 2| ≤ 90 * f.u / δ := by
  have u0 := f.u_pos
  have u1 := hf.hu
  have e0 := f.eta_pos
  have e1 := hf.wide.heta
  have em := emax_big hf
  have δ0 : 0 < δ := lt_of_lt_of_le (by norm_num) h20
  have y0 : W 1 ≠ 0 := abs_pos.1 (lt_of_lt_of_le (by norm_num) hy)
  have ya : 0 < |W 1| := abs_pos.2 y0
  -- the numerator
  have tb : ∀ i, |(c i).val * (w i).val| ≤ 3.911 := fun i => by
    rw [abs_mul]
    refine (mul_le_mul (hc i).2.2 (hw i).2.2 (abs_nonneg _) (by norm_num)).trans (by norm_num)
  obtain ⟨n1, n2⟩ := dot3_err (hc 0).1 (hc 1).1 (hc 2).1 (hw 0).1 (hw 1).1 (hw 2).1
    (le_trans (by linarith [tb 0, tb 1, tb 2]) (le_trans (by norm_num : (3.911:ℚ) + 3.911 + 3.911 ≤ 2 ^ 126 / 2)
      (by linarith)))
  set n := c 0 * w 0 + c 1 * w 1 + c 2 * w 2 with hn
  have n3 : |n.val - ((c 0).val * (w 0).val + (c 1).val * (w 1).val + (c 2).val * (w 2).val)| ≤ 47 * f.u := by
    refine n2.trans ?_
    have : |(c 0).val * (w 0).val| + |(c 1).val * (w 1).val| + |(c 2).val * (w 2).val| ≤ 11.734 := by
      norm_num at tb ⊢; linarith [tb 0, tb 1, tb 2]
    have := mul_le_mul_of_nonneg_left this (by positivity : 0 ≤ 4 * f.u)
    norm_num at this e1 ⊢; linarith
  -- against the exact white
  have n4 : |n.val - ((c 0).val * W 0 + (c 1).val * W 1 + (c 2).val * W 2)| ≤ 58.3 * f.u := by
    have t : n.val - ((c 0).val * W 0 + (c 1).val * W 1 + (c 2).val * W 2) =
      (n.val - ((c 0).val * (w 0).val + (c 1).val * (w 1).val + (c 2).val * (w 2).val))
        + (c 2).val * ((w 2).val - W 2) := by rw [hw0, hw1]; ring
    have q : |(c 2).val * ((w 2).val - W 2)| ≤ 3.128 * (3.6 * f.u) := by
      rw [abs_mul]; exact mul_le_mul (hc 2).2.2 (hw 2).2.1 (abs_nonneg _) (by norm_num)
    rw [t]
    refine (abs_add_le _ _).trans ?_
    norm_num at n3 q ⊢; linarith
  -- against the exact cross product
  have n5 : |((c 0).val * W 0 + (c 1).val * W 1 + (c 2).val * W 2) - (C 0 * W 0 + C 1 * W 1 + C 2 * W 2)| ≤
      57.4 * f.u := by
    have := dot3_bound (a := fun i => (c i).val - C i) (b := W) (fun i => (hc i).2.1) hW
    have t : ((c 0).val * W 0 + (c 1).val * W 1 + (c 2).val * W 2) - (C 0 * W 0 + C 1 * W 1 + C 2 * W 2) =
      ((c 0).val - C 0) * W 0 + ((c 1).val - C 1) * W 1 + ((c 2).val - C 2) * W 2 := by ring
    rw [t]
    refine this.trans ?_
    norm_num; linarith
  have nl : 0.992 * δ ≤ |n.val| := by
    have a1 := abs_sub_abs_le_abs_sub (C 0 * W 0 + C 1 * W 1 + C 2 * W 2) n.val
    have a2 : |(C 0 * W 0 + C 1 * W 1 + C 2 * W 2) - n.val| ≤ 58.3 * f.u + 57.4 * f.u := by
      rw [abs_sub_comm]
      have t : n.val - (C 0 * W 0 + C 1 * W 1 + C 2 * W 2) =
        (n.val - ((c 0).val * W 0 + (c 1).val * W 1 + (c 2).val * W 2)) +
        (((c 0).val * W 0 + (c 1).val * W 1 + (c 2).val * W 2) - (C 0 * W 0 + C 1 * W 1 + C 2 * W 2)) := by ring
      rw [t]; exact (abs_add_le _ _).trans (add_le_add n4 n5)
    norm_num at hu a2 ⊢; linarith
  have nu : |n.val| ≤ 11.74 := by
    have := dot3_bound (a := fun i => (c i).val) (b := W) (fun i => (hc i).2.2) hW
    have := abs_near n4 this
    norm_num at u1 this ⊢; linarith
  -- dividing by y
  have hw1' : (w 1).val ≠ 0 := by rw [hw1]; exact y0
  obtain ⟨r1, r2⟩ := FP.div_err n1 (hw 1).1 hw1' (by
    rw [hw1, abs_div, div_le_iff₀ ya]
    refine nu.trans (le_trans ?_ (mul_le_mul em hy (by norm_num) (by positivity)))
    norm_num)
  rw [hw1] at r2
  set r := n / w 1 with hr
  have ry : |r.val * W 1 - n.val| ≤ 11.76 * f.u := by
    have t : r.val * W 1 - n.val = (r.val - n.val / W 1) * W 1 := by field_simp
    rw [t, abs_mul]
    have := mul_le_mul_of_nonneg_right r2 ya.le
    have t2 : (|n.val / W 1| * f.u + f.eta) * |W 1| = |n.val| * f.u + f.eta * |W 1| := by
      rw [abs_div]; field_simp
    rw [t2] at this
    have k1 := mul_le_mul_of_nonneg_right nu u0.le
    have k2 := mul_le_mul_of_nonneg_left (hW 1) e0.le
    norm_num at k1 k2 e1 ⊢; linarith
  have ryl : 0.991 * δ ≤ |r.val * W 1| := by
    have := abs_sub_abs_le_abs_sub n.val (r.val * W 1)
    rw [abs_sub_comm] at this
    have this := this.trans ry
    generalize |r.val * W 1| = q at this ⊢
    norm_num at hu nl this ⊢; linarith
  have ryp : 0 < |r.val * W 1| := lt_of_lt_of_le (by positivity) ryl
  have r0 : r.val ≠ 0 := fun h => by rw [h] at ryp; simp at ryp
  have ra : 0 < |r.val| := abs_pos.2 r0
  have rl : 0.79 * δ ≤ |r.val| := by
    rw [abs_mul] at ryl
    have := mul_le_mul_of_nonneg_left (hW 1) ra.le
    norm_num at this ryl ⊢; linarith
  -- the entries
  have ent : ∀ i, (c i / r).isFinite = true ∧
      |(c i / r).val - (c i).val / r.val| ≤ 3.128 * f.u / |r.val| + f.eta := by
    intro i
    obtain ⟨a, b⟩ := FP.div_err (hc i).1 r1 r0 (by
      rw [abs_div, div_le_iff₀ ra]
      refine (hc i).2.2.trans (le_trans ?_ (mul_le_mul em rl (by positivity) (by positivity)))
      norm_num at h20 ⊢; linarith)
    refine ⟨a, b.trans ?_⟩
    have : |(c i).val / r.val| * f.u ≤ 3.128 * f.u / |r.val| := by
      rw [abs_div, div_mul_eq_mul_div]
      exact div_le_div_of_nonneg_right (mul_le_mul_of_nonneg_right (hc i).2.2 u0.le) ra.le
    linarith
  have δ12 : δ ≤ 12 := by
    have := (abs_near n5 (le_refl |C 0 * W 0 + C 1 * W 1 + C 2 * W 2|))
    have := nl.trans nu
    norm_num at this ⊢; linarith
  have uδ : f.u / 12 ≤ f.u / δ := div_le_div_of_nonneg_left u0.le δ0 δ12
  have ud0 : 0 < f.u / δ := by positivity
  refine ⟨fun i => (ent i).1, ?_, ?_⟩
  · have t : (c 0 / r).val * (W 0 / W 1) + (c 1 / r).val * (W 1 / W 1) + (c 2 / r).val * (W 2 / W 1) - 1 =
        (((c 0 / r).val - (c 0).val / r.val) * W 0 + ((c 1 / r).val - (c 1).val / r.val) * W 1 +
          ((c 2 / r).val - (c 2).val / r.val) * W 2) / W 1 +
        (-(n.val - ((c 0).val * W 0 + (c 1).val * W 1 + (c 2).val * W 2)) - (r.val * W 1 - n.val)) /
          (r.val * W 1) := by
      field_simp; ring
    have a := dot3_bound (a := fun i => (c i / r).val - (c i).val / r.val) (b := W) (fun i => (ent i).2) hW
    have b1 : |(((c 0 / r).val - (c 0).val / r.val) * W 0 + ((c 1 / r).val - (c 1).val / r.val) * W 1 +
          ((c 2 / r).val - (c 2).val / r.val) * W 2) / W 1| ≤ 11.85 * (f.u / δ) := by
      rw [abs_div, div_le_iff₀ ya]
      refine a.trans ?_
      have k1 : 3.128 * f.u / |r.val| ≤ 3.157 * (f.u / δ) * |W 1| := by
        rw [div_le_iff₀ ra]
        have e : 3.157 * (f.u / δ) * |W 1| * |r.val| = 3.157 * (f.u / δ) * |r.val * W 1| := by
          rw [abs_mul]; ring
        rw [e]
        refine le_trans ?_ (mul_le_mul_of_nonneg_left ryl (by positivity))
        have e : 3.157 * (f.u / δ) * (0.991 * δ) = 3.157 * 0.991 * f.u := by field_simp
        rw [e]; norm_num; linarith
      have k2 : f.eta ≤ 1 / 1000 * (f.u / δ) * |W 1| := by
        have : f.u / 12 * (1 / 2 ^ 20) ≤ f.u / δ * |W 1| := mul_le_mul uδ hy (by norm_num) ud0.le
        norm_num at this e1 ⊢; linarith
      have k3 : 0 < f.u / δ * |W 1| := by positivity
      norm_num at k1 k2 ⊢; linarith
    have b2 : |(-(n.val - ((c 0).val * W 0 + (c 1).val * W 1 + (c 2).val * W 2)) - (r.val * W 1 - n.val)) /
          (r.val * W 1)| ≤ 70.8 * (f.u / δ) := by
      rw [abs_div, div_le_iff₀ ryp]
      refine (abs_sub _ _).trans ?_
      rw [abs_neg]
      refine (add_le_add n4 ry).trans (le_trans ?_ (mul_le_mul_of_nonneg_left ryl (by positivity)))
      have e : 70.8 * (f.u / δ) * (0.991 * δ) = 70.8 * 0.991 * f.u := by field_simp
      rw [e]; norm_num; linarith
    rw [t, mul_div_assoc]
    refine (abs_add_le _ _).trans ?_
    norm_num at b1 b2 ⊢; linarith
  · have t : (c 0 / r).val * P 0 + (c 1 / r).val * P 1 + (c 2 / r).val * P 2 =
        (((c 0 / r).val - (c 0).val / r.val) * P 0 + ((c 1 / r).val - (c 1).val / r.val) * P 1 +
          ((c 2 / r).val - (c 2).val / r.val) * P 2) +
        (((c 0).val - C 0) * P 0 + ((c 1).val - C 1) * P 1 + ((c 2).val - C 2) * P 2) / r.val := by
      have : ((c 0).val - C 0) * P 0 + ((c 1).val - C 1) * P 1 + ((c 2).val - C 2) * P 2 =
        (c 0).val * P 0 + (c 1).val * P 1 + (c 2).val * P 2 := by linear_combination -hPC
      rw [this]; field_simp; ring
    have inv : ∀ k : ℚ, 0 ≤ k → k * f.u / |r.val| ≤ 1.262 * k * (f.u / δ) := by
      intro k hk
      rw [div_le_iff₀ ra]
      have k1 : 0.991 * δ ≤ 5 / 4 * |r.val| := by
        rw [abs_mul] at ryl
        have := mul_le_mul_of_nonneg_left (hW 1) ra.le
        linarith
      have k2 := mul_le_mul_of_nonneg_left k1 (by positivity : 0 ≤ k * (f.u / δ))
      have e : k * (f.u / δ) * (0.991 * δ) = 0.991 * (k * f.u) := by field_simp
      rw [e] at k2
      have k3 : 0 ≤ k * (f.u / δ) * |r.val| := by positivity
      norm_num at k2 ⊢; linarith
    have a := dot3_bound (a := fun i => (c i / r).val - (c i).val / r.val) (b := P) (fun i => (ent i).2) hP
    have b := dot3_bound (a := fun i => (c i).val - C i) (b := P) (fun i => (hc i).2.1) hP
    have b1 : |(((c 0).val - C 0) * P 0 + ((c 1).val - C 1) * P 1 + ((c 2).val - C 2) * P 2) / r.val| ≤
        72.5 * (f.u / δ) := by
      rw [abs_div]
      refine (div_le_div_of_nonneg_right b ra.le).trans ?_
      have e : 3 * (15.3 * f.u * (5 / 4)) = 57.375 * f.u := by ring
      rw [e]
      refine (inv 57.375 (by norm_num)).trans ?_
      norm_num; linarith
    have k := inv 3.128 (by norm_num)
    rw [t, mul_div_assoc]
    refine (abs_add_le _ _).trans ((add_le_add a b1).trans ?_)
    norm_num at k e1 ⊢; linarith

end CS

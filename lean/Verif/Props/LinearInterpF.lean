import Verif.Props.Vspd
import Verif.Lemmas.FPNear
import Verif.Lemmas.FPMono

/-!
# Linear interpolation in floating point (C103)

`Spec.chord` is the exact straight line; everything else in the statements is the wavelengths and values
stored in the samples.
-/

namespace CS

/-- the point at `x` of the straight line through `(x0, y0)` and `(x1, y1)` -/
noncomputable def Spec.chord (x0 y0 x1 y1 x : ℝ) : ℝ := y0 + (x - x0) / (x1 - x0) * (y1 - y0)

theorem findIdx?_ext {α : Type} {p q : α → Bool} : ∀ {l : List α}, (∀ x ∈ l, p x = q x) →
    l.findIdx? p = l.findIdx? q
  | [], _ => rfl
  | a :: l, h => by
    rw [List.findIdx?_cons, List.findIdx?_cons, h a (by simp),
      findIdx?_ext (l := l) fun x hx => h x (List.mem_cons_of_mem _ hx)]

section
variable {f : Fmt}

/-- what is asked of the spectrum: at least one sample, finite wavelengths and values up to `2^38`, increasing
wavelengths -/
structure Spec.Increasing (s : VSPD (FP f)) (a z : Sample (FP f)) : Prop where
  first : s.samples.head? = some a
  last : s.samples.getLast? = some z
  nm : ∀ p ∈ s.samples, p.nm.isFinite = true ∧ |(p.nm.val : ℝ)| ≤ 2 ^ 38
  v : ∀ p ∈ s.samples, p.v.isFinite = true ∧ |(p.v.val : ℝ)| ≤ 2 ^ 38
  incr : s.samples.Pairwise fun p q => p.nm.val < q.nm.val

variable [Libm f]

theorem linear_left {s : VSPD (FP f)} {a : Sample (FP f)} (ha : s.samples.head? = some a) {x : FP f}
    (hx : FP.le x a.nm = true) : linearEval s x = .ok a.v := by
  unfold linearEval VSPD.first unwrap
  rw [ha]
  show (if FP.le x a.nm = true then _ else _) = _
  rw [if_pos hx]

theorem linear_right {s : VSPD (FP f)} {a z : Sample (FP f)} (ha : s.samples.head? = some a)
    (hz : s.samples.getLast? = some z) {x : FP f} (hx : ¬ FP.le x a.nm = true) (hx' : FP.le z.nm x = true) :
    linearEval s x = .ok z.v := by
  unfold linearEval VSPD.first VSPD.last unwrap
  rw [ha, hz]
  show (if FP.le x a.nm = true then _ else if FP.le z.nm x = true then _ else _) = _
  rw [if_neg hx, if_pos hx']

theorem linear_mid {s : VSPD (FP f)} {a z : Sample (FP f)} (h : Spec.Increasing s a z) {x : FP f}
    (hxf : x.isFinite = true) (hx : a.nm.val < x.val) (hx' : x.val < z.nm.val) (i : ℕ)
    (hi : i + 1 < s.samples.length) (h1 : s.samples[i].nm.val ≤ x.val) (h2 : x.val < s.samples[i + 1].nm.val) :
    linearEval s x = .ok ((FP.lit 1 - (x - s.samples[i].nm) / (s.samples[i + 1].nm - s.samples[i].nm))
      * s.samples[i].v + (x - s.samples[i].nm) / (s.samples[i + 1].nm - s.samples[i].nm)
      * s.samples[i + 1].v) := by
  have am : a ∈ s.samples := List.mem_of_mem_head? h.first
  have zm : z ∈ s.samples := List.mem_of_mem_getLast? h.last
  have hfi := findIdx?_sorted (fun p : Sample (FP f) => (p.nm.val : ℝ)) s.samples
    (List.pairwise_map.2 (h.incr.imp fun hpq => by exact_mod_cast hpq.le)) (x.val : ℝ) i hi
    (by exact_mod_cast h1) (by exact_mod_cast h2)
  have e : (s.samples.findIdx? fun p => Flt.lt x p.nm) = some (i + 1) := by
    rw [← hfi]
    refine findIdx?_ext fun p hp => ?_
    show FP.lt x p.nm = _
    rw [FP.lt_finite hxf (h.nm p hp).1]
    exact decide_eq_decide.2 (by norm_cast)
  unfold linearEval VSPD.first VSPD.last unwrap
  rw [h.first, h.last]
  show (if FP.le x a.nm = true then _ else if FP.le z.nm x = true then _ else _) = _
  rw [FP.le_finite hxf (h.nm a am).1, FP.le_finite (h.nm z zm).1 hxf, if_neg (by simpa using hx),
    if_neg (by simpa using hx'), e]
  unfold usub idx
  simp only [List.getElem?_eq_getElem hi, List.getElem?_eq_getElem (by omega : i < s.samples.length),
    Nat.add_sub_cancel, if_pos (show 1 ≤ i + 1 by omega), Except.bind, bind]
  rfl

/-- the rounded position between two wavelengths -/
theorem frac_err (hf : Std f) {a b x : FP f} (ha : a.isFinite = true) (hb : b.isFinite = true)
    (hx : x.isFinite = true) (hA : |(a.val : ℝ)| ≤ 2 ^ 38) (hB : |(b.val : ℝ)| ≤ 2 ^ 38)
    (h1 : a.val ≤ x.val) (h2 : x.val ≤ b.val) (h3 : a.val < b.val) :
    ((x - a) / (b - a)).isFinite = true ∧
    |(((x - a) / (b - a)).val : ℝ) - (x.val - a.val) / (b.val - a.val)| ≤ 3.1 * f.u := by
  obtain ⟨u0, u1, e1, _⟩ := u_facts hf
  have h1r : (a.val : ℝ) ≤ x.val := by exact_mod_cast h1
  have h2r : (x.val : ℝ) ≤ b.val := by exact_mod_cast h2
  have h3r : (a.val : ℝ) < b.val := by exact_mod_cast h3
  obtain ⟨A1, A2⟩ := abs_le.1 hA
  obtain ⟨B1, B2⟩ := abs_le.1 hB
  obtain ⟨f1, r1⟩ := FP.sub_err hx ha (Nr.small_abs hf (by push_cast; rw [abs_le]; constructor <;> linarith))
  obtain ⟨f2, r2⟩ := FP.sub_err hb ha (Nr.small_abs hf (by push_cast; rw [abs_le]; constructor <;> linarith))
  have r1' : |((x - a).val : ℝ) - (x.val - a.val)| ≤ |(x.val - a.val : ℝ)| * f.u := by exact_mod_cast r1
  have r2' : |((b - a).val : ℝ) - (b.val - a.val)| ≤ |(b.val - a.val : ℝ)| * f.u := by exact_mod_cast r2
  set D : ℝ := b.val - a.val with hD
  set N : ℝ := x.val - a.val with hN
  have D0 : 0 < D := by linarith
  have N0 : 0 ≤ N := by linarith
  have ND : N ≤ D := by linarith
  rw [abs_of_nonneg N0] at r1'
  rw [abs_of_pos D0] at r2'
  obtain ⟨n1, n2⟩ := abs_le.1 r1'
  obtain ⟨d1, d2⟩ := abs_le.1 r2'
  have Du : D * f.u ≤ D * (1 / 2 ^ 24) := mul_le_mul_of_nonneg_left u1 D0.le
  have Nu : N * f.u ≤ N * (1 / 2 ^ 24) := mul_le_mul_of_nonneg_left u1 N0
  have NDu : N * f.u ≤ D * f.u := mul_le_mul_of_nonneg_right ND u0.le
  have dpos : (0:ℝ) < (b - a).val := by norm_num at Du; linarith
  have hq : |((x - a).val : ℝ) / (b - a).val - N / D| ≤ 2.01 * f.u := by
    rw [div_sub_div _ _ dpos.ne' D0.ne', abs_div, abs_of_pos (mul_pos dpos D0), div_le_iff₀ (mul_pos dpos D0)]
    have : ((x - a).val : ℝ) * D - (b - a).val * N
        = (((x - a).val : ℝ) - N) * D - (((b - a).val : ℝ) - D) * N := by ring
    rw [this]
    have t1 : |(((x - a).val : ℝ) - N) * D| ≤ N * f.u * D := by
      rw [abs_mul, abs_of_pos D0]; exact mul_le_mul_of_nonneg_right r1' D0.le
    have t2 : |(((b - a).val : ℝ) - D) * N| ≤ D * f.u * N := by
      rw [abs_mul, abs_of_nonneg N0]; exact mul_le_mul_of_nonneg_right r2' N0
    have t3 := abs_sub (((x - a).val - N) * D) ((((b - a).val : ℝ) - D) * N)
    have t4 : D * f.u * N ≤ D * f.u * D := mul_le_mul_of_nonneg_left ND (by positivity)
    have t5 : D * 0.9999 ≤ (b - a).val := by norm_num at Du ⊢; linarith
    have t6 : 2.01 * f.u * (D * 0.9999 * D) ≤ 2.01 * f.u * (((b - a).val : ℝ) * D) :=
      mul_le_mul_of_nonneg_left (mul_le_mul_of_nonneg_right t5 D0.le) (by positivity)
    have t7 : 0 ≤ f.u * D * D := by positivity
    refine le_trans t3 (le_trans (add_le_add t1 t2) (le_trans ?_ t6))
    norm_num
    nlinarith
  have hnd : N / D ≤ 1 := by rw [div_le_one D0]; exact ND
  have hnd0 : 0 ≤ N / D := div_nonneg N0 D0.le
  obtain ⟨q1, q2⟩ := abs_le.1 hq
  have habs : |((x - a).val : ℝ) / (b - a).val| ≤ 1.01 := by
    rw [abs_le]; norm_num at u1 ⊢; constructor <;> linarith
  obtain ⟨f3, r3⟩ := FP.div_err f1 f2 (by exact_mod_cast dpos.ne')
    (Nr.small_abs hf (by push_cast; exact habs.trans (by norm_num)))
  refine ⟨f3, ?_⟩
  have r3' : |(((x - a) / (b - a)).val : ℝ) - (x - a).val / (b - a).val|
      ≤ |((x - a).val / (b - a).val : ℝ)| * f.u + f.eta := by exact_mod_cast r3
  have r4 := r3'.trans (add_le_add_left (mul_le_mul_of_nonneg_right habs u0.le) _)
  have := abs_sub_le (((x - a) / (b - a)).val : ℝ) ((x - a).val / (b - a).val) (N / D)
  norm_num at e1 ⊢
  norm_num at r4 hq
  linarith

set_option maxHeartbeats 1000000 in
/-- the rounded weighted mean of two values -/
theorem mix_err (hf : Std f) {d v w : FP f} {D V : ℝ} (hd : d.isFinite = true) (hv : v.isFinite = true)
    (hw : w.isFinite = true) (D0 : 0 ≤ D) (D1 : D ≤ 1) (he : |(d.val : ℝ) - D| ≤ 3.1 * f.u)
    (hV : |(v.val : ℝ)| ≤ V) (hW : |(w.val : ℝ)| ≤ V) (hVb : V ≤ 2 ^ 38) :
    ((FP.lit 1 - d) * v + d * w).isFinite = true ∧
    |(((FP.lit 1 - d) * v + d * w).val : ℝ) - (v.val + D * (w.val - v.val))| ≤ 11 * f.u * V + 4 * f.eta := by
  obtain ⟨u0, u1, e1, e0⟩ := u_facts hf
  have V0 : 0 ≤ V := (abs_nonneg _).trans hV
  obtain ⟨o1, o2⟩ : (FP.lit 1 : FP f).isFinite = true ∧ (FP.lit 1 : FP f).val = 1 := by
    rw [FP.lit_one]; exact ⟨rfl, rfl⟩
  obtain ⟨p1, p2⟩ := abs_le.1 he
  have small : (3.1 : ℝ) * f.u ≤ 1 / 2 ^ 22 := by norm_num at u1 ⊢; linarith
  have hc : |((FP.lit 1 : FP f).val - d.val : ℚ)| ≤ 2 ^ f.emax :=
    Nr.small_abs hf (by push_cast; rw [o2, abs_le]; push_cast; norm_num at small ⊢; constructor <;> linarith)
  obtain ⟨f1, r1⟩ := FP.sub_err o1 hd hc
  rw [o2] at r1
  have r1' : |((FP.lit 1 - d).val : ℝ) - (1 - d.val)| ≤ |(1 - d.val : ℝ)| * f.u := by exact_mod_cast r1
  have c1 : |(1 - d.val : ℝ)| ≤ 1.01 := by
    rw [abs_le]; norm_num at small ⊢; constructor <;> linarith
  have r2 : |((FP.lit 1 - d).val : ℝ) - (1 - D)| ≤ 4.2 * f.u := by
    have := abs_sub_le ((FP.lit 1 - d).val : ℝ) (1 - d.val) (1 - D)
    have t : |(1 - d.val : ℝ) - (1 - D)| = |(d.val : ℝ) - D| := by
      rw [← abs_neg]; congr 1; ring
    have s := r1'.trans (mul_le_mul_of_nonneg_right c1 u0.le)
    rw [t] at this
    norm_num at s he ⊢
    linarith
  have r2b : (4.2 : ℝ) * f.u ≤ 0.001 := by norm_num at u1 ⊢; linarith
  have c2 : |((FP.lit 1 - d).val : ℝ)| ≤ 1.01 := by
    obtain ⟨q1, q2⟩ := abs_le.1 r2
    rw [abs_le]; norm_num at r2b q1 q2 ⊢; constructor <;> linarith
  have c3 : |(d.val : ℝ)| ≤ 1.01 := by
    rw [abs_le]; norm_num at small p1 p2 ⊢; constructor <;> linarith
  have m1 : |((FP.lit 1 - d).val : ℝ) * v.val| ≤ 1.01 * V := by
    rw [abs_mul]; exact mul_le_mul c2 hV (abs_nonneg _) (by norm_num)
  have m2 : |(d.val : ℝ) * w.val| ≤ 1.01 * V := by
    rw [abs_mul]; exact mul_le_mul c3 hW (abs_nonneg _) (by norm_num)
  have big : (1.01 : ℝ) * V ≤ 2 ^ 40 := by norm_num at hVb ⊢; linarith
  obtain ⟨f2, s1⟩ := FP.mul_err f1 hv (Nr.small_abs hf (by push_cast; exact m1.trans big))
  obtain ⟨f3, s2⟩ := FP.mul_err hd hw (Nr.small_abs hf (by push_cast; exact m2.trans big))
  have s1' : |(((FP.lit 1 - d) * v).val : ℝ) - (FP.lit 1 - d).val * v.val|
      ≤ |((FP.lit 1 - d).val : ℝ) * v.val| * f.u + f.eta := by exact_mod_cast s1
  have s2' : |((d * w).val : ℝ) - d.val * w.val| ≤ |(d.val : ℝ) * w.val| * f.u + f.eta := by exact_mod_cast s2
  have s1'' := s1'.trans (add_le_add_left (mul_le_mul_of_nonneg_right m1 u0.le) _)
  have s2'' := s2'.trans (add_le_add_left (mul_le_mul_of_nonneg_right m2 u0.le) _)
  have g1 : |((FP.lit 1 - d).val : ℝ) * v.val - (1 - D) * v.val| ≤ 4.2 * f.u * V := by
    rw [← sub_mul, abs_mul]; exact mul_le_mul r2 hV (abs_nonneg _) (by positivity)
  have g2 : |(d.val : ℝ) * w.val - D * w.val| ≤ 3.1 * f.u * V := by
    rw [← sub_mul, abs_mul]; exact mul_le_mul he hW (abs_nonneg _) (by positivity)
  have k1 := abs_sub_le (((FP.lit 1 - d) * v).val : ℝ) ((FP.lit 1 - d).val * v.val) ((1 - D) * v.val)
  have k2 := abs_sub_le ((d * w).val : ℝ) (d.val * w.val) (D * w.val)
  have uV : f.u * V ≤ 1 / 2 ^ 24 * V := mul_le_mul_of_nonneg_right u1 V0
  have uV0 : 0 ≤ f.u * V := by positivity
  have eta1 : (f.eta : ℝ) ≤ 1 := by norm_num at e1 u1 ⊢; linarith
  have exact1 : |(v.val + D * (w.val - v.val) : ℝ)| ≤ V := by
    obtain ⟨v1, v2⟩ := abs_le.1 hV
    obtain ⟨w1, w2⟩ := abs_le.1 hW
    rw [abs_le]
    constructor <;> nlinarith
  have sumerr : |((((FP.lit 1 - d) * v).val : ℝ) + (d * w).val) - (v.val + D * (w.val - v.val))|
      ≤ 9.4 * (f.u * V) + 2 * f.eta := by
    have : ((((FP.lit 1 - d) * v).val : ℝ) + (d * w).val) - (v.val + D * (w.val - v.val))
        = ((((FP.lit 1 - d) * v).val : ℝ) - (1 - D) * v.val) + ((d * w).val - D * w.val) := by ring
    rw [this]
    refine (abs_add_le _ _).trans ?_
    norm_num at s1'' s2'' g1 g2 ⊢
    nlinarith
  have tot : |(((FP.lit 1 - d) * v).val : ℝ) + (d * w).val| ≤ V + (9.4 * (f.u * V) + 2 * f.eta) := by
    have := abs_sub_abs_le_abs_sub ((((FP.lit 1 - d) * v).val : ℝ) + (d * w).val) (v.val + D * (w.val - v.val))
    linarith
  obtain ⟨f4, s3⟩ := FP.add_err f2 f3 (Nr.small_abs hf (by
    push_cast; refine tot.trans ?_; norm_num at uV hVb ⊢; linarith))
  refine ⟨f4, ?_⟩
  have s3' : |((((FP.lit 1 - d) * v + d * w)).val : ℝ) - (((FP.lit 1 - d) * v).val + (d * w).val)|
      ≤ |(((FP.lit 1 - d) * v).val : ℝ) + (d * w).val| * f.u := by exact_mod_cast s3
  have s3'' := s3'.trans (mul_le_mul_of_nonneg_right tot u0.le)
  have k3 := abs_sub_le ((((FP.lit 1 - d) * v + d * w)).val : ℝ) (((FP.lit 1 - d) * v).val + (d * w).val)
    (v.val + D * (w.val - v.val))
  have p1 : f.u * V * f.u ≤ f.u * V * (1 / 2 ^ 24) := mul_le_mul_of_nonneg_left u1 uV0
  have p2 : (f.eta : ℝ) * f.u ≤ f.eta * 1 := mul_le_mul_of_nonneg_left (by norm_num at u1; linarith) e0.le
  have q : (V + (9.4 * (f.u * V) + 2 * f.eta)) * f.u = f.u * V + 9.4 * (f.u * V * f.u) + 2 * (f.eta * f.u) := by
    ring
  rw [q] at s3''
  clear s3' s1' s2' s1'' s2'' tot q
  norm_num at s3'' sumerr p1 ⊢
  linarith

omit [Libm f] in
theorem not_nan_of_fin {x : FP f} (h : x.isFinite = true) : x.isNaN = false := by
  cases x <;> first | rfl | cases h

/-- a number between two finite numbers is finite -/
theorem fin_of_between {a x b : FP f} (ha : a.isFinite = true) (hb : b.isFinite = true)
    (h1 : Flt.le a x = true) (h2 : Flt.le x b = true) :
    x.isFinite = true ∧ a.val ≤ x.val ∧ x.val ≤ b.val := by
  change FP.le a x = true at h1
  change FP.le x b = true at h2
  have hx : x.isFinite = true := by
    cases x with
    | nan => cases a <;> cases h1
    | pinf => rw [pinf_le h2] at hb; cases hb
    | ninf => cases a <;> simp_all [FP.le, FP.ext, FP.isFinite]
    | nzero => rfl
    | fin q hq => rfl
  rw [FP.le_finite ha hx] at h1
  rw [FP.le_finite hx hb] at h2
  exact ⟨hx, by simpa using h1, by simpa using h2⟩

omit [Libm f] in
/-- at the left sample itself nothing is rounded -/
theorem mix_zero (hf : Std f) {d v w : FP f} (hd : d.isFinite = true) (hd0 : d.val = 0) (hv : v.isFinite = true)
    (hw : w.isFinite = true) :
    ((FP.lit 1 - d) * v + d * w).isFinite = true ∧ ((FP.lit 1 - d) * v + d * w).val = v.val := by
  obtain ⟨o1, o2⟩ : (FP.lit 1 : FP f).isFinite = true ∧ (FP.lit 1 : FP f).val = 1 := by
    rw [FP.lit_one]; exact ⟨rfl, rfl⟩
  have r1 : roundQ f 1 = 1 := by have := (FP.lit 1 : FP f).round_val; rwa [o2] at this
  have r0 : roundQ f 0 = 0 := by have := d.round_val; rwa [hd0] at this
  have rv := v.round_val
  have vlt : |v.val| < 2 ^ (f.emax + 1) := v.val_rep.2
  obtain ⟨a1, a2⟩ := FP.sub_finite o1 hd (by
    rw [o2, hd0, sub_zero, r1]
    exact roundQ_lt (f := f) (q := 1) (Nr.small_abs hf (by norm_num)) |> fun h => by rwa [r1] at h)
  rw [o2, hd0, sub_zero, r1] at a2
  obtain ⟨b1, b2⟩ := FP.mul_finite' a1 hv (by rw [a2, one_mul, rv]; exact vlt)
  rw [a2, one_mul, rv] at b2
  obtain ⟨c1, c2⟩ := FP.mul_finite' hd hw (by rw [hd0, zero_mul, r0]; simp)
  rw [hd0, zero_mul, r0] at c2
  obtain ⟨d1, d2⟩ := FP.add_finite b1 c1 (by rw [b2, c2, add_zero, rv]; exact vlt)
  rw [b2, c2, add_zero, rv] at d2
  exact ⟨d1, d2⟩

omit [Libm f] in
/-- the samples of a spectrum are in order -/
theorem Spec.Increasing.lt {s : VSPD (FP f)} {a z : Sample (FP f)} (h : Spec.Increasing s a z) {j k : ℕ}
    (hj : j < s.samples.length) (hk : k < s.samples.length) (hjk : j < k) :
    s.samples[j].nm.val < s.samples[k].nm.val :=
  List.pairwise_iff_getElem.1 h.incr j k hj hk hjk

omit [Libm f] in
theorem Spec.Increasing.len {s : VSPD (FP f)} {a z : Sample (FP f)} (h : Spec.Increasing s a z) :
    0 < s.samples.length :=
  List.length_pos_of_mem (List.mem_of_mem_head? h.first)

omit [Libm f] in
theorem Spec.Increasing.zero {s : VSPD (FP f)} {a z : Sample (FP f)} (h : Spec.Increasing s a z) :
    s.samples[0]'h.len = a := by
  have := h.first
  rw [List.head?_eq_getElem?, List.getElem?_eq_getElem h.len] at this
  exact Option.some.inj this

omit [Libm f] in
theorem Spec.Increasing.end' {s : VSPD (FP f)} {a z : Sample (FP f)} (h : Spec.Increasing s a z) :
    s.samples[s.samples.length - 1]'(by have := h.len; omega) = z := by
  have := h.last
  rw [List.getLast?_eq_getElem?, List.getElem?_eq_getElem (by have := h.len; omega)] at this
  exact Option.some.inj this

/-- strictly between two neighbours, or at the left one -/
theorem linear_between (hf : Std f) {s : VSPD (FP f)} {a z : Sample (FP f)} (h : Spec.Increasing s a z)
    {x : FP f} (hxf : x.isFinite = true) (hx : a.nm.val < x.val) (hx' : x.val < z.nm.val) (i : ℕ)
    (hi : i + 1 < s.samples.length) (h1 : s.samples[i].nm.val ≤ x.val) (h2 : x.val < s.samples[i + 1].nm.val) :
    ∃ v, linearEval s x = .ok v ∧ v.isFinite = true ∧
      |(v.val : ℝ) - Spec.chord s.samples[i].nm.val s.samples[i].v.val s.samples[i + 1].nm.val
        s.samples[i + 1].v.val x.val|
        ≤ 11 * f.u * max |(s.samples[i].v.val : ℝ)| |(s.samples[i + 1].v.val : ℝ)| + 4 * f.eta ∧
      (x.val = s.samples[i].nm.val → v.val = s.samples[i].v.val) := by
  have pm : s.samples[i] ∈ s.samples := List.getElem_mem _
  have qm : s.samples[i + 1] ∈ s.samples := List.getElem_mem _
  have hpq := h.lt (by omega) hi (Nat.lt_succ_self i)
  obtain ⟨d1, d2⟩ := frac_err hf (h.nm _ pm).1 (h.nm _ qm).1 hxf (h.nm _ pm).2 (h.nm _ qm).2 h1 h2.le hpq
  have h1r : (s.samples[i].nm.val : ℝ) ≤ x.val := by exact_mod_cast h1
  have h2r : (x.val : ℝ) < s.samples[i + 1].nm.val := by exact_mod_cast h2
  have D0 : (0:ℝ) < (s.samples[i + 1].nm.val : ℝ) - s.samples[i].nm.val := by linarith
  obtain ⟨m1, m2⟩ := mix_err hf d1 (h.v _ pm).1 (h.v _ qm).1 (div_nonneg (by linarith) D0.le)
    (by rw [div_le_one D0]; linarith) d2 (le_max_left _ _) (le_max_right _ _)
    (max_le (h.v _ pm).2 (h.v _ qm).2)
  refine ⟨_, linear_mid h hxf hx hx' i hi h1 h2, m1, m2, fun e => ?_⟩
  refine (mix_zero hf d1 ?_ (h.v _ pm).1 (h.v _ qm).1).2
  have r0 : roundQ f 0 = 0 := by
    have := (FP.lit 0 : FP f).round_val
    have e : (FP.lit 0 : FP f).val = 0 := by rw [FP.lit_zero]; rfl
    rwa [e] at this
  obtain ⟨a1, a2⟩ := FP.sub_finite hxf (h.nm _ pm).1 (by rw [e, sub_self, r0]; simp)
  rw [e, sub_self, r0] at a2
  obtain ⟨b1, b2⟩ := FP.sub_err (h.nm _ qm).1 (h.nm _ pm).1 (Nr.small_abs hf (by
    have A := abs_le.1 (h.nm _ pm).2
    have B := abs_le.1 (h.nm _ qm).2
    push_cast; rw [abs_le]; constructor <;> linarith))
  have hne : (s.samples[i + 1].nm - s.samples[i].nm).val ≠ 0 := by
    intro h0
    have dq : 0 < s.samples[i + 1].nm.val - s.samples[i].nm.val := by linarith
    rw [h0, zero_sub, abs_neg, abs_of_pos dq] at b2
    have := hf.hu
    nlinarith
  obtain ⟨c1, c2⟩ := FP.div_finite' a1 b1 hne (by rw [a2, zero_div, r0]; simp)
  rw [c2, a2, zero_div, r0]

/-! ## C103 -/

/-- C103 [F]: evaluation never panics unless the wavelength is NaN, and the result is a finite number. -/
theorem C103_total (hf : Std f) (s : VSPD (FP f)) (a z : Sample (FP f)) (h : Spec.Increasing s a z) (x : FP f)
    (hx : x ≠ .nan) : ∃ v, linearEval s x = .ok v ∧ v.isFinite = true := by
  have am : a ∈ s.samples := List.mem_of_mem_head? h.first
  have zm : z ∈ s.samples := List.mem_of_mem_getLast? h.last
  by_cases h0 : FP.le x a.nm = true
  · exact ⟨_, linear_left h.first h0, (h.v a am).1⟩
  by_cases h1 : FP.le z.nm x = true
  · exact ⟨_, linear_right h.first h.last h0 h1, (h.v z zm).1⟩
  have hxf : x.isFinite = true := by
    have a1 := (h.nm a am).1
    have z1 := (h.nm z zm).1
    cases x with
    | nan => exact absurd rfl hx
    | pinf => exact absurd (FP.le_pinf (not_nan_of_fin z1)) h1
    | ninf => exact absurd (FP.ninf_le (not_nan_of_fin a1)) h0
    | nzero => rfl
    | fin q hq => rfl
  rw [FP.le_finite hxf (h.nm a am).1] at h0
  rw [FP.le_finite (h.nm z zm).1 hxf] at h1
  have h0' : a.nm.val < x.val := by simpa using h0
  have h1' : x.val < z.nm.val := by simpa using h1
  obtain ⟨i, hi, ha, hb⟩ := exists_bracket (fun p : Sample (FP f) => (p.nm.val : ℝ)) s.samples x.val a z h.first
    h.last (by exact_mod_cast h0'.le) (by exact_mod_cast h1')
  obtain ⟨v, e, v1, _⟩ := linear_between hf h hxf h0' h1' i hi (by exact_mod_cast ha) (by exact_mod_cast hb)
  exact ⟨v, e, v1⟩

/-- C103 [F]: a NaN wavelength panics. -/
theorem C103_nan (s : VSPD (FP f)) : ∃ e, linearEval s .nan = .error e := by
  unfold linearEval VSPD.first VSPD.last unwrap
  cases h : s.samples.head? with
  | none => exact ⟨_, rfl⟩
  | some a =>
    cases h2 : s.samples.getLast? with
    | none => exact ⟨_, rfl⟩
    | some z =>
      have e : (s.samples.findIdx? fun p => Flt.lt (.nan : FP f) p.nm) = none := by
        rw [List.findIdx?_eq_none_iff]
        intro p _
        rfl
      refine ⟨.unwrap, ?_⟩
      have l1 : Flt.le (FP.nan : FP f) a.nm = false := rfl
      have l2 : Flt.ge (FP.nan : FP f) z.nm = false := by
        show FP.le z.nm .nan = false
        cases z.nm <;> rfl
      simp [bind, Except.bind, l1, l2, e]

/-- C103 [F]: at and beyond the ends, infinite wavelengths included, the end samples are returned unchanged. -/
theorem C103_ends (s : VSPD (FP f)) (a z : Sample (FP f)) (h : Spec.Increasing s a z) (x : FP f) :
    (Flt.le x a.nm = true → linearEval s x = .ok a.v) ∧ (Flt.le z.nm x = true → linearEval s x = .ok z.v) := by
  refine ⟨linear_left h.first, fun hx => ?_⟩
  by_cases h0 : FP.le x a.nm = true
  · have am : a ∈ s.samples := List.mem_of_mem_head? h.first
    have zm : z ∈ s.samples := List.mem_of_mem_getLast? h.last
    have za := FP.le_trans' hx h0
    rw [FP.le_finite (h.nm z zm).1 (h.nm a am).1] at za
    have za' : z.nm.val ≤ a.nm.val := by simpa using za
    have e : a = z := by
      refine h.zero.symm.trans (Eq.trans ?_ h.end')
      congr 1
      by_contra hne
      have := h.lt h.len (by have := h.len; omega) (Nat.pos_of_ne_zero (Ne.symm hne))
      rw [h.zero, h.end'] at this
      exact absurd za' (not_le.2 this)
    rw [linear_left h.first h0, e]
  · exact linear_right h.first h.last h0 hx

/-- C103 [F]: between two neighbouring samples the result is within eleven roundings of the larger value of the
exact straight line. -/
theorem C103_between (hf : Std f) (s : VSPD (FP f)) (a z : Sample (FP f)) (h : Spec.Increasing s a z) (i : ℕ)
    (p q : Sample (FP f)) (hp : s.samples[i]? = some p) (hq : s.samples[i + 1]? = some q) (x : FP f)
    (h1 : Flt.le p.nm x = true) (h2 : Flt.le x q.nm = true) :
    ∃ v, linearEval s x = .ok v ∧ v.isFinite = true ∧
      |(v.val : ℝ) - Spec.chord p.nm.val p.v.val q.nm.val q.v.val x.val|
        ≤ 11 * f.u * max |(p.v.val : ℝ)| |(q.v.val : ℝ)| + 4 * f.eta := by
  obtain ⟨hi, rfl⟩ := List.getElem?_eq_some_iff.1 hp
  obtain ⟨hi1, rfl⟩ := List.getElem?_eq_some_iff.1 hq
  have pm : s.samples[i] ∈ s.samples := List.getElem_mem _
  have qm : s.samples[i + 1] ∈ s.samples := List.getElem_mem _
  obtain ⟨hxf, x1, x2⟩ := fin_of_between (h.nm _ pm).1 (h.nm _ qm).1 h1 h2
  have hpq := h.lt hi hi1 (Nat.lt_succ_self i)
  have hpq' : (s.samples[i].nm.val : ℝ) < s.samples[i + 1].nm.val := by exact_mod_cast hpq
  obtain ⟨u0, _, _, e0⟩ := u_facts hf
  have right : ∀ v : FP f, x.val = s.samples[i + 1].nm.val → v.val = s.samples[i + 1].v.val →
      |(v.val : ℝ) - Spec.chord s.samples[i].nm.val s.samples[i].v.val s.samples[i + 1].nm.val
        s.samples[i + 1].v.val x.val|
        ≤ 11 * f.u * max |(s.samples[i].v.val : ℝ)| |(s.samples[i + 1].v.val : ℝ)| + 4 * f.eta := by
    intro v e1 e2
    have : Spec.chord s.samples[i].nm.val s.samples[i].v.val s.samples[i + 1].nm.val
        s.samples[i + 1].v.val x.val = v.val := by
      rw [e1, e2, Spec.chord, div_self (by linarith)]; ring
    rw [this, sub_self, abs_zero]
    positivity
  have left : ∀ v : FP f, x.val = s.samples[i].nm.val → v.val = s.samples[i].v.val →
      |(v.val : ℝ) - Spec.chord s.samples[i].nm.val s.samples[i].v.val s.samples[i + 1].nm.val
        s.samples[i + 1].v.val x.val|
        ≤ 11 * f.u * max |(s.samples[i].v.val : ℝ)| |(s.samples[i + 1].v.val : ℝ)| + 4 * f.eta := by
    intro v e1 e2
    have : Spec.chord s.samples[i].nm.val s.samples[i].v.val s.samples[i + 1].nm.val
        s.samples[i + 1].v.val x.val = v.val := by
      rw [e1, e2, Spec.chord, sub_self, zero_div]; ring
    rw [this, sub_self, abs_zero]
    positivity
  rcases eq_or_lt_of_le x2 with e2 | x2
  · rcases Nat.lt_or_ge (i + 2) s.samples.length with h3 | h3
    · obtain ⟨v, e, v1, _, v2⟩ := linear_between hf h hxf
        (by rw [e2, ← h.zero]; exact h.lt _ _ (by omega))
        (by rw [e2, ← h.end']; exact h.lt _ _ (by omega)) (i + 1) h3 e2.ge
        (by rw [e2]; exact h.lt _ _ (Nat.lt_succ_self _))
      exact ⟨v, e, v1, right v e2 (v2 e2)⟩
    · have ez : s.samples[i + 1] = z := by rw [← h.end']; congr 1; omega
      refine ⟨_, (C103_ends s a z h x).2 ?_, ?_, right _ e2 ?_⟩
      · show FP.le z.nm x = true
        rw [FP.le_finite (ez ▸ (h.nm _ qm).1) hxf]
        rw [ez] at e2
        simpa using e2.ge
      · rw [← ez]; exact (h.v _ qm).1
      · rw [ez]
  have hz : x.val < z.nm.val := by
    rcases Nat.lt_or_ge (i + 2) s.samples.length with h3 | h3
    · rw [← h.end']; exact x2.trans (h.lt _ _ (by omega))
    · have ez : s.samples[i + 1] = z := by rw [← h.end']; congr 1; omega
      rw [← ez]; exact x2
  by_cases ha : a.nm.val < x.val
  · obtain ⟨v, e, v1, v2, _⟩ := linear_between hf h hxf ha hz i hi1 x1 x2
    exact ⟨v, e, v1, v2⟩
  · have i0 : i = 0 := by
      by_contra hne
      refine ha (lt_of_lt_of_le ?_ x1)
      rw [← h.zero]; exact h.lt _ _ (Nat.pos_of_ne_zero hne)
    subst i0
    have am := List.mem_of_mem_head? h.first
    refine ⟨_, (C103_ends s a z h x).1 ?_, (h.v a am).1, left _ ?_ ?_⟩
    · show FP.le x a.nm = true
      rw [FP.le_finite hxf (h.nm a am).1]
      simpa using ha
    · exact le_antisymm (by rw [h.zero]; exact not_lt.1 ha) x1
    · rw [h.zero]

/-- C103 [F]: every sample is reproduced exactly (as a number: -0 may come out as 0). -/
theorem C103_samples (hf : Std f) (s : VSPD (FP f)) (a z : Sample (FP f)) (h : Spec.Increasing s a z) :
    ∀ p ∈ s.samples, ∃ v, linearEval s p.nm = .ok v ∧ v.isFinite = true ∧ v.val = p.v.val := by
  intro p hp
  obtain ⟨k, hk, rfl⟩ := List.mem_iff_getElem.1 hp
  have fin := (h.nm _ hp).1
  rcases Nat.eq_zero_or_pos k with rfl | hk0
  · refine ⟨_, (C103_ends s a z h _).1 ?_, ?_⟩
    · rw [h.zero]; exact FP.le_refl' (not_nan_of_fin (h.zero ▸ fin))
    · rw [h.zero]; exact ⟨(h.v a (List.mem_of_mem_head? h.first)).1, rfl⟩
  · rcases Nat.lt_or_ge (k + 1) s.samples.length with hk1 | hk1
    · obtain ⟨v, e, v1, _, v2⟩ := linear_between hf h fin
        (by rw [← h.zero]; exact h.lt _ _ hk0)
        (by rw [← h.end']; exact h.lt _ _ (by omega)) k hk1 le_rfl (h.lt _ _ (Nat.lt_succ_self k))
      exact ⟨v, e, v1, v2 rfl⟩
    · have e : s.samples[k] = z := by rw [← h.end']; congr 1; omega
      refine ⟨_, (C103_ends s a z h _).2 ?_, ?_⟩
      · rw [e]; exact FP.le_refl' (not_nan_of_fin (e ▸ fin))
      · rw [e]; exact ⟨(h.v z (List.mem_of_mem_getLast? h.last)).1, rfl⟩

/-- three samples on an uneven grid -/
example (hf : Std f) : Spec.Increasing (⟨[⟨FP.lit 400, FP.lit 1⟩, ⟨FP.lit 410, FP.lit 3⟩, ⟨FP.lit 450, FP.lit 2⟩],
      ⟨FP.lit 400, FP.lit 450, .varying⟩⟩ : VSPD (FP f)) ⟨FP.lit 400, FP.lit 1⟩ ⟨FP.lit 450, FP.lit 2⟩ := by
  have k := fun (n : ℕ) (h0 : 0 < n) (hn : n ≤ 450) => lit_natural hf n h0 (hn.trans (by norm_num)) n rfl
  have a := k 400 (by norm_num) (by norm_num)
  have b := k 410 (by norm_num) (by norm_num)
  have c := k 450 (by norm_num) (by norm_num)
  have d := k 1 (by norm_num) (by norm_num)
  have e := k 2 (by norm_num) (by norm_num)
  have g := k 3 (by norm_num) (by norm_num)
  norm_num at a b c d e g
  refine ⟨rfl, rfl, ?_, ?_, ?_⟩
  · simp [a, b, c]; norm_num [abs_le]
  · simp [d, e, g]; norm_num [abs_le]
  · simp [a, b, c]; norm_num

end
end CS

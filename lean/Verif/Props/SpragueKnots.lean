import Verif.Props.SpragueF
import Verif.Props.PowiLoop
import Verif.Lemmas.Resample
import Verif.Lemmas.FPSym
import Verif.Lemmas.FPIn
import Verif.Lemmas.IdealLibm

/-!
# Resampling at the samples in floating point (C118)
-/

namespace CS

section
variable {f : Fmt} [Libm f]

/-- What these theorems assume of `powi` besides its accuracy: a power of zero is zero. -/
def Spec.PowiZero (f : Fmt) [Libm f] : Prop :=
  ∀ (x : FP f) (n : ℕ), x.isFinite = true → x.val = 0 → 2 ≤ n → n ≤ 5 →
    (Flt.powi x n).isFinite = true ∧ (Flt.powi x n).val = 0

omit [Libm f] in
theorem finite_of_add {a b : FP f} (h : (a + b).isFinite = true) : a.isFinite = true ∧ b.isFinite = true := by
  change (FP.add a b).isFinite = true at h
  cases a <;> cases b <;> simp [FP.add, FP.isFinite, FP.isNaN, FP.sgn] at h ⊢

omit [Libm f] in
theorem finite_of_mul_zero {a b : FP f} (hb : b.isFinite = true) (h0 : b.val = 0) (h : (a * b).isFinite = true) :
    a.isFinite = true := by
  change (FP.mul a b).isFinite = true at h
  cases a <;> cases b <;> simp_all [FP.mul, FP.isFinite, FP.val]

omit [Libm f] in
/-- adding a multiple of zero changes nothing -/
theorem add_mul_zero {a c d : FP f} (hd : d.isFinite = true) (h0 : d.val = 0) (h : (a + c * d).isFinite = true) :
    a.isFinite = true ∧ (a + c * d).val = a.val := by
  obtain ⟨ha, hcd⟩ := finite_of_add h
  have hc := finite_of_mul_zero hd h0 hcd
  have hz : (c * d).val = 0 := by
    rw [FP.mul_finite_eq hc hd, h0, mul_zero, FP.ofQ_zero]
    cases (c.sgn ^^ d.sgn) <;> rfl
  refine ⟨ha, ?_⟩
  obtain ⟨s, e⟩ := add_finite_eq ha hcd
  rw [e, hz, add_zero]
  obtain ⟨r1, r2⟩ := FP.val_rep a
  rw [(FP.ofQ_finite s (by rw [r1]; exact r2)).2, r1]

theorem zero_div_val {n t : FP f} (hn : n.isFinite = true) (h0 : n.val = 0) (h : (n / t).isFinite = true) :
    (n / t).val = 0 := by
  by_cases ht : t.isFinite = true
  · by_cases hz : t.val = 0
    · exfalso
      change (FP.div n t).isFinite = true at h
      cases n <;> cases t <;> simp_all [FP.div, FP.isFinite, FP.val]
    · rw [FP.div_finite_eq hn ht hz, h0, zero_div, FP.ofQ_zero]
      cases (n.sgn ^^ t.sgn) <;> rfl
  · change (FP.div n t).isFinite = true at h
    change (FP.div n t).val = 0
    have : FP.div n t = .nan ∨ ∃ b, FP.div n t = FP.zeroOf b := by
      cases n <;> cases t <;> simp_all [FP.div, FP.isFinite]
    rcases this with e | ⟨b, e⟩
    · rw [e] at h; cases h
    · rw [e]; cases b <;> rfl

/-- the polynomial at zero -/
theorem poly_zero (h0 : Spec.PowiZero f) {a0 a1 a2 a3 a4 a5 d : FP f} (hd : d.isFinite = true) (hz : d.val = 0)
    (h : (spraguePoly (a0, a1, a2, a3, a4, a5) d).isFinite = true) :
    (spraguePoly (a0, a1, a2, a3, a4, a5) d).val = a0.val := by
  unfold spraguePoly at h ⊢
  dsimp only at h ⊢
  obtain ⟨p2, z2⟩ := h0 d 2 hd hz (by norm_num) (by norm_num)
  obtain ⟨p3, z3⟩ := h0 d 3 hd hz (by norm_num) (by norm_num)
  obtain ⟨p4, z4⟩ := h0 d 4 hd hz (by norm_num) (by norm_num)
  obtain ⟨p5, z5⟩ := h0 d 5 hd hz (by norm_num) (by norm_num)
  obtain ⟨q5, e5⟩ := add_mul_zero p5 z5 h
  obtain ⟨q4, e4⟩ := add_mul_zero p4 z4 q5
  obtain ⟨q3, e3⟩ := add_mul_zero p3 z3 q4
  obtain ⟨q2, e2⟩ := add_mul_zero p2 z2 q3
  obtain ⟨q1, e1⟩ := add_mul_zero hd hz q2
  rw [e5, e4, e3, e2, e1]

/-- C118 [F]: in f32 and f64, evaluating the interpolation at the wavelength of any sample but the last gives exactly that
sample's value. -/
theorem C118_knots (hf : Std f) (hp : PowiAccurate f) (h0 : Spec.PowiZero f) (s : VSPD (FP f)) (a b z : Sample (FP f))
    (h : Spec.GoodGrid s a b z) (V : ℝ) (hV : 1 / 2 ^ 60 ≤ V) (hV' : V ≤ 2 ^ 60)
    (hv : ∀ p ∈ s.samples, p.v.isFinite = true ∧ |(p.v.val : ℝ)| ≤ V) (k : ℕ) (p : Sample (FP f))
    (hk : s.samples[k]? = some p) (hlast : k + 1 < s.samples.length) (x : FP f) (hx : x.isFinite = true)
    (hxp : x.val = p.nm.val) : ∃ v, spragueEval s x = .ok v ∧ v.isFinite = true ∧ v.val = p.v.val := by
  obtain ⟨hkl, rfl⟩ := List.getElem?_eq_some_iff.1 hk
  have hpq : (s.samples[k]).nm.val < (s.samples[k + 1]).nm.val :=
    List.pairwise_iff_getElem.1 h.incr k (k + 1) hkl hlast (by omega)
  have hk1 : s.samples[k + 1]? = some (s.samples[k + 1]) := List.getElem?_eq_getElem hlast
  have e := spragueEval_fp hf h hx k hlast hxp.ge (Or.inl (by rw [hxp]; exact hpq))
  have hfin := (spragueAt_err hf hp h (SpdShape.new 0 0 0) ⟨hV, hV'⟩ hv hx k hlast hxp.ge (by rw [hxp]; exact hpq.le)).1.fin
  refine ⟨_, e, hfin, ?_⟩
  obtain ⟨p1, p2⟩ := h.fin _ (List.mem_of_getElem? hk)
  obtain ⟨q1, q2⟩ := h.fin _ (List.mem_of_getElem? hk1)
  obtain ⟨d1, d2, -, d4⟩ := position_err hf hx p1 q1 hxp.ge (by rw [hxp]; exact hpq.le) hpq (by rw [hxp]; exact p2) p2 q2
  have e1 := extX_getD s a.nm b.nm z.nm Flt.zero k _ hk
  have e2 := extX_getD s a.nm b.nm z.nm Flt.zero (k + 1) _ hk1
  have e3 := extY_getD s Flt.zero k _ hk
  unfold spragueAt at hfin ⊢
  simp only at hfin ⊢
  rw [e1, show k + 2 + 1 = k + 1 + 2 by omega, e2, e3] at hfin ⊢
  refine poly_zero h0 d1 ?_ hfin
  obtain ⟨u1, u2⟩ := FP.sub_finite hx p1 (by rw [hxp, sub_self, roundQ_zero]; simp)
  have hs0 : (x - (s.samples[k]).nm).val = 0 := by rw [u2, hxp, sub_self, roundQ_zero]
  exact zero_div_val u1 hs0 d1

/-- C118 [F]: hence `interpolate` keeps the value of every sample but the last whose wavelength is on the new grid. -/
theorem C118_interpolate (hf : Std f) (hp : PowiAccurate f) (h0 : Spec.PowiZero f) (s : VSPD (FP f)) (a b z : Sample (FP f))
    (h : Spec.GoodGrid s a b z) (V : ℝ) (hV : 1 / 2 ^ 60 ≤ V) (hV' : V ≤ 2 ^ 60)
    (hv : ∀ p ∈ s.samples, p.v.isFinite = true ∧ |(p.v.val : ℝ)| ≤ V) (sh : SpdShape (FP f)) (r : VSPD (FP f))
    (hr : s.interpolate sh = .ok r) (k : ℕ) (p q : Sample (FP f)) (hk : s.samples[k]? = some p)
    (hlast : k + 1 < s.samples.length) (hq : q ∈ r.samples) (hqf : q.nm.isFinite = true) (hqp : q.nm.val = p.nm.val) :
    q.v.isFinite = true ∧ q.v.val = p.v.val := by
  rw [interpolate_eq s sh (by omega)] at hr
  cases hw : (⟨Flt.max sh.start s.shape.start, Flt.min sh.end s.shape.end, sh.interval⟩ : SpdShape (FP f)).wavelengths with
  | error e => rw [hw] at hr; cases hr
  | ok ws =>
    rw [hw] at hr
    simp only [bind, Except.bind] at hr
    cases hm : ws.mapM (evalSample s) with
    | error e => rw [hm] at hr; cases hr
    | ok l =>
      rw [hm] at hr
      cases hr
      obtain ⟨j, hj⟩ := List.mem_iff_getElem?.1 hq
      have hF := (mapM_ok_iff _ _ _).1 hm
      obtain ⟨hjl, rfl⟩ := List.getElem?_eq_some_iff.1 hj
      have := (List.forall₂_iff_get.1 hF).2 j (by rw [hF.length_eq]; exact hjl) hjl
      have hjw : j < ws.length := by rw [hF.length_eq]; exact hjl
      simp only [List.get_eq_getElem] at this
      unfold evalSample at this
      cases he : spragueEval s ws[j] with
      | error e => rw [he] at this; cases this
      | ok v =>
        rw [he] at this
        simp only [Except.ok.injEq] at this
        rw [← this] at hqf hqp ⊢
        obtain ⟨v', e1, e2, e3⟩ := C118_knots hf hp h0 s a b z h V hV hV' hv k p hk hlast ws[j] hqf hqp
        rw [he] at e1
        cases e1
        exact ⟨e2, e3⟩

/-- C118: the multiplication loop of compiler-rt gives zero for powers of zero. -/
theorem C118_powi_loop (hf : Std f) (h : ∀ (x : FP f) (n : ℕ), Flt.powi x n = powiLoop (Flt.lit 1) x n) :
    Spec.PowiZero f := by
  intro x n hx h0 h2 h5
  have o := lit_fin (f := f) hf 1 1
  have m : ∀ {c d : FP f}, c.isFinite = true → d.isFinite = true ∧ d.val = 0 → (c * d).isFinite = true ∧ (c * d).val = 0 := by
    intro c d hc hd
    rw [FP.mul_finite_eq hc hd.1, hd.2, mul_zero, FP.ofQ_zero]
    cases (c.sgn ^^ d.sgn) <;> exact ⟨rfl, rfl⟩
  have x1 := m o ⟨hx, h0⟩
  have x2 := m hx ⟨hx, h0⟩
  have x4 := m x2.1 x2
  rw [h]
  interval_cases n
  · rw [powiLoop, powiLoop]; simpa using m o x2
  · rw [powiLoop, powiLoop]; simpa using m x1.1 x2
  · rw [powiLoop, powiLoop, powiLoop]; simpa using m o x4
  · rw [powiLoop, powiLoop, powiLoop]; simpa using m x1.1 x4

end

/-! ### the last sample -/

section
variable [Libm Fmt.b64]

/-- zero at 400, 410, ..., 450 nm but for the value 1 at 440 nm -/
def lastBad : VSPD (FP Fmt.b64) :=
  ⟨[⟨FP.lit 400, FP.lit 0⟩, ⟨FP.lit 410, FP.lit 0⟩, ⟨FP.lit 420, FP.lit 0⟩, ⟨FP.lit 430, FP.lit 0⟩, ⟨FP.lit 440, FP.lit 1⟩,
    ⟨FP.lit 450, FP.lit 0⟩], SpdShape.new (FP.lit 400) (FP.lit 450) (FP.lit 10)⟩

omit [Libm Fmt.b64] in
theorem eq_of_val {a b : FP Fmt.b64} (ha : a.isFinite = true) (hb : b.isFinite = true) (h : a.val = b.val)
    (h0 : b.val ≠ 0) : a = b := by
  cases a <;> cases b <;> simp_all [FP.isFinite, FP.val]

omit [Libm Fmt.b64] in
theorem lastBad_grid : Spec.GoodGrid lastBad ⟨FP.lit 400, FP.lit 0⟩ ⟨FP.lit 410, FP.lit 0⟩ ⟨FP.lit 450, FP.lit 0⟩ where
  first := rfl
  second := rfl
  last := rfl
  fin := by
    have : ∀ p ∈ lastBad.samples, p.nm.isFinite = true ∧ |p.nm.val| ≤ 2 ^ 20 := by
      simp only [lastBad, List.forall_mem_cons, List.not_mem_nil, IsEmpty.forall_iff, implies_true, and_true]
      exact of_decide_eq_true (by krefl)
    exact this
  incr := by
    simp only [lastBad, List.pairwise_cons, List.forall_mem_cons, List.not_mem_nil, IsEmpty.forall_iff, implies_true,
      and_true, List.Pairwise.nil]
    exact of_decide_eq_true (by krefl)
  gap := of_decide_eq_true (by krefl)

/-- C118 [F]: the last sample is not reproduced exactly: a spectrum of zeros and ones that ends in zero is resampled at its
last wavelength as a negative number, if powers of 1 are 1. -/
theorem C118_last_counterexample (h1 : ∀ n, Flt.powi (FP.lit 1 : FP Fmt.b64) n = FP.lit 1) :
    ∃ v, spragueEval lastBad (FP.lit 450) = .ok v ∧ v.isFinite = true ∧ v.val < 0 := by
  have hx : (FP.lit 450 : FP Fmt.b64).isFinite = true := of_decide_eq_true (by krefl)
  have e := spragueEval_fp std_b64 lastBad_grid hx 4 (by decide) (of_decide_eq_true (by krefl))
    (Or.inr ⟨rfl, of_decide_eq_true (by krefl)⟩)
  refine ⟨_, e, ?_⟩
  unfold spragueAt
  have d : ((FP.lit 450 : FP Fmt.b64) - FP.lit 440) / (FP.lit 450 - FP.lit 440) = FP.lit 1 :=
    eq_of_val (of_decide_eq_true (by krefl)) (of_decide_eq_true (by krefl)) (of_decide_eq_true (by krefl))
      (of_decide_eq_true (by krefl))
  have e1 := extX_getD lastBad (FP.lit 400) (FP.lit 410) (FP.lit 450) (Flt.zero : FP Fmt.b64) 4 ⟨FP.lit 440, FP.lit 1⟩ rfl
  have e2 := extX_getD lastBad (FP.lit 400) (FP.lit 410) (FP.lit 450) (Flt.zero : FP Fmt.b64) 5 ⟨FP.lit 450, FP.lit 0⟩ rfl
  simp only at e1 e2 ⊢
  rw [e1, e2, d]
  unfold spraguePoly spragueA
  simp only [h1]
  exact of_decide_eq_true (by krefl)

omit [Libm Fmt.b64] in
theorem powiLoop_one (n : ℕ) : powiLoop (FP.lit 1 : FP Fmt.b64) (FP.lit 1) n = FP.lit 1 := by
  have m : (FP.lit 1 : FP Fmt.b64) * FP.lit 1 = FP.lit 1 :=
    eq_of_val (of_decide_eq_true (by krefl)) (of_decide_eq_true (by krefl)) (of_decide_eq_true (by krefl))
      (of_decide_eq_true (by krefl))
  induction n using Nat.strong_induction_on with
  | _ n ih =>
    rw [powiLoop]
    simp only [m, ite_self]
    split
    · rfl
    · exact ih _ (by omega)

/-- Not vacuous: with compiler-rt's loop for `powi`, this spectrum is given back exactly at 440 nm, where it is 1, and not at
450 nm, where it is 0. -/
example : ∃ _ : Libm Fmt.b64, (∃ v, spragueEval lastBad (FP.lit 440) = .ok v ∧ v.isFinite = true ∧ v.val = 1) ∧
    ∃ v, spragueEval lastBad (FP.lit 450) = .ok v ∧ v.isFinite = true ∧ v.val < 0 := by
  let : Libm Fmt.b64 := { idealLibm Fmt.b64 with powi := fun x n => powiLoop (FP.lit 1) x n }
  have one : (FP.lit 1 : FP Fmt.b64).val = 1 := of_decide_eq_true (by krefl)
  refine ⟨this, ?_, C118_last_counterexample powiLoop_one⟩
  rw [← one]
  refine C118_knots std_b64 (C87_powi_loop std_b64 fun _ _ => rfl) (C118_powi_loop std_b64 fun _ _ => rfl) lastBad _ _ _
    lastBad_grid 1 (by norm_num) (by norm_num) ?_ 4 ⟨FP.lit 440, FP.lit 1⟩ rfl (by decide) _ (of_decide_eq_true (by krefl)) rfl
  have h : ∀ p ∈ lastBad.samples, p.v.isFinite = true ∧ |p.v.val| ≤ 1 := by
    simp only [lastBad, List.forall_mem_cons, List.not_mem_nil, IsEmpty.forall_iff, implies_true, and_true]
    exact of_decide_eq_true (by krefl)
  intro p hp
  exact ⟨(h p hp).1, by exact_mod_cast (h p hp).2⟩

end

end CS

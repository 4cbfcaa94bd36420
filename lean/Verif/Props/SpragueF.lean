import Verif.Props.Sprague
import Verif.Lemmas.FPSprague2
import Verif.Lemmas.IdealLibm

/-!
# Sprague interpolation in floating point (C87)

The exact value is what the same code computes in exact arithmetic from the same samples.
-/

namespace CS

section
variable {f : Fmt} [Libm f]

/-- what is asked of the wavelengths: finite, up to `2^20` nm, increasing, and the first spacing not lost
against the last wavelength -/
structure Spec.GoodGrid (s : VSPD (FP f)) (a b z : Sample (FP f)) : Prop where
  first : s.samples[0]? = some a
  second : s.samples[1]? = some b
  last : s.samples.getLast? = some z
  fin : ∀ p ∈ s.samples, p.nm.isFinite = true ∧ |p.nm.val| ≤ 2 ^ 20
  incr : s.samples.Pairwise fun p q => p.nm.val < q.nm.val
  gap : 4 * f.u * |z.nm.val| ≤ b.nm.val - a.nm.val

/-- the appended wavelengths -/
theorem ghosts_fp (hf : Std f) {s : VSPD (FP f)} {a b z : Sample (FP f)} (h : Spec.GoodGrid s a b z) :
    let d := b.nm - a.nm
    (a.nm - d * Flt.lit 2.0).isFinite = true ∧ (a.nm - d * Flt.lit 2.0).val ≤ a.nm.val ∧
    (a.nm - d).isFinite = true ∧ (a.nm - d).val ≤ a.nm.val ∧
    (z.nm + d).isFinite = true ∧ z.nm.val < (z.nm + d).val := by
  intro d
  obtain ⟨a1, a2⟩ := h.fin a (List.mem_of_getElem? h.first)
  obtain ⟨b1, b2⟩ := h.fin b (List.mem_of_getElem? h.second)
  obtain ⟨z1, z2⟩ := h.fin z (List.mem_of_getLast? h.last)
  have hab : a.nm.val < b.nm.val := by
    obtain ⟨i0, e0⟩ := List.getElem?_eq_some_iff.1 h.first
    obtain ⟨i1, e1⟩ := List.getElem?_eq_some_iff.1 h.second
    have := List.pairwise_iff_getElem.1 h.incr 0 1 i0 i1 (by omega)
    rwa [e0, e1] at this
  have hu0 := f.u_pos
  have hu : f.u ≤ 1 / 2 ^ 20 := hf.wide.hu
  have big : ∀ q : ℚ, |q| ≤ 2 ^ 24 → |q| ≤ 2 ^ f.emax := fun q hq =>
    pow_le_emax hf.wide (hq.trans (by norm_num))
  have hd : |b.nm.val - a.nm.val| ≤ 2 ^ 21 := by
    have := abs_sub b.nm.val a.nm.val
    norm_num at this a2 b2 ⊢; linarith
  have hd' := big _ (hd.trans (by norm_num))
  obtain ⟨d1, d2⟩ := FP.sub_finite b1 a1 (roundQ_lt hd')
  obtain ⟨-, d3⟩ := FP.sub_err b1 a1 hd'
  have d0 : 0 ≤ d.val := by
    show 0 ≤ (b.nm - a.nm).val
    rw [d2]
    have := roundQ_mono f (show (0:ℚ) ≤ b.nm.val - a.nm.val by linarith)
    rwa [(FP.isRep_zero f).1] at this
  rw [abs_of_pos (show 0 < b.nm.val - a.nm.val by linarith)] at d3 hd
  have d4 : |d.val - (b.nm.val - a.nm.val)| ≤ (b.nm.val - a.nm.val) * f.u := d3
  have d5 : (b.nm.val - a.nm.val) * f.u ≤ (b.nm.val - a.nm.val) * (1 / 2 ^ 20) :=
    mul_le_mul_of_nonneg_left hu (by linarith)
  have d6 : d.val ≤ 2 ^ 22 := by
    have := (abs_le.1 d4).2
    norm_num at *; linarith
  have d7 : (b.nm.val - a.nm.val) * (1 - 1 / 2 ^ 20) ≤ d.val := by
    have := (abs_le.1 d4).1
    linarith
  obtain ⟨l1, l2⟩ : (Flt.lit 2.0 : FP f).isFinite = true ∧ (Flt.lit 2.0 : FP f).val = 2 := by
    exact lit_natural hf 2 (by norm_num) (by norm_num) 2.0 (by norm_num)
  have hm : |d.val * (Flt.lit 2.0 : FP f).val| ≤ 2 ^ 23 := by
    rw [l2, abs_of_nonneg (by linarith)]; norm_num at *; linarith
  obtain ⟨m1, m2⟩ := FP.mul_finite' d1 l1 (roundQ_lt (big _ (hm.trans (by norm_num))))
  have m0 : 0 ≤ (d * Flt.lit 2.0).val := by
    show 0 ≤ ((b.nm - a.nm) * Flt.lit 2.0).val
    rw [m2, l2]
    have := roundQ_mono f (show (0:ℚ) ≤ (b.nm - a.nm).val * 2 by
      have : 0 ≤ (b.nm - a.nm).val := d0
      linarith)
    rwa [(FP.isRep_zero f).1] at this
  obtain ⟨-, m3⟩ := FP.mul_err d1 l1 (big _ (hm.trans (by norm_num)))
  have m4 : (d * Flt.lit 2.0).val ≤ 2 ^ 23 := by
    have := roundQ_mono f (show (b.nm - a.nm).val * 2 ≤ 2 ^ 23 by
      have : (b.nm - a.nm).val ≤ 2 ^ 22 := d6
      norm_num at *; linarith)
    show ((b.nm - a.nm) * Flt.lit 2.0).val ≤ _
    rw [m2, l2]
    refine this.trans (le_of_eq ?_)
    have r := (FP.isRep_nat (f := f) (2 ^ 23) (Nat.pow_le_pow_right (by norm_num)
      (by have := hf.p24; omega))).1
    push_cast at r; exact r
  have below : ∀ t : FP f, t.isFinite = true → 0 ≤ t.val → t.val ≤ 2 ^ 23 →
      (a.nm - t).isFinite = true ∧ (a.nm - t).val ≤ a.nm.val := by
    intro t t1 t2 t3
    have : |a.nm.val - t.val| ≤ 2 ^ 24 := by
      have := abs_sub a.nm.val t.val
      rw [abs_of_nonneg t2] at this
      norm_num at *; linarith
    obtain ⟨c1, c2⟩ := FP.sub_finite a1 t1 (roundQ_lt (big _ this))
    refine ⟨c1, ?_⟩
    rw [c2]
    have := roundQ_mono f (show a.nm.val - t.val ≤ a.nm.val by linarith)
    rwa [a.nm.round_val] at this
  obtain ⟨x1, x2⟩ := below _ m1 m0 m4
  obtain ⟨y1, y2⟩ := below _ d1 d0 (d6.trans (by norm_num))
  have hz : |z.nm.val + d.val| ≤ 2 ^ 24 := by
    have := abs_add_le z.nm.val d.val
    rw [abs_of_nonneg d0] at this
    norm_num at *; linarith
  obtain ⟨z3, z4⟩ := FP.add_err z1 d1 (big _ hz)
  refine ⟨x1, x2, y1, y2, z3, ?_⟩
  have z5 := (abs_le.1 z4).1
  have z6 : |z.nm.val + d.val| ≤ |z.nm.val| + d.val := by
    have := abs_add_le z.nm.val d.val
    rwa [abs_of_nonneg d0] at this
  have g := h.gap
  have z7 : |z.nm.val + d.val| * f.u ≤ (|z.nm.val| + d.val) * f.u :=
    mul_le_mul_of_nonneg_right z6 hu0.le
  have z8 : d.val * f.u ≤ d.val * (1 / 2 ^ 20) := mul_le_mul_of_nonneg_left hu d0
  have hp : 0 < b.nm.val - a.nm.val := by linarith
  have z5' : -(|z.nm.val + d.val| * f.u) ≤ (z.nm + d).val - (z.nm.val + d.val) := z5
  generalize (z.nm + d).val = R at *
  generalize |z.nm.val + d.val| * f.u = e at *
  norm_num at *
  nlinarith

/-- below the samples' position, `x` is not below the extended wavelengths -/
theorem spragueEval_fp (hf : Std f) {s : VSPD (FP f)} {a b z : Sample (FP f)}
    (h : Spec.GoodGrid s a b z) {x : FP f} (hx : x.isFinite = true) (k : ℕ) (hk : k + 1 < s.samples.length)
    (hlo : (s.samples[k]).nm.val ≤ x.val)
    (hhi : x.val < (s.samples[k + 1]).nm.val ∨
      (k + 2 = s.samples.length ∧ x.val ≤ (s.samples[k + 1]).nm.val)) :
    spragueEval s x = .ok (spragueAt ⟨extX s a.nm b.nm z.nm, extY s⟩ (k + 2) x) := by
  obtain ⟨g1, g2, g3, g4, g5, g6⟩ := ghosts_fp hf h
  have hn : 2 ≤ s.samples.length := by
    have := (List.getElem?_eq_some_iff.1 h.second).1; omega
  have he : spragueEval s x = (⟨extX s a.nm b.nm z.nm, extY s⟩ : Sprague (FP f)).evaluate x := by
    unfold spragueEval
    rw [Sprague.new_eq s a b z h.first h.second h.last]; rfl
  rw [he, Sprague.evaluate_eq _ s.samples.length hn (extX_length _ _ _ _) (extY_length _) x]
  have hlen := extX_length s a.nm b.nm z.nm
  have ex : ∀ j (hj : j < s.samples.length),
      (extX s a.nm b.nm z.nm)[j + 2]'(by omega) = (s.samples[j]).nm := by
    intro j hj
    have e := extX_getD s a.nm b.nm z.nm Flt.zero j _ (List.getElem?_eq_getElem hj)
    rwa [List.getD_eq_getElem _ _ (by omega)] at e
  have hmono : ∀ i j (hi : i < s.samples.length) (hj : j < s.samples.length), i ≤ j →
      (s.samples[i]).nm.val ≤ (s.samples[j]).nm.val := by
    intro i j hi hj hij
    rcases Nat.lt_or_ge i j with h' | h'
    · exact (List.pairwise_iff_getElem.1 h.incr i j hi hj h').le
    · have : i = j := by omega
      subst this; exact le_rfl
  have ea : a = s.samples[0] := by
    have := h.first; rw [List.getElem?_eq_getElem (by omega)] at this; exact (Option.some.inj this).symm
  have hax : a.nm.val ≤ x.val := by rw [ea]; exact (hmono 0 k (by omega) (by omega) (by omega)).trans hlo
  have hlast : s.samples[s.samples.length - 1]'(by omega) = z := by
    have := h.last
    rw [List.getLast?_eq_getElem?, List.getElem?_eq_getElem (by omega)] at this
    exact Option.some.inj this
  -- nothing up to index m + 1 exceeds x when sample m does not
  have hlow : ∀ m (hm : m < s.samples.length), (s.samples[m]).nm.val ≤ x.val → ∀ j, j < m + 3 →
      ∀ hj : j < (extX s a.nm b.nm z.nm).length,
      Flt.lt x ((extX s a.nm b.nm z.nm)[j]) = false := by
    intro m hm hmx j hj hj'
    show FP.lt x _ = false
    rcases Nat.lt_or_ge j 2 with h2 | h2
    · have : j = 0 ∨ j = 1 := by omega
      rcases this with rfl | rfl
      · show FP.lt x (a.nm - (b.nm - a.nm) * Flt.lit 2.0) = false
        rw [FP.lt_finite hx g1]; exact decide_eq_false (by linarith)
      · show FP.lt x (a.nm - (b.nm - a.nm)) = false
        rw [FP.lt_finite hx g3]; exact decide_eq_false (by linarith)
    · obtain ⟨i, rfl⟩ : ∃ i, j = i + 2 := ⟨j - 2, by omega⟩
      rw [ex i (by omega), FP.lt_finite hx (h.fin _ (List.getElem_mem _)).1]
      have := hmono i m (by omega) hm (by omega)
      exact decide_eq_false (by linarith)
  rcases Classical.em (x.val < (s.samples[k + 1]).nm.val) with hc | hc
  · have hfi : (extX s a.nm b.nm z.nm).findIdx? (fun t => Flt.lt x t) = some (k + 3) := by
      rw [List.findIdx?_eq_some_iff_getElem]
      refine ⟨by omega, ?_, fun j hj => by simpa using hlow k (by omega) hlo j hj (by omega)⟩
      have := ex (k + 1) hk
      have e : (extX s a.nm b.nm z.nm)[k + 3]'(by omega) = (s.samples[k + 1]).nm := this
      rw [e]
      show FP.lt x _ = true
      rw [FP.lt_finite hx (h.fin _ (List.getElem_mem _)).1]
      exact decide_eq_true hc
    simp only [hfi]
    have : spragueI s.samples.length (k + 2) = k + 2 := by unfold spragueI; omega
    rw [this]
  · obtain ⟨hk2, hle⟩ := hhi.resolve_left hc
    have hxz : x.val = z.nm.val := by
      have e : s.samples[k + 1]'hk = z := by
        rw [← hlast]; congr 1; omega
      rw [e] at hle hc
      linarith
    have hfi : (extX s a.nm b.nm z.nm).findIdx? (fun t => Flt.lt x t) = some (s.samples.length + 2) := by
      rw [List.findIdx?_eq_some_iff_getElem]
      refine ⟨by omega, ?_, fun j hj => by
        simpa using hlow (s.samples.length - 1) (by omega) (by rw [hlast, hxz]) j (by omega) (by omega)⟩
      have e : (extX s a.nm b.nm z.nm)[s.samples.length + 2]'(by omega) = z.nm + (b.nm - a.nm) := by
        unfold extX
        rw [List.getElem_append_right (by simp [VSPD.wavelengths])]
        simp [VSPD.wavelengths]
      rw [e]
      show FP.lt x _ = true
      rw [FP.lt_finite hx g5]
      exact decide_eq_true (by rw [hxz]; exact g6)
    simp only [hfi]
    have : spragueI s.samples.length (s.samples.length + 1) = k + 2 := by unfold spragueI; omega
    rw [this]

omit [Libm f] in
/-- the samples around `x` -/
theorem around_fp {s : VSPD (FP f)} {a b z : Sample (FP f)} (h : Spec.GoodGrid s a b z) {x : FP f}
    (h1 : a.nm.val ≤ x.val) (h2 : x.val ≤ z.nm.val) :
    ∃ (k : ℕ) (hk : k + 1 < s.samples.length), (s.samples[k]).nm.val ≤ x.val ∧
      x.val ≤ (s.samples[k + 1]).nm.val ∧
      (x.val < (s.samples[k + 1]).nm.val ∨
      (k + 2 = s.samples.length ∧ x.val ≤ (s.samples[k + 1]).nm.val)) := by
  have hn : 2 ≤ s.samples.length := by
    have := (List.getElem?_eq_some_iff.1 h.second).1; omega
  have ea : a = s.samples[0] := by
    have := h.first; rw [List.getElem?_eq_getElem (by omega)] at this; exact (Option.some.inj this).symm
  have hlast : s.samples[s.samples.length - 1]'(by omega) = z := by
    have := h.last
    rw [List.getLast?_eq_getElem?, List.getElem?_eq_getElem (by omega)] at this
    exact Option.some.inj this
  by_contra hc
  have step : ∀ k (hk : k + 1 < s.samples.length), (s.samples[k]).nm.val ≤ x.val →
      (s.samples[k + 1]).nm.val ≤ x.val := by
    intro k hk hle
    by_contra hlt
    have hlt := lt_of_not_ge hlt
    exact hc ⟨k, hk, hle, hlt.le, Or.inl hlt⟩
  have all : ∀ k (hk : k < s.samples.length), (s.samples[k]).nm.val ≤ x.val := by
    intro k
    induction k with
    | zero => intro _; rw [← ea]; exact h1
    | succ k ih => intro hk; exact step k hk (ih (by omega))
  have e : (s.samples[s.samples.length - 2 + 1]'(by omega)) = z := by
    rw [← hlast]; congr 1; omega
  have : x.val ≤ (s.samples[s.samples.length - 2 + 1]'(by omega)).nm.val := by rw [e]; exact h2
  exact hc ⟨s.samples.length - 2, by omega, all _ (by omega), this, Or.inr ⟨by omega, this⟩⟩

omit [Libm f] in
/-- the exact value in the same interval -/
theorem spragueEval_exact {s : VSPD (FP f)} {a b z : Sample (FP f)} (h : Spec.GoodGrid s a b z)
    (shape : SpdShape ℝ) {x : FP f} (k : ℕ) (hk : k + 1 < s.samples.length)
    (hlo : (s.samples[k]).nm.val ≤ x.val)
    (hhi : x.val < (s.samples[k + 1]).nm.val ∨
      (k + 2 = s.samples.length ∧ x.val ≤ (s.samples[k + 1]).nm.val)) :
    spragueEval (exactV s shape) (x.val : ℝ) =
      .ok (spragueAt ⟨extX (exactV s shape) (a.nm.val : ℝ) b.nm.val z.nm.val, extY (exactV s shape)⟩
        (k + 2) (x.val : ℝ)) := by
  have hmap : ∀ j : ℕ, (exactV s shape).samples[j]? =
      (s.samples[j]?).map fun p : Sample (FP f) => (⟨(p.nm.val : ℝ), (p.v.val : ℝ)⟩ : Sample ℝ) := by
    intro j; simp [exactV]
  have h0 : (exactV s shape).samples[0]? = some ⟨(a.nm.val : ℝ), (a.v.val : ℝ)⟩ := by
    rw [hmap, h.first]; rfl
  have h1 : (exactV s shape).samples[1]? = some ⟨(b.nm.val : ℝ), (b.v.val : ℝ)⟩ := by
    rw [hmap, h.second]; rfl
  have hz : (exactV s shape).samples.getLast? = some ⟨(z.nm.val : ℝ), (z.v.val : ℝ)⟩ := by
    simp [exactV, List.getLast?_map, h.last]
  have hs : (exactV s shape).wavelengths.Pairwise (· < ·) := by
    unfold VSPD.wavelengths exactV
    rw [List.map_map, List.pairwise_map]
    exact h.incr.imp fun hpq => by simpa using hpq
  have hp : (exactV s shape).samples[k]? = some ⟨((s.samples[k]).nm.val : ℝ), ((s.samples[k]).v.val : ℝ)⟩ := by
    rw [hmap, List.getElem?_eq_getElem (by omega)]; rfl
  have hq : (exactV s shape).samples[k + 1]? =
      some ⟨((s.samples[k + 1]).nm.val : ℝ), ((s.samples[k + 1]).v.val : ℝ)⟩ := by
    rw [hmap, List.getElem?_eq_getElem (by omega)]; rfl
  have hlen : (exactV s shape).samples.length = s.samples.length := by simp [exactV]
  have hlo' : ((s.samples[k]).nm.val : ℝ) ≤ x.val := by exact_mod_cast hlo
  rcases Classical.em (x.val < (s.samples[k + 1]).nm.val) with hc | hc
  · exact spragueEval_between _ _ _ _ h0 h1 hz hs k _ _ hp hq _ hlo' (by simpa using hc)
  · obtain ⟨hk2, hle⟩ := hhi.resolve_left hc
    have hlast : s.samples[k + 1]'hk = z := by
      have := h.last
      rw [List.getLast?_eq_getElem?, List.getElem?_eq_getElem (by omega)] at this
      rw [← Option.some.inj this]; congr 1; omega
    have hxz : x.val = z.nm.val := by
      rw [hlast] at hle hc; linarith
    have hab : (a.nm.val : ℝ) < b.nm.val := by
      have := List.pairwise_iff_getElem.1 hs 0 1 (by simp [VSPD.wavelengths]; omega)
        (by simp [VSPD.wavelengths]; omega) (by omega)
      obtain ⟨i0, e0⟩ := List.getElem?_eq_some_iff.1 h0
      obtain ⟨i1, e1⟩ := List.getElem?_eq_some_iff.1 h1
      simp only [VSPD.wavelengths, List.getElem_map, e0, e1] at this
      exact this
    have := spragueEval_right _ _ _ _ h0 h1 hz hs (x.val : ℝ) (by simp [hxz])
      (by rw [hxz]; simp only; linarith)
    rw [this, hlen, hk2]

/-- errors inside one interval -/
theorem spragueAt_err (hf : Std f) (hp : PowiAccurate f) {s : VSPD (FP f)} {a b z : Sample (FP f)}
    (h : Spec.GoodGrid s a b z) (shape : SpdShape ℝ) {V : ℝ} (hV : Scale V)
    (hv : ∀ p ∈ s.samples, p.v.isFinite = true ∧ |(p.v.val : ℝ)| ≤ V) {x : FP f}
    (hx : x.isFinite = true) (k : ℕ) (hk : k + 1 < s.samples.length)
    (hlo : (s.samples[k]).nm.val ≤ x.val) (hhi : x.val ≤ (s.samples[k + 1]).nm.val) :
    let A := spragueAt ⟨extX s a.nm b.nm z.nm, extY s⟩ (k + 2) x
    let R := spragueAt ⟨extX (exactV s shape) (a.nm.val : ℝ) b.nm.val z.nm.val,
      extY (exactV s shape)⟩ (k + 2) (x.val : ℝ)
    Tr V A R 246 8940 ∧ (2 ≤ k → k + 4 ≤ s.samples.length → Tr V A R 38 1150) := by
  intro A R
  have hk0 : s.samples[k]? = some (s.samples[k]) := List.getElem?_eq_getElem (by omega)
  have hk1 : s.samples[k + 1]? = some (s.samples[k + 1]) := List.getElem?_eq_getElem (by omega)
  obtain ⟨p1, p2⟩ := h.fin _ (List.mem_of_getElem? hk0)
  obtain ⟨q1, q2⟩ := h.fin _ (List.mem_of_getElem? hk1)
  have hpq : (s.samples[k]).nm.val < (s.samples[k + 1]).nm.val :=
    List.pairwise_iff_getElem.1 h.incr k (k + 1) (by omega) hk (by omega)
  have bx : |x.val| ≤ 2 ^ 20 := by
    rw [abs_le] at p2 q2 ⊢
    constructor <;> linarith
  obtain ⟨d1, d2, d3, d4⟩ := position_err hf hx p1 q1 hlo hhi hpq bx p2 q2
  have e1 := extX_getD s a.nm b.nm z.nm Flt.zero k _ hk0
  have e2 := extX_getD s a.nm b.nm z.nm Flt.zero (k + 1) _ hk1
  have r1 := extX_getD (exactV s shape) (a.nm.val : ℝ) b.nm.val z.nm.val Flt.zero k
    ⟨((s.samples[k]).nm.val : ℝ), ((s.samples[k]).v.val : ℝ)⟩ (by simp [exactV, hk0])
  have r2 := extX_getD (exactV s shape) (a.nm.val : ℝ) b.nm.val z.nm.val Flt.zero (k + 1)
    ⟨((s.samples[k + 1]).nm.val : ℝ), ((s.samples[k + 1]).v.val : ℝ)⟩ (by
      simp only [exactV, List.getElem?_map, hk1]; rfl)
  set d := (x - (s.samples[k]).nm) / ((s.samples[k + 1]).nm - (s.samples[k]).nm) with hd
  set D : ℝ := ((x.val : ℝ) - (s.samples[k]).nm.val) / ((s.samples[k + 1]).nm.val - (s.samples[k]).nm.val)
    with hD
  have hlo' : ((s.samples[k]).nm.val : ℝ) ≤ x.val := by exact_mod_cast hlo
  have hhi' : (x.val : ℝ) ≤ (s.samples[k + 1]).nm.val := by exact_mod_cast hhi
  have hpq' : ((s.samples[k]).nm.val : ℝ) < (s.samples[k + 1]).nm.val := by exact_mod_cast hpq
  have D0 : 0 ≤ D := div_nonneg (by linarith) (by linarith)
  have D1 : D ≤ 1 := by rw [hD, div_le_one (by linarith)]; linarith
  have dD : |(d.val : ℝ) - D| ≤ 4 * f.u := by
    have := (Rat.cast_le (K := ℝ)).2 d4
    push_cast at this
    exact this
  have eA : A = spraguePoly (spragueA ((extY s).getD k Flt.zero) ((extY s).getD (k + 1) Flt.zero)
      ((extY s).getD (k + 2) Flt.zero) ((extY s).getD (k + 3) Flt.zero) ((extY s).getD (k + 4) Flt.zero)
      ((extY s).getD (k + 5) Flt.zero)) d := by
    show spragueAt _ _ _ = _
    unfold spragueAt
    simp only
    rw [e1, show k + 2 + 1 = k + 1 + 2 by omega, e2]
    rfl
  have eR : R = spraguePoly (spragueA ((extY (exactV s shape)).getD k Flt.zero)
      ((extY (exactV s shape)).getD (k + 1) Flt.zero)
      ((extY (exactV s shape)).getD (k + 2) Flt.zero) ((extY (exactV s shape)).getD (k + 3) Flt.zero)
      ((extY (exactV s shape)).getD (k + 4) Flt.zero)
      ((extY (exactV s shape)).getD (k + 5) Flt.zero)) D := by
    show spragueAt _ _ _ = _
    unfold spragueAt
    simp only
    rw [r1, show k + 2 + 1 = k + 1 + 2 by omega, r2]
    rfl
  have y := fun i hi => extY_tr hf hV s shape hv i hi
  rw [eA, eR]
  refine ⟨poly_ends hf hp hV (y k (by omega)).2.2 ((y (k + 1) (by omega)).2.1 (by omega) (by omega))
    ((y (k + 2) (by omega)).1 (by omega) (by omega)) ((y (k + 3) (by omega)).1 (by omega) (by omega))
    ((y (k + 4) (by omega)).2.1 (by omega) (by omega)) (y (k + 5) (by omega)).2.2 d1 d2 d3 D0 D1 dD,
    fun h2 h4 => ?_⟩
  exact poly_inner hf hp hV ((y k (by omega)).1 (by omega) (by omega))
    ((y (k + 1) (by omega)).1 (by omega) (by omega))
    ((y (k + 2) (by omega)).1 (by omega) (by omega)) ((y (k + 3) (by omega)).1 (by omega) (by omega))
    ((y (k + 4) (by omega)).1 (by omega) (by omega)) ((y (k + 5) (by omega)).1 (by omega) (by omega))
    d1 d2 d3 D0 D1 dD

/-! ## C87 -/

/-- C87 [F]: in f32 and f64, for finite samples with increasing wavelengths and values up to `V`, and any
finite wavelength between the first and the last, `evaluate` does not panic, its value is finite, and it
differs from what the same code computes in exact arithmetic by at most `8940 u V` (1e-12 `V` in f64).
`u` is half an ulp of 1. `powi` is assumed to be within 8 roundings. -/
theorem C87_sprague (hf : Std f) (hp : PowiAccurate f) (s : VSPD (FP f)) (a b z : Sample (FP f))
    (h : Spec.GoodGrid s a b z) (V : ℝ) (hV : 1 / 2 ^ 60 ≤ V) (hV' : V ≤ 2 ^ 60)
    (hv : ∀ p ∈ s.samples, p.v.isFinite = true ∧ |(p.v.val : ℝ)| ≤ V)
    (S : VSPD ℝ) (hS : S.samples = s.samples.map fun p => ⟨(p.nm.val : ℝ), (p.v.val : ℝ)⟩)
    (x : FP f) (hx : x.isFinite = true) (h1 : a.nm.val ≤ x.val) (h2 : x.val ≤ z.nm.val) :
    ∃ (v : FP f) (w : ℝ), spragueEval s x = .ok v ∧ v.isFinite = true ∧
      spragueEval S (x.val : ℝ) = .ok w ∧ |(v.val : ℝ) - w| ≤ 8940 * f.u * V := by
  obtain ⟨k, hk, hlo, hle, hhi⟩ := around_fp h h1 h2
  obtain ⟨t, shape⟩ := S
  obtain rfl : t = s.samples.map fun p => ⟨(p.nm.val : ℝ), (p.v.val : ℝ)⟩ := hS
  have e := (spragueAt_err hf hp h shape ⟨hV, hV'⟩ hv hx k hk hlo hle).1
  exact ⟨_, _, spragueEval_fp hf h hx k hk hlo hhi, e.fin, spragueEval_exact h shape k hk hlo hhi, by
    rw [mul_assoc]; exact e.err⟩

/-- C87 [F]: between the third and the third last sample, where no extrapolated value is involved, the
error is at most `1150 u V` (1.3e-13 `V` in f64). -/
theorem C87_inner (hf : Std f) (hp : PowiAccurate f) (s : VSPD (FP f)) (a b z c e : Sample (FP f))
    (h : Spec.GoodGrid s a b z) (hl : 5 ≤ s.samples.length) (hc : s.samples[2]? = some c)
    (he : s.samples[s.samples.length - 3]? = some e)
    (V : ℝ) (hV : 1 / 2 ^ 60 ≤ V) (hV' : V ≤ 2 ^ 60)
    (hv : ∀ p ∈ s.samples, p.v.isFinite = true ∧ |(p.v.val : ℝ)| ≤ V)
    (S : VSPD ℝ) (hS : S.samples = s.samples.map fun p => ⟨(p.nm.val : ℝ), (p.v.val : ℝ)⟩)
    (x : FP f) (hx : x.isFinite = true) (h1 : c.nm.val ≤ x.val) (h2 : x.val < e.nm.val) :
    ∃ (v : FP f) (w : ℝ), spragueEval s x = .ok v ∧ v.isFinite = true ∧
      spragueEval S (x.val : ℝ) = .ok w ∧ |(v.val : ℝ) - w| ≤ 1150 * f.u * V := by
  have hinc : ∀ i j (hi : i < s.samples.length) (hj : j < s.samples.length), i ≤ j →
      (s.samples[i]).nm.val ≤ (s.samples[j]).nm.val := by
    intro i j hi hj hij
    rcases Nat.lt_or_ge i j with h' | h'
    · exact (List.pairwise_iff_getElem.1 h.incr i j hi hj h').le
    · have : i = j := by omega
      subst this; exact le_rfl
  obtain ⟨ic, rfl⟩ := List.getElem?_eq_some_iff.1 hc
  obtain ⟨ie, rfl⟩ := List.getElem?_eq_some_iff.1 he
  have ha : a.nm.val ≤ x.val := by
    obtain ⟨i, rfl⟩ := List.getElem?_eq_some_iff.1 h.first
    exact (hinc 0 2 i ic (by omega)).trans h1
  have hz : x.val ≤ z.nm.val := by
    have := h.last
    rw [List.getLast?_eq_getElem?] at this
    obtain ⟨i, rfl⟩ := List.getElem?_eq_some_iff.1 this
    exact h2.le.trans (hinc _ _ ie i (by omega))
  obtain ⟨k, hk, hlo, hle, hhi⟩ := around_fp h ha hz
  have k2 : 2 ≤ k := by
    by_contra hc
    have h5 := hinc (k + 1) 2 hk ic (by omega)
    rcases hhi with h6 | ⟨h6, -⟩
    · linarith
    · omega
  have k4 : k + 4 ≤ s.samples.length := by
    by_contra hc
    have h5 := hinc (s.samples.length - 3) k ie (by omega) (by omega)
    linarith
  obtain ⟨t, shape⟩ := S
  obtain rfl : t = s.samples.map fun p => ⟨(p.nm.val : ℝ), (p.v.val : ℝ)⟩ := hS
  have e := (spragueAt_err hf hp h shape ⟨hV, hV'⟩ hv hx k hk hlo hle).2 k2 k4
  exact ⟨_, _, spragueEval_fp hf h hx k hk hlo hhi, e.fin, spragueEval_exact h shape k hk hlo hhi, by
    rw [mul_assoc]; exact e.err⟩

end
end CS

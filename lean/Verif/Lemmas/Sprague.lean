import Verif.Lemmas.Vspd
import Mathlib.Tactic.FieldSimp
import Mathlib.Tactic.LinearCombination
import Mathlib.Data.List.GetD

/-! # Lemmas about Sprague interpolation -/

namespace CS

section
variable {T : Type} [Add T] [Sub T] [Mul T] [Div T] [Neg T] [Flt T]

theorem idx_eq_getD {α : Type} (l : List α) (i : ℕ) (d : α) (h : i < l.length) :
    idx l i = .ok (l.getD i d) := by
  unfold idx
  rw [List.getElem?_eq_getElem h]
  simp [List.getD, h]

/-- the interval index used by `evaluate` once the position `k + 1` has been found -/
def spragueI (n k : ℕ) : ℕ := min (max k 2) n

theorem spragueI_bounds {n : ℕ} (hn : 2 ≤ n) (k : ℕ) : 2 ≤ spragueI n k ∧ spragueI n k ≤ n := by
  unfold spragueI; omega

/-- the value computed by `evaluate` in interval `i` -/
def spragueAt (p : Sprague T) (i : ℕ) (x : T) : T :=
  spraguePoly (spragueA (p.y.getD (i - 2) Flt.zero) (p.y.getD (i - 1) Flt.zero)
    (p.y.getD i Flt.zero) (p.y.getD (i + 1) Flt.zero) (p.y.getD (i + 2) Flt.zero)
    (p.y.getD (i + 3) Flt.zero))
    ((x - p.x.getD i Flt.zero) / (p.x.getD (i + 1) Flt.zero - p.x.getD i Flt.zero))

/-- `evaluate`, as a function of the position found. -/
theorem Sprague.evaluate_eq (p : Sprague T) (n : ℕ) (hn : 2 ≤ n) (hx : p.x.length = n + 4)
    (hy : p.y.length = n + 4) (x : T) :
    p.evaluate x = match p.x.findIdx? fun t => Flt.lt x t with
      | none => .error .unwrap
      | some 0 => .error .overflow
      | some (k + 1) => .ok (spragueAt p (spragueI n k) x) := by
  unfold Sprague.evaluate
  cases h : p.x.findIdx? fun t => Flt.lt x t with
  | none => rfl
  | some pos =>
    cases pos with
    | zero => rfl
    | succ k =>
      obtain ⟨h2, hn'⟩ := spragueI_bounds hn k
      have e0 : usub (k + 1) 1 = .ok k := by unfold usub; rw [if_pos (by omega)]; rfl
      have e1 : usub p.x.length 4 = .ok n := by
        rw [hx]; unfold usub; rw [if_pos (by omega)]; rfl
      have e2 : usub (spragueI n k) 2 = .ok (spragueI n k - 2) := by
        unfold usub; rw [if_pos h2]
      have e3 : usub (spragueI n k) 1 = .ok (spragueI n k - 1) := by
        unfold usub; rw [if_pos (by omega)]
      simp only [unwrap, bind, Except.bind, e0, e1]
      rw [show min (max k 2) n = spragueI n k from rfl]
      simp only [idx_eq_getD p.x (spragueI n k) Flt.zero (by omega),
        idx_eq_getD p.x (spragueI n k + 1) Flt.zero (by omega),
        idx_eq_getD p.y (spragueI n k) Flt.zero (by omega), e2, e3,
        idx_eq_getD p.y (spragueI n k - 2) Flt.zero (by omega),
        idx_eq_getD p.y (spragueI n k - 1) Flt.zero (by omega),
        idx_eq_getD p.y (spragueI n k + 1) Flt.zero (by omega),
        idx_eq_getD p.y (spragueI n k + 2) Flt.zero (by omega),
        idx_eq_getD p.y (spragueI n k + 3) Flt.zero (by omega)]
      rfl

/-- the extended abscissae of `InterpolatorSprague::new` -/
def extX (s : VSPD T) (first second last : T) : List T :=
  [first - (second - first) * Flt.lit 2.0, first - (second - first)] ++ s.wavelengths ++
    [last + (second - first), last + (second - first) * Flt.lit 2.0]

/-- the extended ordinates of `InterpolatorSprague::new` -/
def extY (s : VSPD T) : List T :=
  [dotSum coeffC0 s.values / Flt.lit 209.0, dotSum coeffC1 s.values / Flt.lit 209.0] ++ s.values ++
    [dotSum coeffC2.reverse s.values.reverse / Flt.lit 209.0,
     dotSum coeffC3.reverse s.values.reverse / Flt.lit 209.0]

theorem Sprague.new_eq (s : VSPD T) (a b z : Sample T) (h0 : s.samples[0]? = some a)
    (h1 : s.samples[1]? = some b) (hz : s.samples.getLast? = some z) :
    Sprague.new s = .ok ⟨extX s a.nm b.nm z.nm, extY s⟩ := by
  unfold Sprague.new idx
  rw [List.head?_eq_getElem?, h0, h1, hz]
  rfl

omit [Neg T] [Div T] in
theorem extX_length (s : VSPD T) (a b z : T) : (extX s a b z).length = s.samples.length + 4 := by
  simp [extX, VSPD.wavelengths]

omit [Sub T] in
theorem extY_length (s : VSPD T) : (extY s).length = s.samples.length + 4 := by
  simp [extY, VSPD.values]

omit [Neg T] [Div T] in
theorem extX_getD (s : VSPD T) (a b z d : T) (k : ℕ) (p : Sample T) (h : s.samples[k]? = some p) :
    (extX s a b z).getD (k + 2) d = p.nm := by
  have hk : k < s.samples.length := (List.getElem?_eq_some_iff.1 h).1
  have : (extX s a b z)[k + 2]? = some p.nm := by
    simp only [extX, List.cons_append, List.nil_append, List.getElem?_cons_succ]
    rw [List.getElem?_append_left (by simpa [VSPD.wavelengths] using hk)]
    simp [VSPD.wavelengths, h]
  rw [List.getD, this]; rfl

omit [Sub T] in
theorem extY_getD (s : VSPD T) (d : T) (k : ℕ) (p : Sample T) (h : s.samples[k]? = some p) :
    (extY s).getD (k + 2) d = p.v := by
  have hk : k < s.samples.length := (List.getElem?_eq_some_iff.1 h).1
  have : (extY s)[k + 2]? = some p.v := by
    simp only [extY, List.cons_append, List.nil_append, List.getElem?_cons_succ]
    rw [List.getElem?_append_left (by simpa [VSPD.values] using hk)]
    simp [VSPD.values, h]
  rw [List.getD, this]; rfl

end

/-! ### Exact arithmetic -/

/-- the Sprague polynomial, in exact arithmetic -/
theorem spraguePoly_real (m2 m1 z p1 p2 p3 d : ℝ) :
    spraguePoly (spragueA m2 m1 z p1 p2 p3) d =
      z + (2 * m2 - 16 * m1 + 16 * p1 - 2 * p2) / 24 * d
        + (-m2 + 16 * m1 - 30 * z + 16 * p1 - p2) / 24 * d ^ 2
        + (-9 * m2 + 39 * m1 - 70 * z + 66 * p1 - 33 * p2 + 7 * p3) / 24 * d ^ 3
        + (13 * m2 - 64 * m1 + 126 * z - 124 * p1 + 61 * p2 - 12 * p3) / 24 * d ^ 4
        + (-5 * m2 + 25 * m1 - 50 * z + 50 * p1 - 25 * p2 + 5 * p3) / 24 * d ^ 5 := by
  unfold spraguePoly spragueA
  simp only [flt_powi, flt_lit]
  norm_num

theorem spraguePoly_zero (m2 m1 z p1 p2 p3 : ℝ) :
    spraguePoly (spragueA m2 m1 z p1 p2 p3) 0 = z := by
  rw [spraguePoly_real]; ring

theorem spraguePoly_one (m2 m1 z p1 p2 p3 : ℝ) :
    spraguePoly (spragueA m2 m1 z p1 p2 p3) 1 = p1 := by
  rw [spraguePoly_real]; ring

/-- polynomials of degree at most four are reproduced -/
theorem spraguePoly_quartic (c0 c1 c2 c3 c4 d : ℝ) (f : ℝ → ℝ)
    (hf : ∀ t, f t = c0 + c1 * t + c2 * t ^ 2 + c3 * t ^ 3 + c4 * t ^ 4) :
    spraguePoly (spragueA (f (-2)) (f (-1)) (f 0) (f 1) (f 2) (f 3)) d = f d := by
  rw [spraguePoly_real]; simp only [hf]; ring

theorem spraguePoly_linear (a b : ℝ) (u v : Fin 6 → ℝ) (d : ℝ) :
    spraguePoly (spragueA (a * u 0 + b * v 0) (a * u 1 + b * v 1) (a * u 2 + b * v 2)
      (a * u 3 + b * v 3) (a * u 4 + b * v 4) (a * u 5 + b * v 5)) d =
    a * spraguePoly (spragueA (u 0) (u 1) (u 2) (u 3) (u 4) (u 5)) d +
    b * spraguePoly (spragueA (v 0) (v 1) (v 2) (v 3) (v 4) (v 5)) d := by
  simp only [spraguePoly_real]; ring

/-! ### Boundary values -/

theorem dotSum_six (c0 c1 c2 c3 c4 c5 : ℝ) (l : List ℝ) (hl : 6 ≤ l.length) :
    dotSum [c0, c1, c2, c3, c4, c5] l = c0 * l.getD 0 0 + c1 * l.getD 1 0 + c2 * l.getD 2 0
      + c3 * l.getD 3 0 + c4 * l.getD 4 0 + c5 * l.getD 5 0 := by
  match l, hl with
  | a0 :: a1 :: a2 :: a3 :: a4 :: a5 :: rest, _ =>
    rw [dotSum_eq]
    simp [List.zipWith]
    ring

theorem getD_reverse' (l : List ℝ) (k : ℕ) (hk : k < l.length) :
    l.reverse.getD k 0 = l.getD (l.length - 1 - k) 0 := by
  rw [List.getD_eq_getElem _ _ (by simpa using hk), List.getD_eq_getElem _ _ (by omega),
    List.getElem_reverse]

/-- the two values appended at either side, for six or more samples -/
theorem extY_boundary (s : VSPD ℝ) (hl : 6 ≤ s.samples.length) :
    (extY s).getD 0 0 = (884 * s.values.getD 0 0 - 1960 * s.values.getD 1 0
      + 3033 * s.values.getD 2 0 - 2648 * s.values.getD 3 0 + 1080 * s.values.getD 4 0
      - 180 * s.values.getD 5 0) / 209 ∧
    (extY s).getD 1 0 = (508 * s.values.getD 0 0 - 540 * s.values.getD 1 0
      + 488 * s.values.getD 2 0 - 367 * s.values.getD 3 0 + 144 * s.values.getD 4 0
      - 24 * s.values.getD 5 0) / 209 ∧
    (extY s).getD (s.samples.length + 2) 0 = (508 * s.values.getD (s.samples.length - 1) 0
      - 540 * s.values.getD (s.samples.length - 2) 0 + 488 * s.values.getD (s.samples.length - 3) 0
      - 367 * s.values.getD (s.samples.length - 4) 0 + 144 * s.values.getD (s.samples.length - 5) 0
      - 24 * s.values.getD (s.samples.length - 6) 0) / 209 ∧
    (extY s).getD (s.samples.length + 3) 0 = (884 * s.values.getD (s.samples.length - 1) 0
      - 1960 * s.values.getD (s.samples.length - 2) 0 + 3033 * s.values.getD (s.samples.length - 3) 0
      - 2648 * s.values.getD (s.samples.length - 4) 0 + 1080 * s.values.getD (s.samples.length - 5) 0
      - 180 * s.values.getD (s.samples.length - 6) 0) / 209 := by
  have hv : s.values.length = s.samples.length := by simp [VSPD.values]
  have l209 : (Flt.lit 209.0 : ℝ) = 209 := by norm_num
  have c0 : (coeffC0 : List ℝ) = [884, -1960, 3033, -2648, 1080, -180] := by
    norm_num [coeffC0]
  have c1 : (coeffC1 : List ℝ) = [508, -540, 488, -367, 144, -24] := by
    norm_num [coeffC1]
  have c2 : (coeffC2 : List ℝ).reverse = [508, -540, 488, -367, 144, -24] := by
    norm_num [coeffC2]
  have c3 : (coeffC3 : List ℝ).reverse = [884, -1960, 3033, -2648, 1080, -180] := by
    norm_num [coeffC3]
  have hr : ∀ k, k < 6 → s.values.reverse.getD k 0 = s.values.getD (s.samples.length - 1 - k) 0 := by
    intro k hk; rw [getD_reverse' _ _ (by omega), hv]
  have hpre : ∀ k, ((extY s).getD (s.samples.length + 2 + k) 0 =
      [dotSum coeffC2.reverse s.values.reverse / Flt.lit 209.0,
        dotSum coeffC3.reverse s.values.reverse / Flt.lit 209.0].getD k 0) := by
    intro k
    unfold extY
    rw [List.getD_append_right _ _ _ _ (by simp [hv])]
    congr 1
    simp [hv]
  have h2 := hpre 0
  have h3 := hpre 1
  simp only [List.getD_cons_zero, List.getD_cons_succ, Nat.add_zero] at h2 h3
  rw [c2, dotSum_six _ _ _ _ _ _ _ (by simp [hv]; omega), l209, hr 0 (by omega), hr 1 (by omega),
    hr 2 (by omega), hr 3 (by omega), hr 4 (by omega), hr 5 (by omega)] at h2
  rw [c3, dotSum_six _ _ _ _ _ _ _ (by simp [hv]; omega), l209, hr 0 (by omega), hr 1 (by omega),
    hr 2 (by omega), hr 3 (by omega), hr 4 (by omega), hr 5 (by omega)] at h3
  have h0 : (extY s).getD 0 0 = dotSum coeffC0 s.values / Flt.lit 209.0 := rfl
  have h1 : (extY s).getD 1 0 = dotSum coeffC1 s.values / Flt.lit 209.0 := rfl
  rw [c0, dotSum_six _ _ _ _ _ _ _ (by omega), l209] at h0
  rw [c1, dotSum_six _ _ _ _ _ _ _ (by omega), l209] at h1
  simp only [Nat.sub_sub, Nat.reduceAdd, Nat.sub_zero] at h2 h3
  refine ⟨by rw [h0]; ring, by rw [h1]; ring, by rw [h2]; ring, by rw [h3]; ring⟩

/-- a spectrum sampled at `x0 + k*h`: the extended abscissae continue the progression -/
theorem extX_uniform (s : VSPD ℝ) (x0 h : ℝ) (a b z : Sample ℝ) (h0 : s.samples[0]? = some a)
    (h1 : s.samples[1]? = some b) (hz : s.samples.getLast? = some z)
    (hu : ∀ (k : ℕ) (p : Sample ℝ), s.samples[k]? = some p → p.nm = x0 + k * h)
    (j : ℕ) (hj : j < s.samples.length + 4) :
    (extX s a.nm b.nm z.nm).getD j 0 = x0 + ((j : ℝ) - 2) * h := by
  have l2 : (Flt.lit 2.0 : ℝ) = 2 := by norm_num
  have hlen : 2 ≤ s.samples.length := by
    have := (List.getElem?_eq_some_iff.1 h1).1; omega
  have ea : a.nm = x0 := by simpa using hu 0 a h0
  have eb : b.nm = x0 + h := by simpa using hu 1 b h1
  have ez : z.nm = x0 + ((s.samples.length : ℝ) - 1) * h := by
    have := hu (s.samples.length - 1) z (by rw [← List.getLast?_eq_getElem?]; exact hz)
    rw [this, Nat.cast_sub (by omega)]; simp
  rcases Nat.lt_or_ge j 2 with hj2 | hj2
  · have : j = 0 ∨ j = 1 := by omega
    rcases this with rfl | rfl
    · show a.nm - (b.nm - a.nm) * Flt.lit 2.0 = _
      rw [l2, ea, eb]; push_cast; ring
    · show a.nm - (b.nm - a.nm) = _
      rw [ea, eb]; push_cast; ring
  · rcases Nat.lt_or_ge j (s.samples.length + 2) with hj3 | hj3
    · have hk : s.samples[j - 2]? = some (s.samples[j - 2]'(by omega)) :=
        List.getElem?_eq_getElem (by omega)
      have := extX_getD s a.nm b.nm z.nm 0 (j - 2) _ hk
      rw [show j - 2 + 2 = j by omega] at this
      rw [this, hu _ _ hk, Nat.cast_sub hj2]; simp
    · have hpre : (extX s a.nm b.nm z.nm).getD j 0 =
          [z.nm + (b.nm - a.nm), z.nm + (b.nm - a.nm) * Flt.lit 2.0].getD
            (j - (s.samples.length + 2)) 0 := by
        unfold extX
        rw [List.getD_append_right _ _ _ _ (by simp [VSPD.wavelengths]; omega)]
        congr 1
        simp [VSPD.wavelengths]
      rw [hpre]
      have : j = s.samples.length + 2 ∨ j = s.samples.length + 3 := by omega
      rcases this with rfl | rfl
      · simp only [Nat.sub_self, List.getD_cons_zero]
        rw [ez, ea, eb]; push_cast; ring
      · rw [show s.samples.length + 3 - (s.samples.length + 2) = 1 by omega]
        simp only [List.getD_cons_zero, List.getD_cons_succ]
        rw [ez, ea, eb, l2]; push_cast; ring

/-- straight lines: the extended ordinates continue the line -/
theorem extY_line (s : VSPD ℝ) (x0 h α β : ℝ) (hl : 6 ≤ s.samples.length)
    (hu : ∀ (k : ℕ) (p : Sample ℝ), s.samples[k]? = some p →
      p.v = α + β * (x0 + k * h))
    (j : ℕ) (hj : j < s.samples.length + 4) :
    (extY s).getD j 0 = α + β * (x0 + ((j : ℝ) - 2) * h) := by
  obtain ⟨b0, b1, b2, b3⟩ := extY_boundary s hl
  have hval : ∀ k, k < s.samples.length → s.values.getD k 0 = α + β * (x0 + k * h) := by
    intro k hk
    have : s.values[k]? = some (s.samples[k].v) := by simp [VSPD.values, hk]
    rw [List.getD, this]
    exact hu k _ (List.getElem?_eq_getElem hk)
  have hlast : ∀ m, m ≤ 6 → 1 ≤ m → s.values.getD (s.samples.length - m) 0
      = α + β * (x0 + ((s.samples.length : ℝ) - m) * h) := by
    intro m hm hm1
    rw [hval _ (by omega), Nat.cast_sub (by omega)]
  rcases Nat.lt_or_ge j 2 with hj2 | hj2
  · have : j = 0 ∨ j = 1 := by omega
    rcases this with rfl | rfl
    · rw [b0]; simp only [hval _ (show 0 < _ by omega), hval 1 (by omega), hval 2 (by omega),
        hval 3 (by omega), hval 4 (by omega), hval 5 (by omega)]; push_cast; ring
    · rw [b1]; simp only [hval _ (show 0 < _ by omega), hval 1 (by omega), hval 2 (by omega),
        hval 3 (by omega), hval 4 (by omega), hval 5 (by omega)]; push_cast; ring
  · rcases Nat.lt_or_ge j (s.samples.length + 2) with hj3 | hj3
    · have hk : s.samples[j - 2]? = some (s.samples[j - 2]'(by omega)) :=
        List.getElem?_eq_getElem (by omega)
      have := extY_getD s 0 (j - 2) _ hk
      rw [show j - 2 + 2 = j by omega] at this
      rw [this, hu _ _ hk, Nat.cast_sub hj2]; push_cast; ring
    · have : j = s.samples.length + 2 ∨ j = s.samples.length + 3 := by omega
      rcases this with rfl | rfl
      · rw [b2, hlast 1 (by omega) (by omega), hlast 2 (by omega) (by omega),
          hlast 3 (by omega) (by omega), hlast 4 (by omega) (by omega),
          hlast 5 (by omega) (by omega), hlast 6 (by omega) (by omega)]
        push_cast; ring
      · rw [b3, hlast 1 (by omega) (by omega), hlast 2 (by omega) (by omega),
          hlast 3 (by omega) (by omega), hlast 4 (by omega) (by omega),
          hlast 5 (by omega) (by omega), hlast 6 (by omega) (by omega)]
        push_cast; ring

end CS

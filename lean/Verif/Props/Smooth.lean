import Verif.Props.Sprague
import Mathlib.Analysis.Calculus.ContDiff.Basic
import Mathlib.Analysis.Calculus.ContDiff.Operations
import Mathlib.Analysis.Calculus.ContDiff.Deriv
import Mathlib.Analysis.Calculus.Deriv.Pow
import Mathlib.Analysis.Calculus.Deriv.Add
import Mathlib.Analysis.Calculus.Deriv.Mul

/-!
# C86: Sprague interpolation gives a smooth curve

On the range of the samples the interpolator is the restriction of a continuous function, and, for
evenly spaced samples, of a function with a continuous second derivative.
-/

namespace CS

/-! ### Truncated powers -/

/-- the derivative of a truncated power -/
theorem hasDerivAt_trunc (n : ℕ) (x : ℝ) :
    HasDerivAt (fun t : ℝ => max t 0 ^ (n + 2)) ((n + 2 : ℝ) * max x 0 ^ (n + 1)) x := by
  rcases lt_trichotomy x 0 with hx | rfl | hx
  · have h : HasDerivAt (fun _ : ℝ => (0 : ℝ)) 0 x := hasDerivAt_const x 0
    have e : (n + 2 : ℝ) * max x 0 ^ (n + 1) = 0 := by rw [max_eq_right hx.le]; simp
    rw [e]
    refine h.congr_of_eventuallyEq ?_
    filter_upwards [gt_mem_nhds hx] with t ht
    rw [max_eq_right ht.le]; simp
  · rw [max_self]
    have e : (n + 2 : ℝ) * 0 ^ (n + 1) = 0 := by simp
    rw [e, hasDerivAt_iff_isLittleO_nhds_zero]
    have h2 : (fun t : ℝ => t ^ (n + 2)) =o[nhds 0] fun t => t := by
      have := Asymptotics.isLittleO_pow_id (𝕜 := ℝ) (n := n + 2) (by omega)
      simpa using this
    refine Asymptotics.IsBigO.trans_isLittleO ?_ h2
    refine Asymptotics.isBigO_of_le _ fun t => ?_
    simp only [zero_add, max_self, ne_eq, Nat.add_eq_zero_iff, OfNat.ofNat_ne_zero, and_false,
      not_false_eq_true, zero_pow, sub_zero, smul_zero, norm_pow, Real.norm_eq_abs]
    refine pow_le_pow_left₀ (abs_nonneg _) ?_ _
    rcases le_total t 0 with h | h
    · rw [max_eq_right h]; simp
    · rw [max_eq_left h]
  · have h : HasDerivAt (fun t : ℝ => t ^ (n + 2)) ((n + 2 : ℕ) * x ^ (n + 1)) x := by
      simpa using hasDerivAt_pow (n + 2) x
    rw [max_eq_left hx.le]
    push_cast at h
    refine h.congr_of_eventuallyEq ?_
    filter_upwards [lt_mem_nhds hx] with t ht
    rw [max_eq_left ht.le]

theorem contDiff_trunc : ContDiff ℝ 2 (fun t : ℝ => max t 0 ^ 3) := by
  have d1 : deriv (fun t : ℝ => max t 0 ^ 3) = fun t => 3 * max t 0 ^ 2 := by
    funext x
    have := (hasDerivAt_trunc 1 x).deriv
    norm_num at this
    exact this
  have d2 : deriv (fun t : ℝ => 3 * max t 0 ^ 2) = fun t => 6 * max t 0 := by
    funext x
    refine ((hasDerivAt_trunc 0 x).const_mul (3 : ℝ)).deriv.trans ?_
    push_cast; ring
  have h2 : ContDiff ℝ 1 (fun t : ℝ => 3 * max t 0 ^ 2) := by
    rw [show (1 : WithTop ℕ∞) = 0 + 1 from rfl, contDiff_succ_iff_deriv]
    refine ⟨fun x => ((hasDerivAt_trunc 0 x).const_mul (3 : ℝ)).differentiableAt, by simp, ?_⟩
    rw [d2, contDiff_zero]
    exact continuous_const.mul (continuous_id.max continuous_const)
  rw [show (2 : WithTop ℕ∞) = 1 + 1 from by norm_num, contDiff_succ_iff_deriv]
  refine ⟨fun x => (hasDerivAt_trunc 1 x).differentiableAt, by simp, ?_⟩
  rw [d1]; exact h2

/-! ### The pieces -/

/-- the Sprague polynomial through six consecutive values -/
noncomputable def piece (y : ℕ → ℝ) (k : ℕ) (d : ℝ) : ℝ :=
  spraguePoly (spragueA (y k) (y (k + 1)) (y (k + 2)) (y (k + 3)) (y (k + 4)) (y (k + 5))) d

theorem contDiff_piece (y : ℕ → ℝ) (k : ℕ) : ContDiff ℝ 2 (piece y k) := by
  unfold piece
  simp only [spraguePoly_real]
  fun_prop

/-- the cofactor of the triple root of the difference of neighbouring pieces -/
noncomputable def jump (y : ℕ → ℝ) (k : ℕ) (e : ℝ) : ℝ :=
  let A3 (m2 m1 z p1 p2 p3 : ℝ) := (-9 * m2 + 39 * m1 - 70 * z + 66 * p1 - 33 * p2 + 7 * p3) / 24
  let A4 (m2 m1 z p1 p2 p3 : ℝ) := (13 * m2 - 64 * m1 + 126 * z - 124 * p1 + 61 * p2 - 12 * p3) / 24
  let A5 (m2 m1 z p1 p2 p3 : ℝ) := (-5 * m2 + 25 * m1 - 50 * z + 50 * p1 - 25 * p2 + 5 * p3) / 24
  let a3 := A3 (y k) (y (k + 1)) (y (k + 2)) (y (k + 3)) (y (k + 4)) (y (k + 5))
  let a4 := A4 (y k) (y (k + 1)) (y (k + 2)) (y (k + 3)) (y (k + 4)) (y (k + 5))
  let a5 := A5 (y k) (y (k + 1)) (y (k + 2)) (y (k + 3)) (y (k + 4)) (y (k + 5))
  let b3 := A3 (y (k + 1)) (y (k + 2)) (y (k + 3)) (y (k + 4)) (y (k + 5)) (y (k + 6))
  let b4 := A4 (y (k + 1)) (y (k + 2)) (y (k + 3)) (y (k + 4)) (y (k + 5)) (y (k + 6))
  let b5 := A5 (y (k + 1)) (y (k + 2)) (y (k + 3)) (y (k + 4)) (y (k + 5)) (y (k + 6))
  (b3 - (a3 + 4 * a4 + 10 * a5)) + (b4 - (a4 + 5 * a5)) * e + (b5 - a5) * e ^ 2

/-- neighbouring pieces agree with two derivatives at the sample between them -/
theorem piece_succ (y : ℕ → ℝ) (k : ℕ) (e : ℝ) :
    piece y (k + 1) e = piece y k (1 + e) + e ^ 3 * jump y k e := by
  unfold piece jump
  simp only [spraguePoly_real]
  ring

/-- the curve made of the pieces `0 .. m`, in units of the spacing -/
noncomputable def curve (y : ℕ → ℝ) : ℕ → ℝ → ℝ
  | 0, t => piece y 0 t
  | m + 1, t => curve y m t + max (t - (m + 1 : ℕ)) 0 ^ 3 * jump y m (t - (m + 1 : ℕ))

theorem contDiff_curve (y : ℕ → ℝ) : ∀ m, ContDiff ℝ 2 (curve y m)
  | 0 => contDiff_piece y 0
  | m + 1 => by
    have h : ContDiff ℝ 2 fun t : ℝ => max (t - (m + 1 : ℕ)) 0 ^ 3 :=
      contDiff_trunc.comp (contDiff_id.sub contDiff_const)
    have hj : ContDiff ℝ 2 fun t : ℝ => jump y m (t - (m + 1 : ℕ)) := by
      unfold jump; fun_prop
    exact (contDiff_curve y m).add (h.mul hj)

theorem curve_last (y : ℕ → ℝ) : ∀ (m : ℕ) (t : ℝ), (m : ℝ) ≤ t → curve y m t = piece y m (t - m)
  | 0, t, _ => by simp [curve]
  | m + 1, t, h => by
    have h' : (m : ℝ) ≤ t := by push_cast at h; linarith
    rw [curve, curve_last y m t h', max_eq_left (by linarith), piece_succ]
    congr 2
    push_cast; ring

theorem curve_piece (y : ℕ → ℝ) (k : ℕ) (t : ℝ) (h1 : (k : ℝ) ≤ t) (h2 : t ≤ k + 1) (j : ℕ) :
    curve y (k + j) t = piece y k (t - k) := by
  induction j with
  | zero => exact curve_last y k t h1
  | succ j ih =>
    rw [← Nat.add_assoc, curve, ih, max_eq_right (by push_cast; linarith [Nat.cast_nonneg (α := ℝ) j])]
    simp

/-! ### C86 -/

/-- C86 [R]: for two or more samples, evenly spaced at distance `h > 0` from `x0`, the interpolator
evaluated anywhere between the first and the last wavelength is the value of one function with a
continuous second derivative. -/
theorem C86_smooth (s : VSPD ℝ) (x0 h : ℝ) (hh : 0 < h) (hl : 2 ≤ s.samples.length)
    (hu : ∀ (k : ℕ) (p : Sample ℝ), s.samples[k]? = some p → p.nm = x0 + k * h) :
    ∃ F : ℝ → ℝ, ContDiff ℝ 2 F ∧
      ∀ x, x0 ≤ x → x ≤ x0 + ((s.samples.length : ℝ) - 1) * h → spragueEval s x = .ok (F x) := by
  set n := s.samples.length with hn
  let y : ℕ → ℝ := fun i => (extY s).getD i 0
  refine ⟨fun x => curve y (n - 2) ((x - x0) / h), ?_, ?_⟩
  · exact (contDiff_curve y (n - 2)).comp ((contDiff_id.sub contDiff_const).div_const h)
  intro x hx1 hx2
  have h0 : s.samples[0]? = some (s.samples[0]) := List.getElem?_eq_getElem (by omega)
  have h1 : s.samples[1]? = some (s.samples[1]) := List.getElem?_eq_getElem (by omega)
  have hz' : s.samples[n - 1]? = some (s.samples[n - 1]) := List.getElem?_eq_getElem (by omega)
  have hz : s.samples.getLast? = some (s.samples[n - 1]) := by
    rw [List.getLast?_eq_getElem?]; exact hz'
  have hs : s.wavelengths.Pairwise (· < ·) := by
    rw [List.pairwise_iff_getElem]
    intro i j hi hj hij
    have hi' : i < s.samples.length := by simpa [VSPD.wavelengths] using hi
    have hj' : j < s.samples.length := by simpa [VSPD.wavelengths] using hj
    have ei := hu i _ (List.getElem?_eq_getElem hi')
    have ej := hu j _ (List.getElem?_eq_getElem hj')
    simp only [VSPD.wavelengths, List.getElem_map]
    rw [ei, ej]
    have : (i : ℝ) < j := by exact_mod_cast hij
    nlinarith
  set t := (x - x0) / h with ht
  have hxt : x = x0 + t * h := by rw [ht]; field_simp; ring
  have ht0 : 0 ≤ t := div_nonneg (by linarith) hh.le
  have ht1 : t ≤ (n : ℝ) - 1 := by rw [ht, div_le_iff₀ hh]; linarith
  -- the value in cell `k`
  have cell : ∀ k : ℕ, k + 2 ≤ n → spragueAt ⟨extX s s.samples[0].nm s.samples[1].nm
      s.samples[n - 1].nm, extY s⟩ (k + 2) x = piece y k (t - k) := by
    intro k hk
    have u1 := extX_uniform s x0 h _ _ _ h0 h1 hz hu (k + 2) (by omega)
    have u2 := extX_uniform s x0 h _ _ _ h0 h1 hz hu (k + 2 + 1) (by omega)
    unfold spragueAt piece
    have hz0 : (Flt.zero : ℝ) = 0 := by simp [Flt.zero]
    simp only [hz0, u1, u2]
    rw [show k + 2 - 2 = k by omega, show k + 2 - 1 = k + 1 by omega]
    congr 1
    have h' : h ≠ 0 := hh.ne'
    rw [div_eq_iff (by push_cast; intro hc; apply h'; linarith), hxt]
    push_cast; ring
  rcases lt_or_eq_of_le ht1 with hlt | heq
  · -- inside a cell
    obtain ⟨k, hk1, hk2⟩ : ∃ k : ℕ, (k : ℝ) ≤ t ∧ t < k + 1 :=
      ⟨⌊t⌋₊, Nat.floor_le ht0, Nat.lt_floor_add_one t⟩
    have hkn : k + 2 ≤ n := by
      have : (k : ℝ) < (n : ℝ) - 1 := lt_of_le_of_lt hk1 hlt
      have : (k : ℝ) + 1 < n := by linarith
      have : k + 1 < n := by exact_mod_cast this
      omega
    have hp : s.samples[k]? = some (s.samples[k]) := List.getElem?_eq_getElem (by omega)
    have hq : s.samples[k + 1]? = some (s.samples[k + 1]) := List.getElem?_eq_getElem (by omega)
    have e1 := hu k _ hp
    have e2 := hu (k + 1) _ hq
    rw [spragueEval_between s _ _ _ h0 h1 hz hs k _ _ hp hq x
      (by rw [e1, hxt]; nlinarith) (by rw [e2, hxt]; push_cast; nlinarith), cell k hkn]
    have := curve_piece y k t hk1 hk2.le (n - 2 - k)
    rw [show k + (n - 2 - k) = n - 2 by omega] at this
    exact congrArg Except.ok this.symm
  · have e0 := hu 0 _ h0
    have e1 := hu 1 _ h1
    have ez := hu (n - 1) _ hz'
    have hc : ((n - 1 : ℕ) : ℝ) = (n : ℝ) - 1 := by rw [Nat.cast_sub (by omega)]; simp
    have hc2 : ((n - 2 : ℕ) : ℝ) = (n : ℝ) - 2 := by rw [Nat.cast_sub (by omega)]; simp
    have hx : x = s.samples[n - 1].nm := by rw [ez, hxt, heq, hc]
    rw [spragueEval_right s _ _ _ h0 h1 hz hs x hx.ge (by
      rw [← hx, e0, e1]; push_cast; linarith)]
    have c := cell (n - 2) (by omega)
    rw [show n - 2 + 2 = n by omega] at c
    rw [c]
    have := curve_piece y (n - 2) t (by rw [hc2, heq]; linarith) (by rw [hc2, heq]; linarith) 0
    rw [Nat.add_zero] at this
    exact congrArg Except.ok this.symm

/-- the hypotheses are met by a non-trivial spectrum -/
example : ∃ F : ℝ → ℝ, ContDiff ℝ 2 F ∧ ∀ x, 400 ≤ x → x ≤ 420 →
    spragueEval (⟨[⟨400, 1⟩, ⟨410, 3⟩, ⟨420, 2⟩], SpdShape.new 400 420 10⟩ : VSPD ℝ) x = .ok (F x) := by
  obtain ⟨F, h1, h2⟩ := C86_smooth
    (⟨[⟨400, 1⟩, ⟨410, 3⟩, ⟨420, 2⟩], SpdShape.new 400 420 10⟩ : VSPD ℝ) 400 10 (by norm_num)
    (by simp) (by
      intro k p hp
      match k, hp with
      | 0, hp => simp at hp; subst hp; norm_num
      | 1, hp => simp at hp; subst hp; norm_num
      | 2, hp => simp at hp; subst hp; norm_num
      | k + 3, hp => simp at hp)
  exact ⟨F, h1, fun x a b => h2 x a (by simp; linarith)⟩

/-! ### Uneven spacing -/

/-- pieces over the cells of an arbitrary increasing grid, glued at the samples -/
noncomputable def glued (g : ℕ → ℝ → ℝ) (w : ℕ → ℝ) : ℕ → ℝ → ℝ
  | 0, x => g 0 x
  | m + 1, x => if x ≤ w (m + 1) then glued g w m x else g (m + 1) x

theorem glued_last (g : ℕ → ℝ → ℝ) (w : ℕ → ℝ) (m : ℕ)
    (hg : ∀ k, k < m → g k (w (k + 1)) = g (k + 1) (w (k + 1)))
    (hw : ∀ k, k < m → w k < w (k + 1)) :
    ∀ x, w m ≤ x → glued g w m x = g m x := by
  induction m with
  | zero => intro x _; rfl
  | succ m ih =>
    intro x hx
    have ih := ih (fun k hk => hg k (by omega)) (fun k hk => hw k (by omega))
    unfold glued
    split_ifs with h
    · have : x = w (m + 1) := le_antisymm h hx
      subst this
      rw [ih _ (hw m (by omega)).le, hg m (by omega)]
    · rfl

theorem continuous_glued (g : ℕ → ℝ → ℝ) (w : ℕ → ℝ) (m : ℕ)
    (hg : ∀ k, k < m → g k (w (k + 1)) = g (k + 1) (w (k + 1)))
    (hw : ∀ k, k < m → w k < w (k + 1)) (hc : ∀ k, Continuous (g k)) :
    Continuous (glued g w m) := by
  induction m with
  | zero => exact hc 0
  | succ m ih =>
    have hg' : ∀ k, k < m → g k (w (k + 1)) = g (k + 1) (w (k + 1)) := fun k hk => hg k (by omega)
    have hw' : ∀ k, k < m → w k < w (k + 1) := fun k hk => hw k (by omega)
    refine Continuous.if_le (ih hg' hw') (hc _) continuous_id continuous_const ?_
    intro x hx
    subst hx
    rw [glued_last g w m hg' hw' _ (hw m (by omega)).le, hg m (by omega)]

theorem glued_piece (g : ℕ → ℝ → ℝ) (w : ℕ → ℝ) (k j : ℕ)
    (hg : ∀ i, i < k + j → g i (w (i + 1)) = g (i + 1) (w (i + 1)))
    (hw : ∀ i, i < k + j → w i < w (i + 1)) (x : ℝ) (h1 : w k ≤ x) (h2 : x ≤ w (k + 1)) :
    glued g w (k + j) x = g k x := by
  induction j with
  | zero => exact glued_last g w k hg hw x h1
  | succ j ih =>
    rw [← Nat.add_assoc, glued, if_pos, ih (fun i hi => hg i (by omega)) (fun i hi => hw i (by omega))]
    have : ∀ j', j' ≤ j → w (k + 1) ≤ w (k + j' + 1) := by
      intro j' hj'
      induction j' with
      | zero => exact le_rfl
      | succ j' ihj => exact (ihj (by omega)).trans (hw (k + j' + 1) (by omega)).le
    exact h2.trans (this j le_rfl)

/-- C86 [R]: for two or more samples with strictly increasing wavelengths, evenly spaced or not, the
interpolator evaluated between the first and the last wavelength is the value of one continuous
function. -/
theorem C86_continuous (s : VSPD ℝ) (a z : Sample ℝ) (hl : 2 ≤ s.samples.length)
    (h0 : s.samples.head? = some a) (hz : s.samples.getLast? = some z)
    (hs : s.wavelengths.Pairwise (· < ·)) :
    ∃ F : ℝ → ℝ, Continuous F ∧
      ∀ x, a.nm ≤ x → x ≤ z.nm → spragueEval s x = .ok (F x) := by
  set n := s.samples.length with hn
  rw [List.head?_eq_getElem?] at h0
  have h1 : s.samples[1]? = some (s.samples[1]) := List.getElem?_eq_getElem (by omega)
  have hz' : s.samples[n - 1]? = some z := by rw [← List.getLast?_eq_getElem?]; exact hz
  let X := extX s a.nm s.samples[1].nm z.nm
  let g : ℕ → ℝ → ℝ := fun k x => spragueAt ⟨X, extY s⟩ (k + 2) x
  let w : ℕ → ℝ := fun k => X.getD (k + 2) 0
  have hzero : (Flt.zero : ℝ) = 0 := by simp [Flt.zero]
  have hwk : ∀ (k : ℕ) (h : k < n), w k = (s.samples[k]).nm := fun k h =>
    extX_getD s _ _ _ 0 k _ (List.getElem?_eq_getElem h)
  have hyk : ∀ (k : ℕ) (h : k < n), (extY s).getD (k + 2) 0 = (s.samples[k]).v := fun k h =>
    extY_getD s 0 k _ (List.getElem?_eq_getElem h)
  have hlt : ∀ k, k + 1 < n → w k < w (k + 1) := by
    intro k hk
    rw [hwk k (by omega), hwk (k + 1) hk]
    have := List.pairwise_iff_getElem.1 hs k (k + 1) (by simp [VSPD.wavelengths]; omega)
      (by simp [VSPD.wavelengths]; omega) (by omega)
    simpa [VSPD.wavelengths] using this
  have hg : ∀ k, k < n - 2 → g k (w (k + 1)) = g (k + 1) (w (k + 1)) := by
    intro k hk
    have hne : w (k + 1) - w k ≠ 0 := by have := hlt k (by omega); intro h; linarith
    have e1 : g k (w (k + 1)) = (extY s).getD (k + 1 + 2) 0 := by
      simp only [g, spragueAt, hzero]
      rw [show (w (k + 1) - X.getD (k + 2) 0) / (X.getD (k + 2 + 1) 0 - X.getD (k + 2) 0) = 1 from
        div_self hne, spraguePoly_one]
    have e2 : g (k + 1) (w (k + 1)) = (extY s).getD (k + 1 + 2) 0 := by
      simp only [g, spragueAt, hzero]
      rw [show w (k + 1) - X.getD (k + 1 + 2) 0 = 0 from sub_self _, zero_div, spraguePoly_zero]
    rw [e1, e2]
  have hw : ∀ k, k < n - 2 → w k < w (k + 1) := fun k hk => hlt k (by omega)
  have hc : ∀ k, Continuous (g k) := by
    intro k
    simp only [g, spragueAt, spraguePoly_real]
    fun_prop
  refine ⟨glued g w (n - 2), continuous_glued g w (n - 2) hg hw hc, ?_⟩
  intro x hx1 hx2
  rcases lt_or_eq_of_le hx2 with hlt' | heq
  · -- find the cell
    have hex : ∃ k, k + 1 < n ∧ x < w (k + 1) := ⟨n - 2, by omega, by
      rw [hwk _ (by omega)]
      have e : s.samples[n - 2 + 1]? = some z := by rw [show n - 2 + 1 = n - 1 by omega]; exact hz'
      rw [List.getElem?_eq_getElem (by omega)] at e
      injection e with e
      rw [e]; exact hlt'⟩
    classical
    obtain ⟨hk1, hk2⟩ := Nat.find_spec hex
    set k := Nat.find hex with hkdef
    have hk0 : w k ≤ x := by
      rcases Nat.eq_zero_or_pos k with h | h
      · rw [h, hwk 0 (by omega)]
        rw [List.getElem?_eq_getElem (by omega)] at h0
        injection h0 with h0
        rw [h0]; exact hx1
      · have := Nat.find_min hex (m := k - 1) (by omega)
        rw [not_and] at this
        have := not_lt.1 (this (by omega))
        rwa [show k - 1 + 1 = k by omega] at this
    have hp : s.samples[k]? = some (s.samples[k]) := List.getElem?_eq_getElem (by omega)
    have hq : s.samples[k + 1]? = some (s.samples[k + 1]) := List.getElem?_eq_getElem (by omega)
    rw [spragueEval_between s a _ z h0 h1 hz hs k _ _ hp hq x (by rw [← hwk k (by omega)]; exact hk0)
      (by rw [← hwk (k + 1) (by omega)]; exact hk2)]
    have := glued_piece g w k (n - 2 - k) (fun i hi => hg i (by omega)) (fun i hi => hw i (by omega))
      x hk0 hk2.le
    rw [show k + (n - 2 - k) = n - 2 by omega] at this
    exact congrArg Except.ok this.symm
  · have h01 : a.nm < s.samples[1].nm := by
      have := hlt 0 (by omega)
      rw [hwk 0 (by omega), hwk 1 (by omega)] at this
      rw [List.getElem?_eq_getElem (by omega)] at h0
      injection h0 with h0
      rwa [h0] at this
    rw [spragueEval_right s a _ z h0 h1 hz hs x heq.ge (by rw [heq]; linarith)]
    have ez : w (n - 1) = z.nm := by
      rw [hwk _ (by omega)]
      rw [List.getElem?_eq_getElem (by omega)] at hz'
      injection hz' with hz'
      rw [hz']
    have h2 := hw
    have := glued_piece g w (n - 2) 0 (fun i hi => hg i (by omega)) (fun i hi => hw i (by omega)) x
      (by rw [heq, ← ez]
          have := hlt (n - 2) (by omega)
          rw [show n - 2 + 1 = n - 1 by omega] at this
          exact this.le)
      (by rw [heq, ← ez, show n - 2 + 1 = n - 1 by omega])
    rw [Nat.add_zero] at this
    have e : spragueAt ⟨X, extY s⟩ n x = g (n - 2) x := by
      simp only [g]; rw [show n - 2 + 2 = n by omega]
    exact congrArg Except.ok (e.trans this.symm)

/-- an unevenly spaced spectrum meets the hypotheses -/
example : ∃ F : ℝ → ℝ, Continuous F ∧ ∀ x, 400 ≤ x → x ≤ 435 →
    spragueEval (⟨[⟨400, 1⟩, ⟨410, 3⟩, ⟨435, 2⟩], ⟨400, 435, .varying⟩⟩ : VSPD ℝ) x = .ok (F x) :=
  C86_continuous _ ⟨400, 1⟩ ⟨435, 2⟩ (by simp) rfl rfl (by simp [VSPD.wavelengths]; norm_num)

end CS

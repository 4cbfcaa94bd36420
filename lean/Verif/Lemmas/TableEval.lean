import Verif.Lemmas.Grid
import Verif.Lemmas.ToXyz
import Verif.Model.Spectra

/-!
# Evaluating shipped tables
Rational formulas for the values that resampling gives a table on an even grid.
-/

namespace CS

/-- the values of a table, as reals -/
def castVals (t : List (ℚ × ℚ)) : List ℝ := t.map fun p => (p.2 : ℝ)

/-- `t` is a table at `lo`, `lo + i`, ..., of length `n` -/
def OnGrid (t : List (ℚ × ℚ)) (lo i : ℚ) (n : ℕ) : Prop :=
  t.map Prod.fst = (List.range n).map fun k : ℕ => lo + k * i

instance (t : List (ℚ × ℚ)) (lo i : ℚ) (n : ℕ) : Decidable (OnGrid t lo i n) :=
  inferInstanceAs (Decidable (_ = _))

/-- the value function of a table on a grid -/
noncomputable def tableFn (t : List (ℚ × ℚ)) (lo i : ℚ) (x : ℝ) : ℝ :=
  (castVals t).getD ⌊(x - lo) / i⌋₊ 0

/-- the spectrum of a table on a grid -/
noncomputable def tableSpd (t : List (ℚ × ℚ)) (lo i : ℚ) (n : ℕ) : VSPD ℝ :=
  onGrid lo (lo + (n - 1 : ℕ) * i) i n (tableFn t lo i)

theorem OnGrid.length {t : List (ℚ × ℚ)} {lo i : ℚ} {n : ℕ} (h : OnGrid t lo i n) : t.length = n := by
  have := congrArg List.length h
  simpa using this

theorem tableFn_grid (t : List (ℚ × ℚ)) (lo i : ℚ) (hi : 0 < i) (k : ℕ) :
    tableFn t lo i ((lo : ℝ) + k * i) = (((t.map Prod.snd).getD k 0 : ℚ) : ℝ) := by
  have hi' : (0:ℝ) < i := by exact_mod_cast hi
  have h1 : ((lo : ℝ) + k * i - lo) / i = k := by field_simp; ring
  unfold tableFn
  rw [h1, Nat.floor_natCast]
  unfold castVals
  simp only [List.getD_eq_getElem?_getD, List.getElem?_map]
  cases t[k]? <;> simp

/-- what `vspd!` builds from a table on an even grid -/
theorem vspd_grid (t : List (ℚ × ℚ)) (lo i : ℚ) (n : ℕ) (hi : 0 < i) (h2 : 2 ≤ n)
    (h : OnGrid t lo i n) : Spectra.vspd (T := ℝ) t = .ok (tableSpd t lo i n) := by
  have hlen := h.length
  have hi' : (0:ℝ) < i := by exact_mod_cast hi
  have hs : (t.map fun p => (⟨Flt.lit p.1, Flt.lit p.2⟩ : Sample ℝ)) = gridSamples lo i (castVals t) := by
    apply List.ext_getElem
    · simp [gridSamples, castVals]
    · intro k hk hk'
      have hkt : k < t.length := by simpa using hk
      have hf : (t[k]).1 = lo + k * i := by
        have h3 : (t.map Prod.fst)[k]? = ((List.range n).map fun k : ℕ => lo + k * i)[k]? := by
          rw [show t.map Prod.fst = _ from h]
        rw [List.getElem?_map, List.getElem?_eq_getElem hkt, List.getElem?_map,
          List.getElem?_range (by omega)] at h3
        simpa using h3
      simp only [List.getElem_map, gridSamples, List.getElem_range]
      rw [hf]
      ext
      · simp [flt_lit]
      · simp only [flt_lit, castVals, List.getD_eq_getElem?_getD, List.getElem?_map,
          List.getElem?_eq_getElem hkt]
        simp
  unfold Spectra.vspd
  rw [new_grid (lo : ℝ) i (castVals t) (by simp [castVals]; omega) _ hs, hs]
  have hl2 : (castVals t).length = n := by simp [castVals, hlen]
  unfold tableSpd onGrid
  rw [hl2]
  congr 2
  unfold gridSamples
  rw [hl2]
  refine List.map_congr_left fun k hk => ?_
  rw [tableFn_grid t lo i hi k]
  ext
  · rfl
  · simp only [castVals, List.getD_eq_getElem?_getD, List.getElem?_map]
    cases t[k]? <;> simp

/-- the two values appended on each side and the table values, index shifted by 2 -/
def extQ (v : List ℚ) (j : ℕ) : ℚ :=
  let n := v.length
  let g (k : ℕ) : ℚ := v.getD k 0
  if j = 0 then (884 * g 0 - 1960 * g 1 + 3033 * g 2 - 2648 * g 3 + 1080 * g 4 - 180 * g 5) / 209
  else if j = 1 then (508 * g 0 - 540 * g 1 + 488 * g 2 - 367 * g 3 + 144 * g 4 - 24 * g 5) / 209
  else if j = n + 2 then (508 * g (n - 1) - 540 * g (n - 2) + 488 * g (n - 3) - 367 * g (n - 4)
    + 144 * g (n - 5) - 24 * g (n - 6)) / 209
  else if j = n + 3 then (884 * g (n - 1) - 1960 * g (n - 2) + 3033 * g (n - 3) - 2648 * g (n - 4)
    + 1080 * g (n - 5) - 180 * g (n - 6)) / 209
  else g (j - 2)

/-- the Sprague polynomial between samples `k` and `k + 1`, at fraction `d` -/
def sprQ (v : List ℚ) (k : ℕ) (d : ℚ) : ℚ :=
  let m2 := extQ v k
  let m1 := extQ v (k + 1)
  let z := extQ v (k + 2)
  let p1 := extQ v (k + 3)
  let p2 := extQ v (k + 4)
  let p3 := extQ v (k + 5)
  z + (2 * m2 - 16 * m1 + 16 * p1 - 2 * p2) / 24 * d
    + (-m2 + 16 * m1 - 30 * z + 16 * p1 - p2) / 24 * d ^ 2
    + (-9 * m2 + 39 * m1 - 70 * z + 66 * p1 - 33 * p2 + 7 * p3) / 24 * d ^ 3
    + (13 * m2 - 64 * m1 + 126 * z - 124 * p1 + 61 * p2 - 12 * p3) / 24 * d ^ 4
    + (-5 * m2 + 25 * m1 - 50 * z + 50 * p1 - 25 * p2 + 5 * p3) / 24 * d ^ 5

theorem tableSpd_values (t : List (ℚ × ℚ)) (lo i : ℚ) (n : ℕ) (hi : 0 < i) (hl : t.length = n) :
    (tableSpd t lo i n).values = castVals t := by
  unfold tableSpd
  rw [onGrid_values]
  apply List.ext_getElem
  · simp [castVals, hl]
  · intro k hk hk'
    simp only [List.getElem_map, List.getElem_range]
    rw [tableFn_grid t lo i hi k]
    have hkt : k < t.length := by simpa [castVals] using hk'
    simp [castVals, hkt]

theorem castVals_getD (t : List (ℚ × ℚ)) (k : ℕ) :
    (castVals t).getD k 0 = (((t.map Prod.snd).getD k 0 : ℚ) : ℝ) := by
  simp only [castVals, List.getD_eq_getElem?_getD, List.getElem?_map]
  cases t[k]? <;> simp

theorem extY_extQ (t : List (ℚ × ℚ)) (lo i : ℚ) (n : ℕ) (hi : 0 < i) (hl : t.length = n) (h6 : 6 ≤ n)
    (j : ℕ) (hj : j < n + 4) :
    (extY (tableSpd t lo i n)).getD j 0 = ((extQ (t.map Prod.snd) j : ℚ) : ℝ) := by
  have hsl : (tableSpd t lo i n).samples.length = n := onGrid_length _ _ _ _ _
  obtain ⟨e0, e1, e2, e3⟩ := extY_boundary (tableSpd t lo i n) (by rw [hsl]; exact h6)
  rw [tableSpd_values t lo i n hi hl, hsl] at *
  simp only [castVals_getD] at e0 e1 e2 e3
  have hln : (t.map Prod.snd).length = n := by simp [hl]
  unfold extQ
  simp only [hln]
  split
  · subst j; rw [e0]; push_cast; rfl
  split
  · subst j; rw [e1]; push_cast; rfl
  split
  · subst j; rw [e2]; push_cast; rfl
  split
  · subst j; rw [e3]; push_cast; rfl
  · obtain ⟨k, rfl⟩ : ∃ k, j = k + 2 := ⟨j - 2, by omega⟩
    have := extY_getD (tableSpd t lo i n) 0 k _ (onGrid_get _ _ _ _ _ k (by omega))
    rw [this]
    simp only [Nat.add_sub_cancel]
    exact tableFn_grid t lo i hi k

theorem tableSpd_asc (t : List (ℚ × ℚ)) (lo i : ℚ) (n : ℕ) (hi : 0 < i) :
    (tableSpd t lo i n).wavelengths.Pairwise (· < ·) :=
  onGrid_asc _ _ _ _ _ (by exact_mod_cast hi)

/-- resampling a table between two of its samples -/
theorem resampled_between (t : List (ℚ × ℚ)) (lo i : ℚ) (n : ℕ) (hi : 0 < i) (hl : t.length = n)
    (h6 : 6 ≤ n) (k : ℕ) (hk : k + 1 < n) (d : ℚ) (hd : 0 ≤ d) (hd1 : d < 1) (x : ℝ)
    (hx : x = lo + (k + d) * i) :
    resampled (tableSpd t lo i n) x = ((sprQ (t.map Prod.snd) k d : ℚ) : ℝ) := by
  have hi' : (0:ℝ) < i := by exact_mod_cast hi
  have hd' : (0:ℝ) ≤ d := by exact_mod_cast hd
  have hd1' : (d:ℝ) < 1 := by exact_mod_cast hd1
  have hkn : ((k:ℝ) + 1) ≤ ((n - 1 : ℕ) : ℝ) := by exact_mod_cast (by omega : k + 1 ≤ n - 1)
  have hsl : (tableSpd t lo i n).samples.length = n := onGrid_length _ _ _ _ _
  have g : ∀ k, k < n → (tableSpd t lo i n).samples[k]? = some ⟨lo + k * i, tableFn t lo i (lo + k * i)⟩ :=
    fun k hk => onGrid_get _ _ _ _ _ k hk
  have hz : (tableSpd t lo i n).samples.getLast? =
      some ⟨lo + (n - 1 : ℕ) * i, tableFn t lo i (lo + (n - 1 : ℕ) * i)⟩ := by
    rw [List.getLast?_eq_getElem?, hsl]; exact g (n - 1) (by omega)
  have hlo : (lo:ℝ) ≤ x := by rw [hx]; nlinarith [Nat.cast_nonneg (α := ℝ) k]
  have hhi : x ≤ lo + (n - 1 : ℕ) * i := by rw [hx]; nlinarith
  unfold resampled
  have hc : max (tableSpd t lo i n).shape.start (min x (tableSpd t lo i n).shape.end) = x := by
    show max (lo:ℝ) (min x (lo + (n - 1 : ℕ) * i)) = x
    rw [min_eq_left hhi, max_eq_right hlo]
  rw [hc]
  have hb := spragueEval_between (tableSpd t lo i n) _ _ _ (g 0 (by omega)) (g 1 (by omega)) hz
    (tableSpd_asc t lo i n hi) k _ _ (g k (by omega)) (g (k + 1) hk) x (by rw [hx]; simp; nlinarith)
    (by rw [hx]; simp; nlinarith)
  rw [hb]
  dsimp only
  unfold spragueAt
  have hX : ∀ (a b z : ℝ) (j : ℕ), j < n → (extX (tableSpd t lo i n) a b z).getD (j + 2) Flt.zero = lo + j * i :=
    fun a b z j hj => extX_getD _ _ _ _ _ j _ (g j hj)
  have hzero : (Flt.zero : ℝ) = 0 := by simp [Flt.zero]
  have hX1 := fun a b z => hX a b z k (by omega)
  have hX2 := fun a b z => hX a b z (k + 1) hk
  simp only [show k + 2 + 1 = k + 1 + 2 by omega]
  rw [hX1, hX2, hzero]
  have hdd : (x - (lo + k * i)) / ((lo + ((k + 1 : ℕ) : ℝ) * i) - (lo + k * i)) = d := by
    rw [hx, div_eq_iff (by push_cast; ring_nf; exact hi'.ne')]; push_cast; ring
  rw [hdd, spraguePoly_real]
  simp only [show k + 2 - 2 = k by omega, show k + 2 - 1 = k + 1 by omega,
    show k + 1 + 2 = k + 3 by omega, show k + 2 + 2 = k + 4 by omega, show k + 2 + 3 = k + 5 by omega]
  simp only [extY_extQ t lo i n hi hl h6 k (by omega), extY_extQ t lo i n hi hl h6 (k + 1) (by omega),
    extY_extQ t lo i n hi hl h6 (k + 2) (by omega), extY_extQ t lo i n hi hl h6 (k + 3) (by omega),
    extY_extQ t lo i n hi hl h6 (k + 4) (by omega), extY_extQ t lo i n hi hl h6 (k + 5) (by omega)]
  unfold sprQ
  push_cast
  rfl

/-- resampling a table at one of its samples -/
theorem resampled_knot (t : List (ℚ × ℚ)) (lo i : ℚ) (n : ℕ) (hi : 0 < i) (h2 : 2 ≤ n) (k : ℕ)
    (hk : k < n) (x : ℝ) (hx : x = lo + k * i) :
    resampled (tableSpd t lo i n) x = (((t.map Prod.snd).getD k 0 : ℚ) : ℝ) := by
  unfold tableSpd
  rw [resampled_onGrid _ _ _ _ _ (by exact_mod_cast hi) h2 (by rw [Nat.cast_sub (by omega)]; simp) k hk
    x hx, hx, tableFn_grid t lo i hi k]

/-- the value of a 5 nm table starting at 300 nm, at `360 + k` nm -/
def dQ (v : List ℚ) (k : ℕ) : ℚ :=
  if k % 5 = 0 then v.getD (12 + k / 5) 0 else sprQ v (12 + k / 5) ((k % 5 : ℕ) / 5)

theorem resampled_d (t : List (ℚ × ℚ)) (n : ℕ) (hl : t.length = n) (hn : 97 ≤ n) (k : ℕ) (hk : k < 421) :
    resampled (tableSpd t 300 5 n) (360 + k) = ((dQ (t.map Prod.snd) k : ℚ) : ℝ) := by
  unfold dQ
  have hm : ((k / 5 : ℕ) : ℝ) * 5 + ((k % 5 : ℕ) : ℝ) = k := by
    exact_mod_cast (by omega : k / 5 * 5 + k % 5 = k)
  split
  · rename_i h0
    rw [h0] at hm
    refine resampled_knot t 300 5 n (by norm_num) (by omega) (12 + k / 5) (by omega) _ ?_
    push_cast at hm ⊢
    linarith
  · have h5 : k % 5 < 5 := Nat.mod_lt _ (by norm_num)
    refine resampled_between t 300 5 n (by norm_num) hl (by omega) (12 + k / 5) (by omega) _
      (by positivity) ?_ _ ?_
    · rw [div_lt_one (by norm_num)]; exact_mod_cast h5
    · push_cast at hm ⊢
      linarith

theorem sum_range_list (n : ℕ) (f : ℕ → ℚ) :
    ∑ k ∈ Finset.range n, ((f k : ℚ) : ℝ) = ((((List.range n).map f).sum : ℚ) : ℝ) := by
  induction n with
  | zero => simp
  | succ n ih =>
    rw [Finset.sum_range_succ, ih, List.range_succ]
    simp

end CS
